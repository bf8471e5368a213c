import Verif.Model.DeviceScalar
import Verif.Spec.DeviceRef

/-
Specification of device tensors of no dimensions: they are variables.
-/
namespace Einsums
open Spec Model

section
variable {R : Type} [Zero R] [Add R] [Sub R] [Mul R] [Div R]

/-- The statement on variables: `V[k]` is the value of variable `k`, or `none` after its end.  The second result is the value read.  A new
variable without a value is 0 in the mode MAPPED, and `z k` otherwise.  `none` for variables that do not exist (any more) and for the
creation of a variable with an unknown mode; a copy with the mode UNKNOWN takes the mode of the original. -/
def specDev0Step (z : Nat → R) (V : List (Option R)) : Dev0Op R → Option (List (Option R) × Option R)
  | .declare => some (V ++ [some (z V.length)], none)
  | .ofDims mode | .named _ mode =>
      if mode = .unknown then none else some (V ++ [some (if mode = .mapped then 0 else z V.length)], none)
  | .copy src _ => (V[src]?.join).map fun v => (V ++ [some v], none)
  | .ofHost v mode => if mode = .unknown then none else some (V ++ [some v], none)
  | .assign dst src => (V[dst]?.join).bind fun _ => (V[src]?.join).map fun v => (V.set dst (some v), none)
  | .set k v => (V[k]?.join).map fun _ => (V.set k (some v), none)
  | .compound k op v => (V[k]?.join).map fun a => (V.set k (some (op.meaning a v)), none)
  | .get k => (V[k]?.join).map fun v => (V, some v)
  | .toHost k => (V[k]?.join).map fun v => (V, some v)
  | .destroy k => (V[k]?.join).map fun _ => (V.set k none, none)

/-- A program on variables, with the values read. -/
def specDev0 (z : Nat → R) : List (Dev0Op R) → List (Option R) → Option (List (Option R) × List R)
  | [], V => some (V, [])
  | c :: p, V => (specDev0Step z V c).bind fun r => (specDev0 z p r.1).map fun q => (q.1, r.2.toList ++ q.2)

omit [Zero R] [Add R] [Sub R] [Mul R] [Div R] in
/-- Copies without a mode: `DeviceTensor<T, 0> x(y)`. -/
def Model.Dev0Op.PlainCopy : Dev0Op R → Prop
  | .copy _ mode => mode = .unknown
  | _ => False

end

end Einsums
