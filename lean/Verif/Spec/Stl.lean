import Verif.Model.Stl
/-
What the utilities of STL.hpp should do.
-/
namespace Einsums.Spec

/-- Calls that change a circular buffer. -/
inductive BufferOp (α : Type) where
  | put (v : α)
  | reset

/-- The values put since the last reset, oldest first. -/
def putsSinceReset {α : Type} (ops : List (BufferOp α)) : List α :=
  ops.foldl (fun q op => match op with
    | .put v => q ++ [v]
    | .reset => []) []

/-- The last `n` elements of a list. -/
def lastN {α : Type} (n : Nat) (l : List α) : List α := l.drop (l.length - n)

/-- `t` is `s` without its surrounding white space. -/
def IsTrim (space : UInt8 → Bool) (s t : List UInt8) : Prop :=
  ∃ a b, s = a ++ t ++ b ∧ (∀ c ∈ a, space c = true) ∧ (∀ c ∈ b, space c = true) ∧
    (∀ c, t.head? = some c → space c = false) ∧ (∀ c, t.getLast? = some c → space c = false)

end Einsums.Spec

namespace Einsums.Model
open Spec

/-- Running calls on a buffer. -/
def runBuffer {α : Type} : List (BufferOp α) → CircularBuffer α → Outcome (CircularBuffer α)
  | [], b => .ok b
  | .put v :: ops, b => b.put v >>= runBuffer ops
  | .reset :: ops, b => runBuffer ops b.reset

end Einsums.Model
