import Verif.Model.DeviceRef
import Verif.Spec.Block
/-
Specification of the element access of device tensors: every tensor is an array of values indexed by multi-indices.
-/
namespace Einsums
open Spec Model

/-- The tensors lie in separate allocations on the side their mode says, and tensor `k` has the value `f k i` at the
multi-index `i`. -/
structure DevHolds {R : Type} (M : DevMem R) (Ts : List DevTensor) (f : Nat → List Nat → R) : Prop where
  values : ∀ (k : Nat) (t : DevTensor), Ts[k]? = some t → t.mode ≠ .unknown ∧ t.strides = (dimsToStrides t.dims).2 ∧
    ∃ data : List R, M[t.buf]? = some ⟨decide (t.mode ≠ .devOnly), data⟩ ∧ data.length = numel t.dims ∧
      ∀ i, InBox i t.dims → data[rowMajor i t.dims]? = some (f k i)
  apart : ∀ (k l : Nat) (t u : DevTensor), Ts[k]? = some t → Ts[l]? = some u → t.buf = u.buf → k = l

/-- Statements of a program on the tensors with the given numbers. -/
inductive RefStmt (R : Type) where
  /-- `T(i...) = v` -/
  | set (k : Nat) (idx : List Int) (v : R)
  /-- `T(i...) OP= v` -/
  | compound (k : Nat) (idx : List Int) (op : RefOp) (v : R)
  /-- `T(i...) = U(j...)` -/
  | setRef (k : Nat) (idx : List Int) (l : Nat) (jdx : List Int)
  /-- `T(i...) OP= U(j...)` -/
  | compoundRef (k : Nat) (idx : List Int) (op : RefOp) (l : Nat) (jdx : List Int)

section
variable {R : Type} [Zero R] [Add R] [Sub R] [Mul R] [Div R]

/-- `T(i...)` for the tensor with number `k`. -/
def refOf (Ts : List DevTensor) (k : Nat) (idx : List Int) : Outcome HDRef :=
  match Ts[k]? with
  | some t => t.ref idx
  | none => .ub "no such tensor"

/-- The statement in the model. -/
def RefStmt.run (Ts : List DevTensor) (M : DevMem R) : RefStmt R → Outcome (DevMem R)
  | .set k idx v => do
      let r ← refOf Ts k idx
      r.assign M v
  | .compound k idx op v => do
      let r ← refOf Ts k idx
      r.compound M op v
  | .setRef k idx l jdx => do
      let r ← refOf Ts k idx
      let s ← refOf Ts l jdx
      r.assignRef M s
  | .compoundRef k idx op l jdx => do
      let r ← refOf Ts k idx
      let s ← refOf Ts l jdx
      r.compoundRef M op s

/-- A program in the model. -/
def runRefs (Ts : List DevTensor) : List (RefStmt R) → DevMem R → Outcome (DevMem R)
  | [], M => .ok M
  | s :: p, M => s.run Ts M >>= runRefs Ts p

/-- The multi-index that `T(i...)` means (negative indices count from the end), if it is in range. -/
def placeOf (Ts : List DevTensor) (k : Nat) (idx : List Int) : Option (Nat × List Nat) :=
  match Ts[k]? with
  | some t => (pyIndices t.dims idx).map (k, ·)
  | none => none

/-- The usual meaning of the operators. -/
def Model.RefOp.meaning : RefOp → R → R → R
  | .add, a, b => a + b
  | .sub, a, b => a - b
  | .mul, a, b => a * b
  | .div, a, b => a / b

/-- The values with one of them replaced. -/
def setAt (f : Nat → List Nat → R) (p : Nat × List Nat) (v : R) : Nat → List Nat → R :=
  fun k i => if (k, i) = p then v else f k i

/-- What the statement means on arrays of values; `none` for an index out of range. -/
def RefStmt.spec (Ts : List DevTensor) (f : Nat → List Nat → R) : RefStmt R → Option (Nat → List Nat → R)
  | .set k idx v => (placeOf Ts k idx).map fun p => setAt f p v
  | .compound k idx op v => (placeOf Ts k idx).map fun p => setAt f p (op.meaning (f p.1 p.2) v)
  | .setRef k idx l jdx => (placeOf Ts k idx).bind fun p => (placeOf Ts l jdx).map fun q => setAt f p (f q.1 q.2)
  | .compoundRef k idx op l jdx => (placeOf Ts k idx).bind fun p => (placeOf Ts l jdx).map fun q =>
      setAt f p (op.meaning (f p.1 p.2) (f q.1 q.2))

/-- A program on arrays of values. -/
def specRefs (Ts : List DevTensor) : List (RefStmt R) → (Nat → List Nat → R) → Option (Nat → List Nat → R)
  | [], f => some f
  | s :: p, f => (s.spec Ts f).bind (specRefs Ts p)

end

end Einsums
