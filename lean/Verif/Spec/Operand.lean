import Verif.Model.Dispatch
import Verif.Spec.Tensor
/-
Operands of einsum as a program can build them.
-/
namespace Einsums
open Spec Model

/-- A `Tensor` owns row-major storage; a view marked as the full view of its storage is row-major; any
other view addresses distinct elements inside its storage. -/
structure Model.Operand.Valid (X : Operand R) : Prop where
  wf : X.t.WF
  full : X.full = true → X.t.RowMajor
  tensor : X.isView = false → X.full = true ∧ X.t.IsTensor

/-- Two occurrences of one label, in operands with labels `Xl`, `Yl` and dimensions `X`, `Y`, whose
dimensions differ. -/
def Spec.Clash (Xl : List L) (X : List Nat) (Yl : List L) (Y : List Nat) : Prop :=
  ∃ (l : L) (a b x y : Nat), Xl[a]? = some l ∧ Yl[b]? = some l ∧ X[a]? = some x ∧ Y[b]? = some y ∧ x ≠ y

end Einsums
