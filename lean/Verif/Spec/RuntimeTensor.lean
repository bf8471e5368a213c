import Verif.Model.RuntimeTensor
import Verif.Spec.Tensor
/-
Vocabulary for runtime tensors and runtime views.
-/
namespace Einsums
open Spec Model

/-- A usable runtime view: sane layout, and counters that belong to its dimensions. -/
structure Model.RtView.WF (v : RtView α) : Prop where
  view : v.view.WF
  strides : v.ixStrides = (dimsToStrides v.view.dims).2
  size : v.size = numel v.view.dims

namespace Spec

/-- The arguments of a subscript with the missing trailing ones filled in as `All`. -/
def padAll (rank : Nat) (args : List Sel) : List Sel := args ++ List.replicate (rank - args.length) .all

/-- A value of a signed 64-bit integer type. -/
def IsInt64 (i : Int) : Prop := -2 ^ 63 ≤ i ∧ i < 2 ^ 63

/-- Every range among the arguments has a start that is not negative and below its end. -/
def ForwardRanges (args : List Sel) : Prop := ∀ a b, Sel.range a b ∈ args → 0 ≤ a ∧ a < b

/-- An argument that lies outside an axis of dimension `d`: an integer past the end, or so negative that counting from the
end twice does not reach the axis; a range without negative bounds that is empty or ends past the axis. -/
def ArgOutside (d : Nat) : Sel → Prop
  | .at k => IsInt64 k ∧ ((d : Int) ≤ k ∨ k < -(2 * d : Int))
  | .all => False
  | .range a b => IsInt64 a ∧ IsInt64 b ∧ 0 ≤ a ∧ 0 ≤ b ∧ ((d : Int) < b ∨ b ≤ a)

/-- The writes of a history whose index is valid, with the elements they denote. -/
def validWrites (dims : List Nat) (ws : List (List Int × α)) : List (List Nat × α) :=
  ws.filterMap fun w => (pyIndices dims w.1).map fun j => (j, w.2)

end Spec
end Einsums
