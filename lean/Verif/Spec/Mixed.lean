import Verif.Model.BlockAlgebra
import Verif.Spec.TiledTensor
import Verif.Spec.Block
/-
The elements of an operand that is a block tensor or a tiled tensor.
-/
namespace Einsums
open Spec Model

/-- The operand has one axis for each label of `Xl`; the axis of label `l` is cut into the intervals `P l` (a block tensor
has the same intervals on every axis), and its elements are given by the function `f` of the multi-index: for a tiled
tensor as they are read, for a block tensor the elements of the blocks, and zero between them. -/
def Model.GridTensor.Elements {L R : Type} [Zero R] (X : GridTensor R) (Xl : List L) (P : L → List Nat) (f : List Nat → R) : Prop :=
  match X with
  | .tiled T => T.WF ∧ T.sizes = Xl.map P ∧ T.Represents f
  | .block T => ∃ bs : Blocks R, T.Models Xl.length bs ∧ (∀ l ∈ Xl, P l = bs.sizes) ∧
      ∀ j, InBox j (List.replicate Xl.length bs.sizes.sum) → f j = bs.elem j

end Einsums
