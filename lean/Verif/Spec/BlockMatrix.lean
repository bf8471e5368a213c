import Verif.Spec.Block
import Verif.Spec.Factor
/-
Block tensors of rank two as matrices.
-/
namespace Einsums.Spec

/-- The matrix of the elements of the whole tensor. -/
def Blocks.matrix {R : Type} [Zero R] (n : Nat) (bs : Blocks R) : Matrix (Fin n) (Fin n) R := fun i j => bs.elem [i.1, j.1]

/-- The matrix of one block. -/
def blockPart {R : Type} (p : Nat × (List Nat → R)) : Matrix (Fin p.1) (Fin p.1) R := fun i j => p.2 [i.1, j.1]

end Einsums.Spec
