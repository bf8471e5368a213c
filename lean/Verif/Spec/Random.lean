import Mathlib.Algebra.Order.Field.Basic
import Mathlib.LinearAlgebra.Matrix.Symmetric
import Verif.Spec.Spectral
import Verif.Spec.Lu
/-
Vocabulary for random tensors.
-/
namespace Einsums.Spec
open Matrix

/-- The k-th number drawn from an engine in state `g`: `draw` returns a number and the next state. -/
def drawn (draw : G → R × G) (g : G) : Nat → R
  | 0 => (draw g).1
  | k + 1 => drawn draw (draw g).2 k

/-- A symmetric matrix with positive eigenvalues. -/
def PositiveDefinite [CommRing R] [LinearOrder R] (M : Matrix (Fin n) (Fin n) R) : Prop :=
  M.IsSymm ∧ ∀ x, x ≠ 0 → 0 < x ⬝ᵥ M *ᵥ x

/-- A symmetric matrix without negative eigenvalues. -/
def PositiveSemidefinite [CommRing R] [LinearOrder R] (M : Matrix (Fin n) (Fin n) R) : Prop :=
  M.IsSymm ∧ ∀ x, 0 ≤ x ⬝ᵥ M *ᵥ x

end Einsums.Spec
