import Mathlib.Data.Complex.Basic
import Verif.Spec.Spectral
/-
Hermitian eigenproblems, and what is assumed of the LAPACK routine: its documentation, in exact arithmetic.
-/
namespace Einsums.Spec
open Matrix

/-- The Hermitian matrix whose elements above the diagonal are those of `f`, and whose diagonal is the real part of that of `f`. -/
def hermUpper (f : Nat → Nat → ℂ) : Nat → Nat → ℂ := fun i j =>
  if i < j then f i j else if i = j then ((f i i).re : ℂ) else star (f j i)

/-- The Hermitian matrix whose elements below the diagonal are those of `f`, and whose diagonal is the real part of that of `f`. -/
def hermLower (f : Nat → Nat → ℂ) : Nat → Nat → ℂ := fun i j =>
  if j < i then f i j else if i = j then ((f i i).re : ℂ) else star (f j i)

/-- xHEEV, JOBZ = 'V', UPLO = 'U': the eigenvalues `w` in ascending order, and orthonormal eigenvectors in the columns of `V`, of the
Hermitian matrix whose upper triangle is in `A`. -/
structure IsHeev (n : Nat) (A : Nat → Nat → ℂ) (out : (Nat → ℝ) × (Nat → Nat → ℂ)) : Prop where
  orthonormal : (mat n n out.2)ᴴ * mat n n out.2 = 1
  eigen : mat n n (hermUpper A) * mat n n out.2 = mat n n out.2 * diagonal fun k : Fin n => (out.1 k : ℂ)
  ascending : ∀ i j, i ≤ j → j < n → out.1 i ≤ out.1 j

end Einsums.Spec
