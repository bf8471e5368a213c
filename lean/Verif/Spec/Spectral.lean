import Mathlib.Algebra.Order.Group.Abs
import Mathlib.LinearAlgebra.Matrix.Notation
import Verif.Spec.Factor
/-
Eigenvalues, matrix functions, and what is assumed of the LAPACK eigenvalue routines: their documentation, in exact
arithmetic.
-/
namespace Einsums.Spec
open Model Matrix

/-- `op(M)`: the matrix itself or its transpose, as a matrix of a given shape. -/
def opMat (trans : Bool) (m n : Nat) (f : Nat → Nat → R) : Matrix (Fin m) (Fin n) R :=
  if trans then fun i j => f j i else fun i j => f i j

/-! ### Eigenvectors -/

/-- The symmetric matrix whose upper triangle is that of `f`. -/
def fromUpper (f : Nat → Nat → R) : Nat → Nat → R := fun i j => if i ≤ j then f i j else f j i

/-- The symmetric matrix whose lower triangle is that of `f`. -/
def fromLower (f : Nat → Nat → R) : Nat → Nat → R := fun i j => if j ≤ i then f i j else f j i

/-- xSYEV, JOBZ = 'V', UPLO = 'U': the eigenvalues `w` in ascending order, and orthonormal eigenvectors in the columns of
`V`, of the symmetric matrix whose upper triangle is in `A`. -/
structure IsSyev [CommRing R] [LinearOrder R] (n : Nat) (A : Nat → Nat → R) (out : (Nat → R) × (Nat → Nat → R)) : Prop where
  orthonormal : (mat n n out.2)ᵀ * mat n n out.2 = 1
  eigen : mat n n (fromUpper A) * mat n n out.2 = mat n n out.2 * diagonal fun k : Fin n => out.1 k
  ascending : ∀ i j, i ≤ j → j < n → out.1 i ≤ out.1 j

/-- `x` is an eigenvalue of `A`. -/
def IsEigenvalue [CommRing R] (A : Matrix (Fin n) (Fin n) R) (x : R) : Prop := ∃ v, v ≠ 0 ∧ A *ᵥ v = x • v

/-- `r` is the largest magnitude of an eigenvalue. -/
def IsRadius [CommRing R] [LinearOrder R] (A : Matrix (Fin n) (Fin n) R) (r : R) : Prop :=
  (∃ x, IsEigenvalue A x ∧ |x| = r) ∧ ∀ x, IsEigenvalue A x → |x| ≤ r

/-- The scalar function of `pow`: `x ^ alpha`, with 0 for a value that is not finite and, when alpha is negative, for the
`x` whose magnitude is below `cutoff` times the largest one. -/
def cutPow [CommRing R] [LinearOrder R] (rpow : R → R → Option R) (alpha cutoff radius x : R) : R :=
  if alpha < 0 ∧ |x| < cutoff * radius then 0
  else match rpow x alpha with
    | some y => y
    | none => 0

/-! ### Lyapunov equation -/

/-- Upper quasi-triangular: no two consecutive non-zero elements on the subdiagonal, and zeros below it. -/
def QuasiUpper [Zero R] (n : Nat) (T : Nat → Nat → R) : Prop :=
  (∀ i j, i < n → j + 1 < i → T i j = 0) ∧ ∀ i, i + 2 < n → T (i + 1) i = 0 ∨ T (i + 2) (i + 1) = 0

/-- xGEES: the real Schur factorisation `A = VS T VSᵀ`, VS orthogonal, T quasi-triangular. -/
structure IsSchur [CommRing R] (n : Nat) (A : Nat → Nat → R) (out : (Nat → Nat → R) × (Nat → Nat → R)) : Prop where
  orthogonal : (mat n n out.2)ᵀ * mat n n out.2 = 1
  quasi : QuasiUpper n out.1
  eq : mat n n out.2 * mat n n out.1 * (mat n n out.2)ᵀ = mat n n A

/-- `T` is the quasi-triangular factor in some Schur factorisation of `M`. -/
def SchurFactor [CommRing R] (M : Matrix (Fin n) (Fin n) R) (T : Nat → Nat → R) : Prop :=
  QuasiUpper n T ∧ ∃ U : Matrix (Fin n) (Fin n) R, Uᵀ * U = 1 ∧ U * mat n n T * Uᵀ = M

/-- xTRSYL, TRANA = TRANB = 'N', ISGN = 1: for quasi-triangular A and B, `A X + X B = scale C` (INFO = 0), where
0 < scale ≤ 1 is chosen to avoid overflow in X. -/
def IsTrsyl [CommRing R] [LinearOrder R] (m n : Nat) (A B C : Nat → Nat → R) (out : R × (Nat → Nat → R)) : Prop :=
  QuasiUpper m A → QuasiUpper n B →
    mat m m A * mat m n out.2 + mat m n out.2 * mat n n B = out.1 • mat m n C ∧ 0 < out.1 ∧ out.1 ≤ 1

end Einsums.Spec
