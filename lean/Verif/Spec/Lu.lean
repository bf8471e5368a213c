import Verif.Spec.Factor
import Mathlib.LinearAlgebra.Matrix.Determinant.Basic
/-
What LAPACK documents of xGETRF, xGETRI and xLANGE.
-/
namespace Einsums.Spec

variable {R : Type}

/-- Unit lower triangular (m×k), from the elements of `F` below the diagonal. -/
def unitLower [Zero R] [One R] (m k : Nat) (F : Nat → Nat → R) : Matrix (Fin m) (Fin k) R :=
  fun i j => if i.1 = j.1 then 1 else if j.1 < i.1 then F i j else 0

/-- The row interchanges: for i = 0, 1, …, k-1 in turn, row i is interchanged with row `p i` (1-based) - 1. -/
def interchanges (m k : Nat) (p : Nat → Nat) : Equiv.Perm (Fin m) :=
  ((List.range k).map fun i => if h : i < m ∧ p i - 1 < m then Equiv.swap ⟨i, h.1⟩ ⟨p i - 1, h.2⟩ else (1 : Equiv.Perm (Fin m))).prod

/-- xGETRF: `out` = (info, F, p).  The rows of A, interchanged, are L·U with L unit lower and U upper triangular, both stored
in F; the pivots do not lead upwards; `info = 0` unless U has a zero on its diagonal. -/
structure IsLU [CommRing R] (m n : Nat) (A : Nat → Nat → R) (out : Nat × (Nat → Nat → R) × (Nat → Nat)) : Prop where
  pivots : ∀ i, i < min m n → i + 1 ≤ out.2.2 i ∧ out.2.2 i ≤ m
  eq : (mat m n A).submatrix (interchanges m (min m n) out.2.2) id =
    unitLower m (min m n) out.2.1 * mat (min m n) n (upperPart out.2.1)
  info : out.1 = 0 ↔ ∀ i, i < min m n → out.2.1 i i ≠ 0

/-- xGETRI: given F and p of a factorisation whose U has no zero on its diagonal, `out` = (0, the inverse of the matrix
that was factored). -/
def IsGetri [CommRing R] (n : Nat) (F : Nat → Nat → R) (p : Nat → Nat) (out : Nat × (Nat → Nat → R)) : Prop :=
  (∀ i, i < n → F i i ≠ 0) → out.1 = 0 ∧
    mat n n out.2 * (unitLower n n F * mat n n (upperPart F)).submatrix (interchanges n n p).symm id = 1

/-- `v` is the largest absolute value of an element of A. -/
def IsMaxAbs [Lattice R] [AddGroup R] (m n : Nat) (A : Matrix (Fin m) (Fin n) R) (v : R) : Prop :=
  (∃ i j, v = |A i j|) ∧ ∀ i j, |A i j| ≤ v

/-- `v` is the largest sum of absolute values in a column. -/
def IsMaxColSum [Lattice R] [AddCommGroup R] (m n : Nat) (A : Matrix (Fin m) (Fin n) R) (v : R) : Prop :=
  (∃ j, v = ∑ i, |A i j|) ∧ ∀ j, ∑ i, |A i j| ≤ v

/-- `v` is the largest sum of absolute values in a row. -/
def IsMaxRowSum [Lattice R] [AddCommGroup R] (m n : Nat) (A : Matrix (Fin m) (Fin n) R) (v : R) : Prop :=
  (∃ i, v = ∑ j, |A i j|) ∧ ∀ i, ∑ j, |A i j| ≤ v

/-- `v` is the square root of the sum of the squares. -/
def IsFrobenius [AddCommMonoid R] [Mul R] [LE R] (m n : Nat) (A : Matrix (Fin m) (Fin n) R) (v : R) : Prop :=
  0 ≤ v ∧ v * v = ∑ i, ∑ j, A i j * A i j

end Einsums.Spec
