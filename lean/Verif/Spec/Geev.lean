import Mathlib.LinearAlgebra.Matrix.Charpoly.Basic
import Verif.Spec.Spectral
/-
Complex eigenvalues and eigenvectors of real matrices, in terms of their parts, and what is assumed of xGEEV.
-/
namespace Einsums.Spec
open Model Matrix Polynomial

/-- `x + iy ≠ 0` and `A (x + iy) = (p + iq) (x + iy)`. -/
def IsRightPair [CommRing R] (A : Matrix (Fin n) (Fin n) R) (p q : R) (x y : Fin n → R) : Prop :=
  (x ≠ 0 ∨ y ≠ 0) ∧ A *ᵥ x = p • x - q • y ∧ A *ᵥ y = p • y + q • x

/-- `x + iy ≠ 0` and `(x + iy)ᴴ A = (p + iq) (x + iy)ᴴ`. -/
def IsLeftPair [CommRing R] (A : Matrix (Fin n) (Fin n) R) (p q : R) (x y : Fin n → R) : Prop :=
  (x ≠ 0 ∨ y ≠ 0) ∧ x ᵥ* A = p • x + q • y ∧ y ᵥ* A = p • y - q • x

/-- LAPACK's packing: the real part of the eigenvector of the j-th eigenvalue, whose imaginary part is `wi j`. -/
def packedRe [Zero R] [LT R] [DecidableRel (LT.lt : R → R → Prop)] (n : Nat) (wi : Nat → R) (V : Nat → Nat → R) (j : Nat) : Fin n → R :=
  fun i => if wi j < 0 then V i (j - 1) else V i j

/-- ... and its imaginary part. -/
def packedIm [Zero R] [Neg R] [LT R] [DecidableRel (LT.lt : R → R → Prop)] (n : Nat) (wi : Nat → R) (V : Nat → Nat → R) (j : Nat) :
    Fin n → R :=
  fun i => if wi j < 0 then -V i j else if 0 < wi j then V i (j + 1) else 0

/-- The eigenvalues with their multiplicities: `A` has the characteristic polynomial with the roots `wr j + i wi j`, the
complex ones in conjugate pairs, the one with positive imaginary part first. -/
def IsSpectrum [CommRing R] [LinearOrder R] (A : Matrix (Fin n) (Fin n) R) (wr wi : Nat → R) : Prop :=
  (∀ j, j < n → 0 < wi j → j + 1 < n ∧ wr (j + 1) = wr j ∧ wi (j + 1) = -wi j) ∧
  (∀ j, j < n → wi j < 0 → 0 < j ∧ 0 < wi (j - 1)) ∧
  A.charpoly = ∏ j : Fin n, (if wi j = 0 then X - C (wr j) else if 0 < wi j then (X - C (wr j)) ^ 2 + C (wi j ^ 2) else 1)

/-- xGEEV, JOBVL = JOBVR = 'V'. -/
structure IsGeev [CommRing R] [LinearOrder R] (n : Nat) (A : Nat → Nat → R) (wr wi : Nat → R) (vl vr : Nat → Nat → R) : Prop where
  spectrum : IsSpectrum (mat n n A) wr wi
  right : ∀ j, j < n → IsRightPair (mat n n A) (wr j) (wi j) (packedRe n wi vr j) (packedIm n wi vr j)
  left : ∀ j, j < n → IsLeftPair (mat n n A) (wr j) (wi j) (packedRe n wi vl j) (packedIm n wi vl j)

end Einsums.Spec
