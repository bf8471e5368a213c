import Mathlib.Algebra.BigOperators.Fin
import Verif.Props.LinAlg
import Verif.Props.Tensor
import Verif.Proofs.LapackFront
import Verif.Proofs.Inverse
import Verif.Model.Spectral
import Verif.Spec.Spectral
/-
Matrix products of `gemm`, and scaled rows and columns, as statements about matrices.
-/
namespace Einsums
open Spec Model Props

section
variable {R : Type}

theorem exists_mat [Zero R] {m n : Nat} (M : Matrix (Fin m) (Fin n) R) : ∃ f, M = mat m n f :=
  ⟨fun i j => if h : i < m ∧ j < n then M ⟨i, h.1⟩ ⟨j, h.2⟩ else 0, by funext i j; simp [mat]⟩

/-- A matrix tensor represents the function of the pair of indices. -/
theorem represents_of_holds {t : Strided R} {m n : Nat} {f : Nat → Nat → R} (h : Holds t (mat m n f)) :
    t.Represents fun l => f (l.getD 0 0) (l.getD 1 0) := by
  intro idx hb
  rw [h.dims] at hb
  obtain ⟨i, j, rfl, hi, hj⟩ := inBox2_cases hb
  exact h.elems ⟨i, hi⟩ ⟨j, hj⟩

theorem holds_of_wf [Zero R] {t : Strided R} {m n : Nat} (w : t.WF) (d : t.dims = [m, n]) : ∃ f, Holds t (mat m n f) := by
  have : Inhabited R := ⟨0⟩
  obtain ⟨f, hf⟩ := exists_represents w
  exact ⟨fun i j => f [i, j], d, fun i j => hf [i.1, j.1] (by rw [d]; simp [InBox])⟩

theorem sumTo_fin [AddCommMonoid R] (n : Nat) (g : Nat → R) : sumTo n g = ∑ l : Fin n, g l := by
  unfold sumTo
  rw [← List.sum_ofFn]
  congr 1
  apply List.ext_getElem <;> simp

/-- `gemm` on matrices with contiguous rows. -/
theorem gemm_holds [CommRing R] [BEq R] [LawfulBEq R] {ta tb : Bool} {m n k : Nat} {alpha beta : R} {A B C : Strided R}
    {lda ldb ldc : Nat} {a b c : Nat → Nat → R} (sA : A.strides = [lda, 1]) (sB : B.strides = [ldb, 1])
    (sC : C.strides = [ldc, 1]) (hlda : (if ta then m else k) ≤ lda) (hldb : (if tb then k else n) ≤ ldb) (hldc : n ≤ ldc)
    (w : C.WF) (hA : Holds A (mat (if ta then k else m) (if ta then m else k) a))
    (hB : Holds B (mat (if tb then n else k) (if tb then k else n) b)) (hC : Holds C (mat m n c))
    (hk : k = 0 → m = 0 ∨ n = 0) :
    ∃ C', gemm ta tb alpha A B beta C = .ok C' ∧ C.Frame C' ∧ Holds C' (mat m n fun i j =>
      beta * c i j + alpha * ∑ l : Fin k, (if ta then a l i else a i l) * (if tb then b j l else b l j)) := by
  by_cases hk0 : k = 0
  · have he : gemm ta tb alpha A B beta C = .ok C := by
      apply C25_empty_inner
      unfold Strided.dim
      rw [hA.dims]
      cases ta <;> simp [hk0]
    refine ⟨C, he, ⟨rfl, rfl, rfl, rfl, fun _ _ => rfl⟩, hC.dims, fun i j => ?_⟩
    rcases hk hk0 with h | h
    · exact absurd i.2 (by omega)
    · exact absurd j.2 (by omega)
  · obtain ⟨C', e1, e2, e3⟩ := C25_gemm_partial ta tb m n k alpha beta A B C lda ldb ldc _ _ _
      (by rw [hA.dims]; cases ta <;> rfl) (by rw [hB.dims]; cases tb <;> rfl) hC.dims sA sB sC hlda hldb hldc
      (represents_of_holds hA) (represents_of_holds hB) w (represents_of_holds hC) hk0
    refine ⟨C', e1, e2, by rw [e2.dims]; exact hC.dims, fun i j => ?_⟩
    rw [e3 i j i.2 j.2, sumTo_fin]
    simp [mat, opElem]

/-- A fresh matrix tensor. -/
theorem fresh_matrix (z : Nat → R) (m n : Nat) :
    (Strided.mk' z [m, n]).IsTensor ∧ (Strided.mk' z [m, n]).strides = [n, 1] ∧ (Strided.mk' z [m, n]).dims = [m, n] :=
  ⟨isTensor_mk' z (by simp), tensor_strides2 (isTensor_mk' z (by simp)) rfl, rfl⟩

theorem isTensor_of_frame {t t' : Strided R} (w : t.IsTensor) (h : t.Frame t') : t'.IsTensor where
  off := by rw [h.off, w.off]
  strides := by rw [h.strides, h.dims, w.strides]
  length := by rw [h.length, h.dims, w.length]

/-- `gemm` as a product of matrices. -/
theorem gemm_mul [CommRing R] [BEq R] [LawfulBEq R] {ta tb : Bool} {m n k : Nat} {alpha beta : R} {A B C : Strided R}
    {lda ldb ldc : Nat} {a b : Nat → Nat → R} {c : Matrix (Fin m) (Fin n) R} (sA : A.strides = [lda, 1])
    (sB : B.strides = [ldb, 1]) (sC : C.strides = [ldc, 1]) (hlda : (if ta then m else k) ≤ lda)
    (hldb : (if tb then k else n) ≤ ldb) (hldc : n ≤ ldc) (w : C.WF)
    (hA : Holds A (mat (if ta then k else m) (if ta then m else k) a))
    (hB : Holds B (mat (if tb then n else k) (if tb then k else n) b)) (hC : Holds C c) (hk : k = 0 → m = 0 ∨ n = 0) :
    ∃ C', gemm ta tb alpha A B beta C = .ok C' ∧ C.Frame C' ∧
      Holds C' (beta • c + alpha • (opMat ta m k a * opMat tb k n b)) := by
  obtain ⟨c, rfl⟩ := exists_mat c
  obtain ⟨C', e1, e2, e3⟩ := gemm_holds (alpha := alpha) (beta := beta) sA sB sC hlda hldb hldc w hA hB hC hk
  refine ⟨C', e1, e2, ?_⟩
  convert e3 using 1
  funext i j
  simp only [Matrix.add_apply, Matrix.smul_apply, Matrix.mul_apply, mat, smul_eq_mul]
  cases ta <;> cases tb <;> simp [opMat]

/-- `gemm` of `Tensor`s into a new tensor. -/
theorem gemmNew_mul [CommRing R] [BEq R] [LawfulBEq R] {ta tb : Bool} {m n k : Nat} {alpha : R} {A B : Strided R}
    {a b : Nat → Nat → R} (z : Nat → R) (wA : A.IsTensor) (wB : B.IsTensor)
    (hA : Holds A (mat (if ta then k else m) (if ta then m else k) a))
    (hB : Holds B (mat (if tb then n else k) (if tb then k else n) b)) (hk : k = 0 → m = 0 ∨ n = 0) :
    ∃ C', gemmNew z ta tb alpha A B = .ok C' ∧ C'.IsTensor ∧
      Holds C' (alpha • (opMat ta m k a * opMat tb k n b)) := by
  have e : Strided.mk' z [if ta then A.dim 1 else A.dim 0, if tb then B.dim 0 else B.dim 1] = Strided.mk' z [m, n] := by
    unfold Strided.dim
    rw [hA.dims, hB.dims]
    cases ta <;> cases tb <;> rfl
  obtain ⟨w, s, d⟩ := fresh_matrix z m n
  obtain ⟨c, hc⟩ := holds_of_wf w.wf d
  obtain ⟨C', e1, e2, e3⟩ := gemm_mul (alpha := alpha) (beta := 0) (tensor_strides2 wA hA.dims) (tensor_strides2 wB hB.dims) s
    (Nat.le_refl _) (Nat.le_refl _) (Nat.le_refl _) w.wf hA hB hc hk
  refine ⟨C', by rw [← e1]; unfold gemmNew; rw [e], isTensor_of_frame w e2, ?_⟩
  simpa using e3

theorem isTensor_zero [Zero R] {t : Strided R} (w : t.IsTensor) : t.zero.IsTensor where
  off := w.off
  strides := w.strides
  length := by simp [Strided.zero, w.length]

theorem holds_zero [Zero R] {t : Strided R} (w : t.IsTensor) {m n : Nat} (d : t.dims = [m, n]) :
    Holds t.zero (0 : Matrix (Fin m) (Fin n) R) := by
  refine ⟨d, fun i j => ?_⟩
  rw [read2_iff (t := t.zero) d (tensor_strides2 (isTensor_zero w) d)]
  have h : (t.zero.off + i.1 * n + j.1) < t.data.length := by
    have := (isTensor_zero w).wf.bound [i.1, j.1] (by rw [show t.zero.dims = t.dims from rfl, d]; simp [InBox])
    rw [tensor_strides2 (isTensor_zero w) d] at this
    simp [dot, Strided.zero] at this ⊢
    omega
  simp only [Strided.zero] at h ⊢
  simp [h]

end
end Einsums
