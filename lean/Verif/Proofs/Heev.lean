import Mathlib.LinearAlgebra.Matrix.Hermitian
import Mathlib.LinearAlgebra.Matrix.NonsingularInverse
import Verif.Model.Heev
import Verif.Spec.Heev
import Verif.Proofs.Spectral
/-
Proofs about `heev`.
-/
namespace Einsums.Proofs
open Spec Model Matrix

theorem heevT_ok {K R : Type} [Zero K] {heev : HeevFn K R} {vectors : Bool} {n ld : Nat} {A : Strided K} {W : Strided R}
    (hs : A.strides = [ld, 1]) (hl : n ≤ ld) (hn : n ≠ 0) {a : Nat → Nat → K} (hA : Holds A (mat n n a)) (w : W.WF)
    (wd : W.dims = [n]) (ws : W.strides = [1]) :
    let r := heev vectors n (crop n n fun i j => a j i)
    ∃ A' W', heevT heev vectors A W = .ok (A', W') ∧ Holds A' (mat n n fun i j => r.2 j i) ∧ A.Frame A' ∧
      HoldsVec W' (fun i : Fin n => r.1 i) ∧ W.Frame W' := by
  intro r
  have h := (holdsMat_iff hA.dims hs a).1 hA
  have hc := colsAt_swap h
  obtain ⟨d', e1, e2, e3, e4⟩ := colStore_frame (m := n) (n := n) (M := r.2) (a := A.data) (off := A.off) (ld := ld) (by omega)
    (by
      intro i j hi hj
      have := hc i j hi hj
      exact (List.getElem?_eq_some_iff.1 this).1)
  obtain ⟨x, x1, x2, x3⟩ := vecStore_ok (v := r.1) w wd ws
  have d0 : A.dim 0 = n := by simp [Strided.dim, hA.dims]
  have d1 : A.dim 1 = n := by simp [Strided.dim, hA.dims]
  have st : A.stride 0 = ld := by simp [Strided.stride, hs]
  refine ⟨{ A with data := d' }, { W with data := x }, ?_, ?_, frame_of_rows hA.dims hs e2 e4, x3, x2⟩
  · unfold heevT
    rw [d0, d1, st, if_neg (by simp)]
    unfold vendorHeev
    rw [if_neg (by omega), colMat_ok hc]
    simp only [Outcome.ok_bind]
    rw [e1]
    simp only [Outcome.ok_bind]
    rw [x1]
    rfl
  · exact (holdsMat_iff (t := Strided.mk d' A.off A.dims A.strides) hA.dims hs _).2 (rowsAt_swap e3)

/-- The Hermitian matrix LAPACK works on: the transpose of the one given by the tensor's lower triangle. -/
theorem herm_upper_lower (n : Nat) (a : Nat → Nat → ℂ) :
    mat n n (hermUpper (crop n n fun i j => a j i)) = (mat n n (hermLower a))ᵀ := by
  funext i j
  simp only [mat, hermUpper, hermLower, crop, transpose_apply]
  rcases lt_trichotomy i.1 j.1 with h | h | h
  · simp [h]
  · simp [h]
  · simp [Nat.not_lt.2 (le_of_lt h), Nat.ne_of_gt h, Nat.ne_of_lt h]

theorem hermLower_herm {n : Nat} {a : Nat → Nat → ℂ} (h : (mat n n a).IsHermitian) : mat n n (hermLower a) = mat n n a := by
  funext i j
  have hij := h.apply i j
  simp only [mat, hermLower] at hij ⊢
  split
  · rfl
  · split
    · have e : i = j := Fin.ext ‹_›
      subst e
      exact Complex.conj_eq_iff_re.1 hij
    · exact hij

theorem hermLower_isHermitian (n : Nat) (a : Nat → Nat → ℂ) : (mat n n (hermLower a)).IsHermitian := by
  refine IsHermitian.ext fun i j => ?_
  simp only [mat, hermLower]
  rcases lt_trichotomy i.1 j.1 with h | h | h
  · simp [h, Nat.not_lt.2 (le_of_lt h), Nat.ne_of_lt h]
  · simp [Fin.ext h]
  · simp [h, Nat.not_lt.2 (le_of_lt h), Nat.ne_of_lt h]

section
variable {n : Nat} {H V : Matrix (Fin n) (Fin n) ℂ} {w : Fin n → ℝ}

/-- The conjugates of the columns are eigenvectors of the transpose. -/
theorem heev_conj (hH : H.IsHermitian) (he : Hᵀ * V = V * diagonal fun k => (w k : ℂ)) (k : Fin n) :
    H *ᵥ star (fun i => V i k) = (w k : ℂ) • star (fun i => V i k) := by
  have h := diag_column he k
  have h2 := congrArg star h
  rw [star_mulVec, conjTranspose_transpose_comm hH] at h2
  rw [star_smul] at h2
  simpa [← mulVec_transpose] using h2
where
  conjTranspose_transpose_comm {H : Matrix (Fin n) (Fin n) ℂ} (hH : H.IsHermitian) : Hᵀᴴ = Hᵀ := by
    rw [conjTranspose_transpose_eq_transpose_conjTranspose, hH.eq]
  conjTranspose_transpose_eq_transpose_conjTranspose {H : Matrix (Fin n) (Fin n) ℂ} : Hᵀᴴ = Hᴴᵀ := rfl

/-- If the columns were eigenvectors of H as well, H would be symmetric. -/
theorem heev_symm (ho : Vᴴ * V = 1) (he : Hᵀ * V = V * diagonal fun k => (w k : ℂ))
    (h : ∀ k, H *ᵥ (fun i => V i k) = (w k : ℂ) • fun i => V i k) : Hᵀ = H := by
  have ho' : V * Vᴴ = 1 := mul_eq_one_comm.1 ho
  have he2 : H * V = V * diagonal fun k => (w k : ℂ) := by
    funext i k
    have := congrFun (h k) i
    rw [mul_diagonal, mul_comm]
    exact this
  calc Hᵀ = Hᵀ * V * Vᴴ := by rw [Matrix.mul_assoc, ho', Matrix.mul_one]
    _ = H * V * Vᴴ := by rw [he, he2]
    _ = H := by rw [Matrix.mul_assoc, ho', Matrix.mul_one]

end

end Einsums.Proofs
