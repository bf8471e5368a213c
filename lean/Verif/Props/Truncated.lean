import Verif.Proofs.Truncated
import Verif.Props.Lapack
/-
C109, C110: the randomised decompositions `truncated_svd` and `truncated_syev`.

`omega` are the numbers `create_random_tensor` happened to return; the theorems hold for all of them.  LAPACK: as in C98, C99
and C106, assumed only at the matrices that are passed to it (`thinQ`: the first columns of Q).
-/
namespace Einsums.Props
open Spec Model Matrix

/-! ### C109 -/

section
variable {R : Type} [CommRing R] [BEq R] [LawfulBEq R]

/-- **C109 (partial).** `truncated_svd(A, k)` of an m×n matrix with k + 5 ≤ m (n > 0; a tensor or a view with contiguous rows),
whatever random matrix Ω is drawn: U has k + 5 orthonormal columns, Vt is orthogonal, and U·Σ·Vt is the orthogonal projection of
A on the range of U, which contains the range of A·Ω.  Missing: k + 5 > m (`C109_refuted`). -/
theorem C109_svd_partial (geqrf : GeqrfFn R) (orgqr : OrgqrFn R) (gesdd : GesddFn R) (z omega : Nat → R) (m n k lda : Nat)
    (A : Strided R) (M : Matrix (Fin m) (Fin n) R) (Ω : Matrix (Fin n) (Fin (k + 5)) R)
    (hΩ : Ω = mat n (k + 5) fun i j => omega (i * (k + 5) + j)) (hA : Holds A M) (sA : A.strides = [lda, 1]) (hlda : n ≤ lda)
    (hn : 0 < n) (hk : k + 5 ≤ m)
    (qr : ∀ f, mat m (k + 5) f = M * Ω → IsQR m (k + 5) f (geqrf m (k + 5) f))
    (org : ∀ F t, IsOrgqr m (k + 5) (k + 5) F t (orgqr m (k + 5) (k + 5) F t))
    (svd : ∀ f g, mat m (k + 5) f = M * Ω → mat (k + 5) n g = (thinQ m (k + 5) (geqrf m (k + 5) f))ᵀ * M →
      IsSvd (k + 5) n g (gesdd .all (k + 5) n g).s (gesdd .all (k + 5) n g).u (gesdd .all (k + 5) n g).vt) :
    ∃ U S Vt, ∃ (u : Matrix (Fin m) (Fin (k + 5)) R) (s : Nat → R) (vt : Matrix (Fin n) (Fin n) R),
      truncatedSvd geqrf orgqr gesdd z omega A k = .ok (U, S, Vt) ∧ Holds U u ∧
      HoldsVec S (fun i : Fin (min (k + 5) n) => s i) ∧ Holds Vt vt ∧ uᵀ * u = 1 ∧ vt * vtᵀ = 1 ∧
      u * diagRect (k + 5) n s * vt = u * uᵀ * M ∧ u * uᵀ * (M * Ω) = M * Ω := by
  obtain ⟨a, rfl⟩ := exists_mat M
  have d0 : A.dim 0 = m := by simp [Strided.dim, hA.dims]
  have d1 : A.dim 1 = n := by simp [Strided.dim, hA.dims]
  obtain ⟨Q, f, r1, r2, r3, r4⟩ := rangeFinder_ok (geqrf := geqrf) (orgqr := orgqr) (z := z) (omega := omega) sA hlda hn hA hk org
  rw [← hΩ] at r3
  have L := qr f r3
  have hq := thinQ_orthonormal L hk
  have hp := thinQ_proj L hk
  rw [r3] at hp
  have svd := svd f
  generalize thinQ m (k + 5) (geqrf m (k + 5) f) = q at *
  obtain ⟨q', rfl⟩ := exists_mat q
  obtain ⟨wB, sB, dB⟩ := fresh_matrix z (k + 5) n
  obtain ⟨wU, sU, dU⟩ := fresh_matrix z m (k + 5)
  have sQ := tensor_strides2 r2 r4.dims
  obtain ⟨B, b1, b2, b3⟩ := gemm_mul (ta := true) (tb := false) (m := k + 5) (n := n) (k := m) (alpha := 1) (beta := 0) sQ sA sB
    (Nat.le_refl (k + 5)) hlda (Nat.le_refl n) wB.wf r4 hA (fresh_holds z (k + 5) n) (by omega)
  have b3 : Holds B ((mat m (k + 5) q')ᵀ * mat m n a) := by
    rw [zero_smul, zero_add, one_smul] at b3
    exact b3
  obtain ⟨g, hg⟩ := exists_mat ((mat m (k + 5) q')ᵀ * mat m n a)
  rw [hg] at b3
  obtain ⟨Ut, S, Vt, e1, e2, e3, e4⟩ := svdDd_ok (gesdd := gesdd) (isTensor_of_frame wB b2) b3 (job := .all) (Or.inl rfl)
  have L2 := svd (crop (k + 5) n g) r3 ((mat_crop _ _ _).trans hg.symm)
  simp only [if_true] at e2 e4
  rw [mat_crop] at e4
  obtain ⟨sUt, _⟩ := svdDd_strides b3.dims e1
  obtain ⟨U, u1, u2, u3⟩ := gemm_mul (ta := false) (tb := false) (m := m) (n := k + 5) (k := k + 5) (alpha := 1) (beta := 0) sQ
    sUt sU (Nat.le_refl (k + 5)) (Nat.le_refl (k + 5)) (Nat.le_refl (k + 5)) wU.wf r4 e2 (fresh_holds z m (k + 5)) (by omega)
  rw [zero_smul, zero_add, one_smul] at u3
  have u3 : Holds U (mat m (k + 5) q' * mat (k + 5) (k + 5) (gesdd .all (k + 5) n (crop (k + 5) n g)).u) := by
    rw [← mat_crop (k + 5) (k + 5) (gesdd .all (k + 5) n (crop (k + 5) n g)).u]
    exact u3
  refine ⟨U, S, Vt, _, _, _, ?_, u3, e3, e4, ?_, L2.right, ?_, ?_⟩
  · unfold truncatedSvd
    simp only [d0, d1, r1, b1, e1, u1, Outcome.ok_bind]
    rfl
  · rw [transpose_mul, Matrix.mul_assoc, ← Matrix.mul_assoc _ (mat m (k + 5) q'), hq, Matrix.one_mul, L2.left]
  all_goals
    have hu : mat m (k + 5) q' * mat (k + 5) (k + 5) (gesdd .all (k + 5) n (crop (k + 5) n g)).u *
        (mat m (k + 5) q' * mat (k + 5) (k + 5) (gesdd .all (k + 5) n (crop (k + 5) n g)).u)ᵀ =
        mat m (k + 5) q' * (mat m (k + 5) q')ᵀ := by
      rw [transpose_mul, Matrix.mul_assoc, ← Matrix.mul_assoc _ _ (mat m (k + 5) q')ᵀ, mul_eq_one_comm.1 L2.left,
        Matrix.one_mul]
    rw [hu]
  · have := L2.eq
    rw [mat_crop, ← hg] at this
    rw [Matrix.mul_assoc (mat m (k + 5) q'), Matrix.mul_assoc (mat m (k + 5) q'), this, ← Matrix.mul_assoc]
  · exact hp

/-- **C109 (partial: exact).** If the columns of A are combinations of those of A·Ω, as for almost every Ω when the rank of A
is at most k + 5, the result is a singular value decomposition of A itself. -/
theorem C109_exact_partial (geqrf : GeqrfFn R) (orgqr : OrgqrFn R) (gesdd : GesddFn R) (z omega : Nat → R) (m n k lda : Nat)
    (A : Strided R) (M : Matrix (Fin m) (Fin n) R) (Ω : Matrix (Fin n) (Fin (k + 5)) R)
    (hΩ : Ω = mat n (k + 5) fun i j => omega (i * (k + 5) + j)) (hA : Holds A M) (sA : A.strides = [lda, 1]) (hlda : n ≤ lda)
    (hn : 0 < n) (hk : k + 5 ≤ m)
    (qr : ∀ f, mat m (k + 5) f = M * Ω → IsQR m (k + 5) f (geqrf m (k + 5) f))
    (org : ∀ F t, IsOrgqr m (k + 5) (k + 5) F t (orgqr m (k + 5) (k + 5) F t))
    (svd : ∀ f g, mat m (k + 5) f = M * Ω → mat (k + 5) n g = (thinQ m (k + 5) (geqrf m (k + 5) f))ᵀ * M →
      IsSvd (k + 5) n g (gesdd .all (k + 5) n g).s (gesdd .all (k + 5) n g).u (gesdd .all (k + 5) n g).vt)
    (C : Matrix (Fin (k + 5)) (Fin n) R) (hC : M * Ω * C = M) :
    ∃ U S Vt, ∃ (u : Matrix (Fin m) (Fin (k + 5)) R) (s : Nat → R) (vt : Matrix (Fin n) (Fin n) R),
      truncatedSvd geqrf orgqr gesdd z omega A k = .ok (U, S, Vt) ∧ Holds U u ∧
      HoldsVec S (fun i : Fin (min (k + 5) n) => s i) ∧ Holds Vt vt ∧ uᵀ * u = 1 ∧ vt * vtᵀ = 1 ∧
      u * diagRect (k + 5) n s * vt = M := by
  obtain ⟨U, S, Vt, u, s, vt, h1, h2, h3, h4, h5, h6, h7, h8⟩ := C109_svd_partial geqrf orgqr gesdd z omega m n k lda A M Ω hΩ hA
    sA hlda hn hk qr org svd
  refine ⟨U, S, Vt, u, s, vt, h1, h2, h3, h4, h5, h6, ?_⟩
  rw [h7]
  conv_lhs => rw [← hC]
  rw [← Matrix.mul_assoc, h8, hC]

omit [CommRing R] [LawfulBEq R] in
theorem rangeFinder_reject [CommRing R] [LawfulBEq R] (geqrf : GeqrfFn R) (orgqr : OrgqrFn R) (z omega : Nat → R) (m n l lda : Nat)
    (A : Strided R) (M : Matrix (Fin m) (Fin n) R) (hA : Holds A M) (sA : A.strides = [lda, 1]) (hlda : n ≤ lda) (hn : 0 < n)
    (hk : m < l) : rangeFinder geqrf orgqr z omega A l = .error "XERBLA" := by
  obtain ⟨a, rfl⟩ := exists_mat M
  have d0 : A.dim 0 = m := by simp [Strided.dim, hA.dims]
  have d1 : A.dim 1 = n := by simp [Strided.dim, hA.dims]
  obtain ⟨wO, sO, dO⟩ := fresh_matrix omega n l
  obtain ⟨wY, sY, dY⟩ := fresh_matrix z m l
  obtain ⟨Y, y1, y2, y3⟩ := gemm_mul (ta := false) (tb := false) (m := m) (n := l) (k := n) (alpha := 1) (beta := 0) sA sO sY
    hlda (Nat.le_refl l) (Nat.le_refl l) wY.wf hA (fresh_holds omega n l) (fresh_holds z m l) (by omega)
  obtain ⟨f, hf⟩ := exists_mat ((0 : R) • (mat m l fun i j => z (i * l + j)) + (1 : R) • (opMat false m n a *
    opMat false n l fun i j => omega (i * l + j)))
  rw [hf] at y3
  have wY' := isTensor_of_frame wY y2
  have h := (holdsMat_iff y3.dims (tensor_strides2 wY' y3.dims) f).1 y3
  rw [wY'.off] at h
  obtain ⟨d, e1, _⟩ := viaColumns_ok (Nat.le_refl l) h (call := fun M => .ok (geqrf m l M)) rfl
  unfold rangeFinder
  simp only [d0, d1, y1, Outcome.ok_bind]
  unfold vendorGeqrf
  rw [if_neg (by omega), e1, Outcome.ok_bind]
  unfold vendorOrgqr
  rw [if_neg (by omega), if_pos (by omega)]
  rfl

/-- **C109 (refuted).** For every matrix with fewer than k + 5 rows — a 5×5 matrix and any k > 0 — LAPACK rejects the
call: there is no result. -/
theorem C109_refuted (geqrf : GeqrfFn R) (orgqr : OrgqrFn R) (gesdd : GesddFn R) (z omega : Nat → R) (m n k lda : Nat)
    (A : Strided R) (M : Matrix (Fin m) (Fin n) R) (hA : Holds A M) (sA : A.strides = [lda, 1]) (hlda : n ≤ lda) (hn : 0 < n)
    (hk : m < k + 5) : truncatedSvd geqrf orgqr gesdd z omega A k = .error "XERBLA" := by
  unfold truncatedSvd
  rw [rangeFinder_reject geqrf orgqr z omega m n (k + 5) lda A M hA sA hlda hn hk]
  rfl

end

/-! ### C110 -/

section
variable {R : Type} [CommRing R] [LinearOrder R] [BEq R] [LawfulBEq R]

/-- **C110 (partial).** `truncated_syev(A, k)` of a symmetric n×n matrix with k + 5 ≤ n, whatever random matrix Ω is drawn: U has
k + 5 orthonormal columns, w is in ascending order, Uᵀ·A·U is diagonal with w on its diagonal, and the range of U contains that
of A·Ω.  Missing: k + 5 > n (`C110_refuted`). -/
theorem C110_syev_partial (geqrf : GeqrfFn R) (orgqr : OrgqrFn R) (syev : SyevFn R) (z omega : Nat → R) (n k lda : Nat)
    (A : Strided R) (M : Matrix (Fin n) (Fin n) R) (Ω : Matrix (Fin n) (Fin (k + 5)) R)
    (hΩ : Ω = mat n (k + 5) fun i j => omega (i * (k + 5) + j)) (hA : Holds A M) (hM : M.IsSymm) (sA : A.strides = [lda, 1])
    (hlda : n ≤ lda) (hk : k + 5 ≤ n)
    (qr : ∀ f, mat n (k + 5) f = M * Ω → IsQR n (k + 5) f (geqrf n (k + 5) f))
    (org : ∀ F t, IsOrgqr n (k + 5) (k + 5) F t (orgqr n (k + 5) (k + 5) F t))
    (lapack : ∀ f g, mat n (k + 5) f = M * Ω → mat (k + 5) (k + 5) g =
      (thinQ n (k + 5) (geqrf n (k + 5) f))ᵀ * M * thinQ n (k + 5) (geqrf n (k + 5) f) →
      IsSyev (k + 5) g (syev true (k + 5) g)) :
    ∃ U W, ∃ (u : Matrix (Fin n) (Fin (k + 5)) R) (w : Fin (k + 5) → R),
      truncatedSyev geqrf orgqr syev z omega A k = .ok (U, W) ∧ Holds U u ∧ HoldsVec W w ∧ uᵀ * u = 1 ∧
      (∀ i j, i ≤ j → w i ≤ w j) ∧ uᵀ * M * u = diagonal w ∧ u * uᵀ * (M * Ω) = M * Ω := by
  obtain ⟨a, rfl⟩ := exists_mat M
  have d0 : A.dim 0 = n := by simp [Strided.dim, hA.dims]
  have d1 : A.dim 1 = n := by simp [Strided.dim, hA.dims]
  obtain ⟨Q, f, r1, r2, r3, r4⟩ := rangeFinder_ok (geqrf := geqrf) (orgqr := orgqr) (z := z) (omega := omega) sA hlda (by omega) hA
    hk org
  rw [← hΩ] at r3
  have L := qr f r3
  have hq := thinQ_orthonormal L hk
  have hp := thinQ_proj L hk
  rw [r3] at hp
  have lapack := lapack f
  generalize thinQ n (k + 5) (geqrf n (k + 5) f) = q at *
  obtain ⟨q', rfl⟩ := exists_mat q
  obtain ⟨wT, sT, dT⟩ := fresh_matrix z (k + 5) n
  obtain ⟨wB, sB, dB⟩ := fresh_matrix z (k + 5) (k + 5)
  obtain ⟨wU, sU, dU⟩ := fresh_matrix z n (k + 5)
  have sQ := tensor_strides2 r2 r4.dims
  obtain ⟨T, t1, t2, t3⟩ := gemm_mul (ta := true) (tb := false) (m := k + 5) (n := n) (k := n) (alpha := 1) (beta := 0) sQ sA sT
    (Nat.le_refl (k + 5)) hlda (Nat.le_refl n) wT.wf r4 hA (fresh_holds z (k + 5) n) (by omega)
  have t3 : Holds T ((mat n (k + 5) q')ᵀ * mat n n a) := by
    rw [zero_smul, zero_add, one_smul] at t3
    exact t3
  obtain ⟨g, hg⟩ := exists_mat ((mat n (k + 5) q')ᵀ * mat n n a)
  rw [hg] at t3
  have wT' := isTensor_of_frame wT t2
  obtain ⟨B, b1, b2, b3⟩ := gemm_mul (ta := false) (tb := false) (m := k + 5) (n := k + 5) (k := n) (alpha := 1) (beta := 0)
    (tensor_strides2 wT' t3.dims) sQ sB (Nat.le_refl n) (Nat.le_refl (k + 5)) (Nat.le_refl (k + 5)) wB.wf t3 r4
    (fresh_holds z (k + 5) (k + 5)) (by omega)
  have b3 : Holds B ((mat n (k + 5) q')ᵀ * mat n n a * mat n (k + 5) q') := by
    rw [zero_smul, zero_add, one_smul] at b3
    rw [hg]
    exact b3
  have wB' := isTensor_of_frame wB b2
  have symm : ((mat n (k + 5) q')ᵀ * mat n n a * mat n (k + 5) q').IsSymm := by
    unfold Matrix.IsSymm
    rw [transpose_mul, transpose_mul, transpose_transpose, hM.eq, Matrix.mul_assoc]
  obtain ⟨b, hb⟩ := exists_mat ((mat n (k + 5) q')ᵀ * mat n n a * mat n (k + 5) q')
  have lapack := fun g => lapack g r3
  rw [hb] at b3 symm lapack
  obtain ⟨B', W', e1, e2, e3, e4, e5⟩ := syevT_ok (syev := syev) (vectors := true) (tensor_strides2 wB' b3.dims)
    (Nat.le_refl (k + 5)) (by omega) b3 (W := Strided.mk' z [k + 5]) (isTensor_mk' z (by simp)).wf rfl
    (by rw [(isTensor_mk' z (by simp)).strides]; rfl)
  have L2 := lapack (crop (k + 5) (k + 5) fun i j => b j i) ((mat_crop _ _ _).trans symm.eq)
  have hs : B'.strides = [k + 5, 1] := by rw [e3.strides]; exact tensor_strides2 wB' b3.dims
  obtain ⟨U, u1, u2, u3⟩ := gemm_mul (ta := false) (tb := true) (m := n) (n := k + 5) (k := k + 5) (alpha := 1) (beta := 0) sQ
    hs sU (Nat.le_refl (k + 5)) (Nat.le_refl (k + 5)) (Nat.le_refl (k + 5)) wU.wf r4 e2 (fresh_holds z n (k + 5)) (by omega)
  have eig := L2.eigen
  rw [mat_upper_lower, fromLower_symm symm, ← hb] at eig
  have ort := L2.orthonormal
  have u3 : Holds U (mat n (k + 5) q' * mat (k + 5) (k + 5) (syev true (k + 5) (crop (k + 5) (k + 5) fun i j => b j i)).2) := by
    rw [zero_smul, zero_add, one_smul] at u3
    exact u3
  refine ⟨U, W', _, _, ?_, u3, e4, ?_, fun i j h => L2.ascending i j h j.2, ?_, ?_⟩
  · unfold truncatedSyev
    rw [if_neg (by rw [d0, d1]; simp)]
    simp only [d0, r1, t1, b1, e1, u1, Outcome.ok_bind]
    rfl
  · rw [transpose_mul, Matrix.mul_assoc, ← Matrix.mul_assoc _ (mat n (k + 5) q'), hq, Matrix.one_mul, ort]
  · rw [transpose_mul]
    generalize mat (k + 5) (k + 5) (syev true (k + 5) (crop (k + 5) (k + 5) fun i j => b j i)).2 = V at *
    calc Vᵀ * (mat n (k + 5) q')ᵀ * mat n n a * (mat n (k + 5) q' * V)
        = Vᵀ * ((mat n (k + 5) q')ᵀ * mat n n a * mat n (k + 5) q' * V) := by simp only [Matrix.mul_assoc]
      _ = _ := by rw [eig, ← Matrix.mul_assoc, ort, Matrix.one_mul]
  · rw [transpose_mul, Matrix.mul_assoc (mat n (k + 5) q'), ← Matrix.mul_assoc _ _ (mat n (k + 5) q')ᵀ,
      mul_eq_one_comm.1 ort, Matrix.one_mul]
    exact hp

/-- **C110 (partial: exact).** If the columns of A are combinations of those of A·Ω, as for almost every Ω when the rank of A is
at most k + 5: A = U·diag(w)·Uᵀ, and the columns of U are eigenvectors of A. -/
theorem C110_exact_partial (geqrf : GeqrfFn R) (orgqr : OrgqrFn R) (syev : SyevFn R) (z omega : Nat → R) (n k lda : Nat)
    (A : Strided R) (M : Matrix (Fin n) (Fin n) R) (Ω : Matrix (Fin n) (Fin (k + 5)) R)
    (hΩ : Ω = mat n (k + 5) fun i j => omega (i * (k + 5) + j)) (hA : Holds A M) (hM : M.IsSymm) (sA : A.strides = [lda, 1])
    (hlda : n ≤ lda) (hk : k + 5 ≤ n)
    (qr : ∀ f, mat n (k + 5) f = M * Ω → IsQR n (k + 5) f (geqrf n (k + 5) f))
    (org : ∀ F t, IsOrgqr n (k + 5) (k + 5) F t (orgqr n (k + 5) (k + 5) F t))
    (lapack : ∀ f g, mat n (k + 5) f = M * Ω → mat (k + 5) (k + 5) g =
      (thinQ n (k + 5) (geqrf n (k + 5) f))ᵀ * M * thinQ n (k + 5) (geqrf n (k + 5) f) →
      IsSyev (k + 5) g (syev true (k + 5) g))
    (C : Matrix (Fin (k + 5)) (Fin n) R) (hC : M * Ω * C = M) :
    ∃ U W, ∃ (u : Matrix (Fin n) (Fin (k + 5)) R) (w : Fin (k + 5) → R),
      truncatedSyev geqrf orgqr syev z omega A k = .ok (U, W) ∧ Holds U u ∧ HoldsVec W w ∧ uᵀ * u = 1 ∧
      (∀ i j, i ≤ j → w i ≤ w j) ∧ u * diagonal w * uᵀ = M ∧ ∀ i, M *ᵥ uᵀ i = w i • uᵀ i := by
  obtain ⟨U, W, u, w, h1, h2, h3, h4, h5, h6, h7⟩ := C110_syev_partial geqrf orgqr syev z omega n k lda A M Ω hΩ hA hM sA hlda hk qr
    org lapack
  have p1 : u * uᵀ * M = M := by
    conv_lhs => rw [← hC]
    rw [← Matrix.mul_assoc, h7, hC]
  have p2 : M * (u * uᵀ) = M := by
    have := congrArg transpose p1
    rw [transpose_mul, transpose_mul, transpose_transpose, hM.eq] at this
    exact this
  refine ⟨U, W, u, w, h1, h2, h3, h4, h5, ?_, fun i => ?_⟩
  · rw [← h6]
    calc u * (uᵀ * M * u) * uᵀ = u * uᵀ * M * (u * uᵀ) := by simp only [Matrix.mul_assoc]
      _ = M := by rw [p1, p2]
  · have e : M * u = u * diagonal w := by
      rw [← h6, ← Matrix.mul_assoc, ← Matrix.mul_assoc, p1]
    funext j
    have := congrFun (congrFun e j) i
    rw [mul_diagonal] at this
    rw [Pi.smul_apply, transpose_apply, smul_eq_mul, mul_comm (w i), ← this]
    rfl

omit [LinearOrder R] [LawfulBEq R] in
/-- **C110.** A matrix that is not square, wide or tall, is refused before anything is computed. -/
theorem C110_rejects (geqrf : GeqrfFn R) (orgqr : OrgqrFn R) (syev : SyevFn R) (z omega : Nat → R) (m n k : Nat)
    (A : Strided R) (M : Matrix (Fin m) (Fin n) R) (hA : Holds A M) (h : m ≠ n) :
    truncatedSyev geqrf orgqr syev z omega A k = .error "Non-square matrix used as input of truncated_syev!" := by
  have d0 : A.dim 0 = m := by simp [Strided.dim, hA.dims]
  have d1 : A.dim 1 = n := by simp [Strided.dim, hA.dims]
  unfold truncatedSyev
  rw [if_pos (by rw [d0, d1]; exact h)]

omit [LinearOrder R] in
/-- **C110 (refuted).** For every matrix of order less than k + 5 LAPACK rejects the call: there is no result. -/
theorem C110_refuted (geqrf : GeqrfFn R) (orgqr : OrgqrFn R) (syev : SyevFn R) (z omega : Nat → R) (n k lda : Nat)
    (A : Strided R) (M : Matrix (Fin n) (Fin n) R) (hA : Holds A M) (sA : A.strides = [lda, 1]) (hlda : n ≤ lda) (hn : 0 < n)
    (hk : n < k + 5) : truncatedSyev geqrf orgqr syev z omega A k = .error "XERBLA" := by
  have d0 : A.dim 0 = n := by simp [Strided.dim, hA.dims]
  have d1 : A.dim 1 = n := by simp [Strided.dim, hA.dims]
  unfold truncatedSyev
  rw [if_neg (by rw [d0, d1]; simp), rangeFinder_reject geqrf orgqr z omega n n (k + 5) lda A M hA sA hlda hn hk]
  rfl

end

/-! ### Instances -/

theorem reflectors_zero {R : Type} [CommRing R] (m k : Nat) (F : Nat → Nat → R) : reflectors m k F (fun _ => 0) = 1 := by
  unfold reflectors reflector
  simp

/-- What LAPACK's QR returns for a matrix that is already upper triangular: no reflection. -/
theorem isQR_upper {R : Type} [CommRing R] {m n : Nat} {f : Nat → Nat → R} {F : Nat → Nat → R}
    (h : mat m n (upperPart F) = mat m n f) : IsQR m n f (F, fun _ => 0) := by
  unfold IsQR
  rw [reflectors_zero]
  simp [h]

theorem thinQ_upper {R : Type} [CommRing R] {n : Nat} (F : Nat → Nat → R) : thinQ n n (F, fun _ => 0) = 1 := by
  ext i j
  simp only [thinQ, reflectors_zero, j.2, dif_pos]

/-- The 5×2 tensor with rows [2, 0], [0, 3] and three rows of zeros. -/
def trA : Strided ℚ := ⟨[2, 0, 0, 3, 0, 0, 0, 0, 0, 0], 0, [5, 2], [2, 1]⟩

/-- Random numbers: [[1, 1, 0, 0, 4], [0, 1, 0, 2, 0]]. -/
def trOmega : Nat → ℚ := fun i => [1, 1, 0, 0, 4, 0, 1, 0, 2, 0].getD i 0

/-- `trA` times the random matrix. -/
def trY : Nat → Nat → ℚ := ofRows [[2, 2, 0, 0, 8], [0, 3, 0, 6, 0]]

/-- The singular value decomposition of `trA`. -/
def trSvd : SvdResult ℚ :=
  ⟨fun i => [3, 2].getD i 0, ofRows [[0, 1, 0, 0, 0], [1, 0, 0, 0, 0], [0, 0, 1, 0, 0], [0, 0, 0, 1, 0], [0, 0, 0, 0, 1]],
    ofRows [[0, 1], [1, 0]]⟩

example : ∃ U S Vt, ∃ (u : Matrix (Fin 5) (Fin 5) ℚ) (s : Nat → ℚ) (vt : Matrix (Fin 2) (Fin 2) ℚ),
    truncatedSvd (fun _ _ _ => (trY, fun _ => 0)) orgqrQ (fun _ _ _ _ => trSvd) (fun _ => 7) trOmega trA 0 = .ok (U, S, Vt) ∧
      Holds U u ∧ HoldsVec S (fun i : Fin (min (0 + 5) 2) => s i) ∧ Holds Vt vt ∧ uᵀ * u = 1 ∧ vt * vtᵀ = 1 ∧
      u * diagRect 5 2 s * vt = mat 5 2 (ofRows [[2, 0], [0, 3]]) := by
  refine C109_exact_partial (fun _ _ _ => (trY, fun _ => 0)) orgqrQ (fun _ _ _ _ => trSvd) (fun _ => 7) trOmega 5 2 0 2 trA
    (mat 5 2 (ofRows [[2, 0], [0, 3]])) _ rfl (holds_ofRows _ rfl _ (by decide +kernel)) rfl (by decide) (by decide) (by decide)
    (fun f hf => isQR_upper (hf ▸ matrix_ext_rat (by decide +kernel))) (fun F t i j h => by simp [orgqrQ, h])
    (fun f g _ hg => ?_) (mat 5 2 (ofRows [[1, -1], [0, 1]])) (matrix_ext_rat (by decide +kernel))
  rw [thinQ_upper, transpose_one, Matrix.one_mul] at hg
  exact ⟨matrix_ext_rat (by decide +kernel), matrix_ext_rat (by decide +kernel),
    hg ▸ matrix_ext_rat (by decide +kernel)⟩

example : truncatedSvd (fun _ _ _ => (trY, fun _ => 0)) orgqrQ (fun _ _ _ _ => trSvd) (fun _ => 7) trOmega trA 1 =
    .error "XERBLA" :=
  C109_refuted _ _ _ _ _ 5 2 1 2 trA (mat 5 2 (ofRows [[2, 0], [0, 3]])) (holds_ofRows _ rfl _ (by decide +kernel)) rfl
    (by decide) (by decide) (by decide)

/-- The 5×5 diagonal matrix with 2, 1, 0, 0, 0. -/
def trB : Strided ℚ := ⟨[2, 0, 0, 0, 0, 0, 1, 0, 0, 0, 0, 0, 0, 0, 0, 0, 0, 0, 0, 0, 0, 0, 0, 0, 0], 0, [5, 5], [5, 1]⟩

/-- Random numbers: [[1, 1, 0, 0, 0], [0, 1, 0, 0, 0]] and three rows of zeros. -/
def trOmega2 : Nat → ℚ := fun i => [1, 1, 0, 0, 0, 0, 1].getD i 0

/-- The eigenvalues and eigenvectors of `trB`. -/
def trEig : (Nat → ℚ) × (Nat → Nat → ℚ) :=
  (fun i => [0, 0, 0, 1, 2].getD i 0,
    ofRows [[0, 0, 0, 0, 1], [0, 0, 0, 1, 0], [0, 0, 1, 0, 0], [0, 1, 0, 0, 0], [1, 0, 0, 0, 0]])

example : ∃ U W, ∃ (u : Matrix (Fin 5) (Fin 5) ℚ) (w : Fin 5 → ℚ),
    truncatedSyev (fun _ _ _ => (ofRows [[2, 2], [0, 1]], fun _ => 0)) orgqrQ (fun _ _ _ => trEig) (fun _ => 7) trOmega2 trB 0 =
      .ok (U, W) ∧ Holds U u ∧ HoldsVec W w ∧ uᵀ * u = 1 ∧ (∀ i j, i ≤ j → w i ≤ w j) ∧
      u * diagonal w * uᵀ = mat 5 5 (ofRows [[2, 0], [0, 1]]) ∧
      ∀ i, mat 5 5 (ofRows [[2, 0], [0, 1]]) *ᵥ uᵀ i = w i • uᵀ i := by
  refine C110_exact_partial (fun _ _ _ => (ofRows [[2, 2], [0, 1]], fun _ => 0)) orgqrQ (fun _ _ _ => trEig) (fun _ => 7) trOmega2
    5 0 5 trB (mat 5 5 (ofRows [[2, 0], [0, 1]])) _ rfl (holds_ofRows _ rfl _ (by decide +kernel))
    (matrix_ext_rat (by decide +kernel)) rfl (by decide) (by decide)
    (fun f hf => isQR_upper (hf ▸ matrix_ext_rat (by decide +kernel))) (fun F t i j h => by simp [orgqrQ, h])
    (fun f g _ hg => ?_) (mat 5 5 (ofRows [[1, -1], [0, 1]])) (matrix_ext_rat (by decide +kernel))
  rw [thinQ_upper, transpose_one, Matrix.one_mul, Matrix.mul_one] at hg
  have hs : mat 5 5 (fromUpper g) = mat 5 5 (ofRows [[2, 0], [0, 1]]) := by
    have h1 : ∀ i j : Fin 5, g i j = ofRows [[2, 0], [0, 1]] i j := fun i j => congrFun (congrFun hg i) j
    ext i j
    show (if i.1 ≤ j.1 then g i j else g j i) = _
    rw [h1, h1]
    have : ∀ i j : Fin 5, (if i.1 ≤ j.1 then ofRows [[2, 0], [0, 1]] i j else ofRows [[2, 0], [0, 1]] j i) =
        ofRows [[2, 0], [0, 1]] i j := by decide +kernel
    exact this i j
  refine ⟨matrix_ext_rat (by decide +kernel), ?_, ?_⟩
  · rw [hs]
    exact matrix_ext_rat (by decide +kernel)
  · have : ∀ j : Fin 5, ∀ i : Fin 5, i ≤ j → trEig.1 i ≤ trEig.1 j := by decide +kernel
    exact fun i j h hj => this ⟨j, hj⟩ ⟨i, by omega⟩ h

example : truncatedSyev (fun _ _ _ => (ofRows [[2, 2], [0, 1]], fun _ => 0)) orgqrQ (fun _ _ _ => trEig) (fun _ => 7) trOmega2
    trB 1 = .error "XERBLA" :=
  C110_refuted _ _ _ _ _ 5 1 5 trB (mat 5 5 (ofRows [[2, 0], [0, 1]])) (holds_ofRows _ rfl _ (by decide +kernel)) rfl
    (by decide) (by decide) (by decide)

end Einsums.Props
