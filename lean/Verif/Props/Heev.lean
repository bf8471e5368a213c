import Mathlib.Tactic.FinCases
import Mathlib.Tactic.NormNum
import Mathlib.LinearAlgebra.Matrix.Notation
import Verif.Proofs.Heev
/-
C148: `heev`.
-/
namespace Einsums.Props
open Spec Model Proofs Matrix ComplexConjugate

/-- What `heev<true>` does with any square matrix: it diagonalises the Hermitian matrix given by the *lower* triangle of the
row-major tensor; the *conjugate* of row k of A is an eigenvector of the k-th eigenvalue. -/
theorem C148_lower (heev : HeevFn ℂ ℝ) (n ld : Nat) (A : Strided ℂ) (W : Strided ℝ) (a : Nat → Nat → ℂ) (hA : Holds A (mat n n a))
    (hn : n ≠ 0) (sA : A.strides = [ld, 1]) (hl : n ≤ ld) (wW : W.WF) (dW : W.dims = [n]) (sW : W.strides = [1])
    (lapack : ∀ f, mat n n f = (mat n n a)ᵀ → IsHeev n f (heev true n f)) :
    ∃ A' W', ∃ (v : Matrix (Fin n) (Fin n) ℂ) (w : Fin n → ℝ), heevT heev true A W = .ok (A', W') ∧ Holds A' v ∧
      HoldsVec W' w ∧ A.Frame A' ∧ W.Frame W' ∧ (∀ k l, k ≤ l → w k ≤ w l) ∧
      (∀ k l, star (v k) ⬝ᵥ v l = if k = l then 1 else 0) ∧
      (∀ k, mat n n (hermLower a) *ᵥ star (v k) = (w k : ℂ) • star (v k)) ∧
      ((∀ k, mat n n (hermLower a) *ᵥ v k = (w k : ℂ) • v k) → (mat n n (hermLower a))ᵀ = mat n n (hermLower a)) := by
  obtain ⟨A', W', e1, e2, e3, e4, e5⟩ := heevT_ok (heev := heev) (vectors := true) sA hl hn hA wW dW sW
  have L := lapack (crop n n fun i j => a j i) (mat_crop _ _ _)
  have he := L.eigen
  rw [herm_upper_lower] at he
  refine ⟨A', W', _, _, e1, e2, e4, e3, e5, fun k l h => L.ascending k l h l.2, fun k l => ?_,
    heev_conj (hermLower_isHermitian n a) he, heev_symm L.orthonormal he⟩
  have := congrFun (congrFun L.orthonormal k) l
  rw [Matrix.one_apply] at this
  rw [← this]
  rfl

section
variable (heev : HeevFn ℂ ℝ) (n ld : Nat) (A : Strided ℂ) (W : Strided ℝ) (M : Matrix (Fin n) (Fin n) ℂ)

/-- **C148 (partial).** `heev(&A, &W)` of a Hermitian n×n matrix (n > 0; a tensor or a view with contiguous rows): W holds the
eigenvalues in ascending order, the rows of A are orthonormal and their *conjugates* are eigenvectors, that of row k for `W(k)`;
nothing outside A and W changes.  Missing: the rows (or the columns) of A are not eigenvectors (`C148_refuted`); the triangle that
is read (`C148_triangle_refuted`), a strided W (`C148_stride_refuted`), the empty matrix (`C148_empty_refuted`). -/
theorem C148_heev_partial (hA : Holds A M) (hM : M.IsHermitian) (hn : n ≠ 0) (sA : A.strides = [ld, 1]) (hl : n ≤ ld) (wW : W.WF)
    (dW : W.dims = [n]) (sW : W.strides = [1]) (lapack : ∀ f, mat n n f = Mᵀ → IsHeev n f (heev true n f)) :
    ∃ A' W', ∃ (v : Matrix (Fin n) (Fin n) ℂ) (w : Fin n → ℝ), heevT heev true A W = .ok (A', W') ∧ Holds A' v ∧
      HoldsVec W' w ∧ A.Frame A' ∧ W.Frame W' ∧ (∀ k l, k ≤ l → w k ≤ w l) ∧
      (∀ k l, star (v k) ⬝ᵥ v l = if k = l then 1 else 0) ∧ ∀ k, M *ᵥ star (v k) = (w k : ℂ) • star (v k) := by
  obtain ⟨a, rfl⟩ := exists_mat M
  obtain ⟨A', W', v, w, h1, h2, h3, h4, h5, h6, h7, h8, _⟩ := C148_lower heev n ld A W a hA hn sA hl wW dW sW lapack
  rw [hermLower_herm hM] at h8
  exact ⟨A', W', v, w, h1, h2, h3, h4, h5, h6, h7, h8⟩

/-- **C148 (refuted: eigenvectors).** For every Hermitian matrix that is not symmetric, i.e. not real, some row k of A is not an
eigenvector of `W(k)`. -/
theorem C148_refuted (hA : Holds A M) (hM : M.IsHermitian) (hS : ¬ M.IsSymm) (hn : n ≠ 0) (sA : A.strides = [ld, 1]) (hl : n ≤ ld)
    (wW : W.WF) (dW : W.dims = [n]) (sW : W.strides = [1]) (lapack : ∀ f, mat n n f = Mᵀ → IsHeev n f (heev true n f)) :
    ∃ A' W', ∃ (v : Matrix (Fin n) (Fin n) ℂ) (w : Fin n → ℝ), heevT heev true A W = .ok (A', W') ∧ Holds A' v ∧
      HoldsVec W' w ∧ ∃ k, M *ᵥ v k ≠ (w k : ℂ) • v k := by
  obtain ⟨a, rfl⟩ := exists_mat M
  obtain ⟨A', W', v, w, h1, h2, h3, h4, h5, h6, h7, h8, h9⟩ := C148_lower heev n ld A W a hA hn sA hl wW dW sW lapack
  rw [hermLower_herm hM] at h9
  exact ⟨A', W', v, w, h1, h2, h3, not_forall.1 fun h => hS (h9 h)⟩

/-- **C148 (partial: real matrices).** For a Hermitian matrix that is symmetric as well, i.e. real, the rows of A are eigenvectors
too: row k for `W(k)`. -/
theorem C148_real_partial (hA : Holds A M) (hM : M.IsHermitian) (hS : M.IsSymm) (hn : n ≠ 0) (sA : A.strides = [ld, 1]) (hl : n ≤ ld)
    (wW : W.WF) (dW : W.dims = [n]) (sW : W.strides = [1]) (lapack : ∀ f, mat n n f = M → IsHeev n f (heev true n f)) :
    ∃ A' W', ∃ (v : Matrix (Fin n) (Fin n) ℂ) (w : Fin n → ℝ), heevT heev true A W = .ok (A', W') ∧ Holds A' v ∧
      HoldsVec W' w ∧ (∀ k, M *ᵥ v k = (w k : ℂ) • v k) := by
  obtain ⟨a, rfl⟩ := exists_mat M
  obtain ⟨A', W', v, w, h1, h2, h3, h4, h5, h6, h7, h8, _⟩ := C148_lower heev n ld A W a hA hn sA hl wW dW sW (by rw [hS.eq]; exact lapack)
  rw [hermLower_herm hM] at h8
  refine ⟨A', W', v, w, h1, h2, h3, fun k => ?_⟩
  have := congrArg star (h8 k)
  rw [star_mulVec, hM.eq, star_smul, star_star] at this
  rw [← hS.eq, mulVec_transpose, this]
  simp

/-- **C148 (values only).** `heev<false>`: the same eigenvalues; what is left in A is not specified. -/
theorem C148_values_partial (hA : Holds A M) (hM : M.IsHermitian) (hn : n ≠ 0) (sA : A.strides = [ld, 1]) (hl : n ≤ ld) (wW : W.WF)
    (dW : W.dims = [n]) (sW : W.strides = [1]) (lapack : ∀ f, mat n n f = Mᵀ → ∃ V, IsHeev n f ((heev false n f).1, V)) :
    ∃ A' W', ∃ w : Fin n → ℝ, heevT heev false A W = .ok (A', W') ∧ HoldsVec W' w ∧ A.Frame A' ∧ W.Frame W' ∧
      (∀ k l, k ≤ l → w k ≤ w l) ∧ ∃ v : Matrix (Fin n) (Fin n) ℂ, (∀ k l, star (v k) ⬝ᵥ v l = if k = l then 1 else 0) ∧
        ∀ k, M *ᵥ v k = (w k : ℂ) • v k := by
  obtain ⟨a, rfl⟩ := exists_mat M
  obtain ⟨A', W', e1, _, e3, e4, e5⟩ := heevT_ok (heev := heev) (vectors := false) sA hl hn hA wW dW sW
  obtain ⟨V, L⟩ := lapack (crop n n fun i j => a j i) (mat_crop _ _ _)
  have he := L.eigen
  rw [herm_upper_lower, hermLower_herm hM] at he
  refine ⟨A', W', _, e1, e4, e3, e5, fun k l h => L.ascending k l h l.2, fun k => star (fun i => mat n n V i k), fun k l => ?_,
    heev_conj hM he⟩
  have := congrFun (congrFun L.orthonormal l) k
  rw [Matrix.one_apply] at this
  rw [star_star, dotProduct_comm]
  exact this.trans (by simp [eq_comm])

end

/-- **C148 (refuted: which triangle).** LAPACK is told 'u', but the tensor is row-major, so the *lower* triangle of A is used: for the matrix
with 1 in the upper corner and 0 elsewhere, whose upper triangle gives the eigenvalues -1 and 1, `heev` returns 0 and 0. -/
theorem C148_triangle_refuted (heev : HeevFn ℂ ℝ)
    (lapack : ∀ f, mat 2 2 f = !![0, 0; 1, 0] → IsHeev 2 f (heev true 2 f)) :
    let A : Strided ℂ := ⟨[0, 1, 0, 0], 0, [2, 2], [2, 1]⟩
    Holds A !![0, 1; 0, 0] ∧ mat 2 2 (hermUpper fun i j => if i = 0 ∧ j = 1 then 1 else 0) *ᵥ ![1, 1] = (1 : ℂ) • ![1, 1] ∧
    ∃ A' W', heevT heev true A ⟨[5, 5], 0, [2], [1]⟩ = .ok (A', W') ∧ W'.read [0] = .ok 0 ∧ W'.read [1] = .ok 0 := by
  intro A
  have hA : Holds A (mat 2 2 fun i j => if i = 0 ∧ j = 1 then 1 else 0) := by
    refine ⟨rfl, fun i j => ?_⟩
    fin_cases i <;> fin_cases j <;> rfl
  have e : mat 2 2 (hermLower fun i j => if i = 0 ∧ j = 1 then (1 : ℂ) else 0) = 0 := by
    funext i j
    fin_cases i <;> fin_cases j <;> simp [mat, hermLower]
  refine ⟨?_, ?_, ?_⟩
  · refine ⟨rfl, fun i j => ?_⟩
    fin_cases i <;> fin_cases j <;> rfl
  · funext i
    fin_cases i <;> simp [mulVec, dotProduct, Fin.sum_univ_two, mat, hermUpper]
  · obtain ⟨A', W', v, w, e1, e2, e3, e4, e5, e6, e7, e8, _⟩ := C148_lower heev 2 2 A ⟨[5, 5], 0, [2], [1]⟩ _ hA (by decide) rfl
      (by decide) (Strided.IsTensor.wf ⟨rfl, rfl, rfl⟩) rfl rfl (fun f hf => lapack f (by
        rw [hf]; funext i j; fin_cases i <;> fin_cases j <;> rfl))
    rw [e] at e8
    have hz : ∀ k, w k = 0 := by
      intro k
      have h8 := e8 k
      rw [zero_mulVec] at h8
      have h7 := e7 k k
      rw [if_pos rfl] at h7
      have := congrArg (fun x => x ⬝ᵥ v k) h8
      simp only [zero_dotProduct, smul_dotProduct, h7, smul_eq_mul, mul_one] at this
      exact_mod_cast this.symm
    refine ⟨A', W', e1, ?_, ?_⟩
    · have := e3.elems 0
      rw [hz] at this
      exact this
    · have := e3.elems 1
      rw [hz] at this
      exact this

/-- **C148 (refuted for a strided W).** The stride of W is ignored: with every LAPACK, the eigenvalues of a 2×2 matrix stored into every
second element of a vector of four leave the last element as it was. -/
theorem C148_stride_refuted {K R : Type} [Zero K] (heev : HeevFn K R) (x y z t : R) (A : Strided K) (a : Nat → Nat → K)
    (hA : Holds A (mat 2 2 a)) (sA : A.strides = [2, 1]) :
    ∃ A' W', heevT heev true A ⟨[x, y, z, t], 0, [2], [2]⟩ = .ok (A', W') ∧ W'.read [1] = .ok z := by
  obtain ⟨A', W', e1, e2, e3, e4, e5⟩ := heevT_ok (heev := heev) (vectors := true) (W := ⟨[x, y, z, t], 0, [2], [1]⟩) sA
    (Nat.le_refl 2) (by decide) hA
    ⟨rfl, fun idx h => by
      obtain ⟨i, rfl, hi⟩ := inBox1_cases h
      simp [dot]; omega, fun i j hi hj e => by
      obtain ⟨i, rfl, hi⟩ := inBox1_cases hi
      obtain ⟨j, rfl, hj⟩ := inBox1_cases hj
      simp [dot] at e
      rw [e]⟩ rfl rfl
  have o := e5.outside 2 (by
    intro j hj
    obtain ⟨i, rfl, hi⟩ := inBox1_cases hj
    simp [dot]; omega)
  have o0 : W'.off = 0 := e5.off
  have d0 : A.dim 0 = 2 := by simp [Strided.dim, hA.dims]
  have d1 : A.dim 1 = 2 := by simp [Strided.dim, hA.dims]
  refine ⟨A', ⟨W'.data, 0, [2], [2]⟩, ?_, ?_⟩
  · unfold heevT at e1 ⊢
    rw [d0, d1, if_neg (by simp)] at e1 ⊢
    simp only
    cases hv : vendorHeev heev true 2 A.data A.off (A.stride 0) [x, y, z, t] 0 (2 * 2) with
    | ok r =>
      rw [hv] at e1
      simp only [Outcome.ok_bind] at e1 ⊢
      have e1' := congrArg (fun o => match o with | Outcome.ok p => some p | _ => none) e1
      simp only [pure] at e1'
      rw [Option.some.injEq, Prod.mk.injEq] at e1'
      rw [← e1'.1, ← e1'.2]
      rfl
    | error m => rw [hv] at e1; simp at e1
    | ub m => rw [hv] at e1; simp at e1
  · exact (read1_iff (t := Strided.mk W'.data 0 [2] [2]) (i := 1) rfl rfl _).2 (by simpa using o)

/-- **C148 (refuted for the empty matrix).** LAPACK rejects the arguments. -/
theorem C148_empty_refuted {K R : Type} [Zero K] (heev : HeevFn K R) (vectors : Bool) (A : Strided K) (W : Strided R)
    (d : A.dims = [0, 0]) : (heevT heev vectors A W).isError = true := by
  have d0 : A.dim 0 = 0 := by simp [Strided.dim, d]
  have d1 : A.dim 1 = 0 := by simp [Strided.dim, d]
  unfold heevT vendorHeev
  rw [d0, d1, if_neg (by simp), if_pos (by right; decide)]
  rfl

/-- A case that meets the hypotheses: the Hermitian matrix with eigenvalues 0 and 25 and eigenvectors (4, -3i)/5 and (3, 4i)/5. -/
noncomputable def herA : Strided ℂ := ⟨[9, -12 * Complex.I, 12 * Complex.I, 16], 0, [2, 2], [2, 1]⟩
/-- Its elements. -/
noncomputable def herM : Matrix (Fin 2) (Fin 2) ℂ := !![9, -12 * Complex.I; 12 * Complex.I, 16]
/-- What a LAPACK may return for its transpose (eigenvectors in columns). -/
noncomputable def herOut : (Nat → ℝ) × (Nat → Nat → ℂ) :=
  (fun k => if k = 0 then 0 else 25,
   fun i j => if i = 0 then (if j = 0 then ⟨4 / 5, 0⟩ else ⟨3 / 5, 0⟩) else if j = 0 then ⟨0, 3 / 5⟩ else ⟨0, -4 / 5⟩)

theorem herA_holds : Holds herA herM := by
  refine ⟨rfl, fun i j => ?_⟩
  fin_cases i <;> fin_cases j <;> rfl

theorem herM_herm : herM.IsHermitian := by
  refine IsHermitian.ext fun i j => ?_
  fin_cases i <;> fin_cases j <;> simp [herM]

theorem herM_not_symm : ¬ herM.IsSymm := by
  intro h
  have := h.apply 0 1
  simp [herM] at this
  have := congrArg Complex.im this
  norm_num at this

theorem herOut_isHeev (f : Nat → Nat → ℂ) (hf : mat 2 2 f = herMᵀ) : IsHeev 2 f herOut := by
  have f00 : f 0 0 = 9 := congrFun (congrFun hf 0) 0
  have f01 : f 0 1 = 12 * Complex.I := congrFun (congrFun hf 0) 1
  have f11 : f 1 1 = 16 := congrFun (congrFun hf 1) 1
  refine ⟨?_, ?_, ?_⟩
  · ext i j
    fin_cases i <;> fin_cases j <;>
      simp [Matrix.mul_apply, Fin.sum_univ_two, mat, herOut, Complex.ext_iff] <;> norm_num
  · ext i j
    fin_cases i <;> fin_cases j <;>
      simp [Matrix.mul_apply, Fin.sum_univ_two, mat, herOut, hermUpper, f00, f01, f11, Matrix.diagonal, Complex.ext_iff] <;> norm_num
  · intro i j h hj
    have : i = 0 ∨ i = 1 := by omega
    have : j = 0 ∨ j = 1 := by omega
    rcases ‹i = 0 ∨ i = 1› with rfl | rfl <;> rcases ‹j = 0 ∨ j = 1› with rfl | rfl <;> simp [herOut]
    omega

/-- The hypotheses of `C148_heev_partial` and of `C148_refuted` are met. -/
example : ∃ A' W', ∃ (v : Matrix (Fin 2) (Fin 2) ℂ) (w : Fin 2 → ℝ), heevT (fun _ _ _ => herOut) true herA ⟨[5, 5], 0, [2], [1]⟩ = .ok (A', W') ∧
    Holds A' v ∧ HoldsVec W' w ∧ ∃ k, herM *ᵥ v k ≠ (w k : ℂ) • v k :=
  C148_refuted (fun _ _ _ => herOut) 2 2 herA ⟨[5, 5], 0, [2], [1]⟩ herM herA_holds herM_herm herM_not_symm (by decide) rfl
    (by decide) (Strided.IsTensor.wf ⟨rfl, rfl, rfl⟩) rfl rfl herOut_isHeev
example := C148_heev_partial (fun _ _ _ => herOut) 2 2 herA ⟨[5, 5], 0, [2], [1]⟩ herM herA_holds herM_herm (by decide) rfl
    (by decide) (Strided.IsTensor.wf ⟨rfl, rfl, rfl⟩) rfl rfl herOut_isHeev
example := C148_values_partial (fun _ _ _ => herOut) 2 2 herA ⟨[5, 5], 0, [2], [1]⟩ herM herA_holds herM_herm (by decide) rfl
    (by decide) (Strided.IsTensor.wf ⟨rfl, rfl, rfl⟩) rfl rfl (fun f hf => ⟨herOut.2, herOut_isHeev f hf⟩)

/-- A real case: eigenvalues 0 and 25, eigenvectors (3, 4)/5 and (-4, 3)/5. -/
noncomputable def herR : Matrix (Fin 2) (Fin 2) ℂ := !![16, -12; -12, 9]
/-- What a LAPACK may return for it. -/
noncomputable def herROut : (Nat → ℝ) × (Nat → Nat → ℂ) :=
  (fun k => if k = 0 then 0 else 25,
   fun i j => if i = 0 then (if j = 0 then ⟨3 / 5, 0⟩ else ⟨-4 / 5, 0⟩) else if j = 0 then ⟨4 / 5, 0⟩ else ⟨3 / 5, 0⟩)

example := C148_real_partial (fun _ _ _ => herROut) 2 2 ⟨[16, -12, -12, 9], 0, [2, 2], [2, 1]⟩ ⟨[5, 5], 0, [2], [1]⟩ herR
    ⟨rfl, fun i j => by fin_cases i <;> fin_cases j <;> rfl⟩
    (IsHermitian.ext fun i j => by fin_cases i <;> fin_cases j <;> simp [herR])
    (IsSymm.ext fun i j => by fin_cases i <;> fin_cases j <;> simp [herR]) (by decide) rfl
    (by decide) (Strided.IsTensor.wf ⟨rfl, rfl, rfl⟩) rfl rfl (fun f hf => by
      have f00 : f 0 0 = 16 := congrFun (congrFun hf 0) 0
      have f01 : f 0 1 = -12 := congrFun (congrFun hf 0) 1
      have f11 : f 1 1 = 9 := congrFun (congrFun hf 1) 1
      refine ⟨?_, ?_, ?_⟩
      · ext i j
        fin_cases i <;> fin_cases j <;>
          simp [Matrix.mul_apply, Fin.sum_univ_two, mat, herROut, Complex.ext_iff] <;> norm_num
      · ext i j
        fin_cases i <;> fin_cases j <;>
          simp [Matrix.mul_apply, Fin.sum_univ_two, mat, herROut, hermUpper, f00, f01, f11, Matrix.diagonal, Complex.ext_iff] <;> norm_num
      · intro i j h hj
        have h1 : i = 0 ∨ i = 1 := by omega
        have h2 : j = 0 ∨ j = 1 := by omega
        rcases h1 with rfl | rfl <;> rcases h2 with rfl | rfl <;> simp [herROut]
        omega)

end Einsums.Props
