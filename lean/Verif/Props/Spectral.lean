import Mathlib.Tactic.Linarith
import Mathlib.Algebra.Order.Ring.Rat
import Mathlib.Algebra.Field.Rat
import Verif.Proofs.Spectral
import Verif.Props.Inverse
/-
C104 (`symm_gemm`), C105 (`scale_row`, `scale_column`), C106 (`syev`), C107 (`pow`), C108 (`solve_continuous_lyapunov`).
-/
namespace Einsums.Props
open Spec Model Matrix

/-! ### C104 -/

/-- **C104 (partial).** `symm_gemm<TransA, TransB>(A, B, &C)` leaves `op(B)ᵀ op(A) op(B)` in C, for an n×n matrix A and every
B for which that product makes sense (`op(B)` is n×p), tensors or views with contiguous rows, whatever was in C before,
when asserts are compiled out or B is square.  Missing: rectangular B in a debug build, see `C104_refuted`. -/
theorem C104_symm_gemm_partial {R : Type} [CommRing R] [BEq R] [LawfulBEq R] (ndebug ta tb : Bool) (z : Nat → R) (n p : Nat)
    (A B C : Strided R) (a b : Nat → Nat → R) (lda ldb : Nat) (hA : Holds A (mat n n a))
    (hB : Holds B (mat (if tb then p else n) (if tb then n else p) b)) (sA : A.strides = [lda, 1]) (sB : B.strides = [ldb, 1])
    (hlda : n ≤ lda) (hldb : (if tb then n else p) ≤ ldb) (wC : C.IsTensor) (dC : C.dims = [p, p])
    (h : ndebug = true ∨ p = n) :
    ∃ C', symmGemm ndebug ta tb z A B C = .ok C' ∧ C.Frame C' ∧
      Holds C' ((opMat tb n p b)ᵀ * opMat ta n n a * opMat tb n p b) := by
  have wC0 := isTensor_zero wC
  have hC0 := holds_zero wC dC
  have a0 : A.dim 0 = n ∧ A.dim 1 = n := by simp [Strided.dim, hA.dims]
  have b0 : B.dim 0 = (if tb then p else n) ∧ B.dim 1 = (if tb then n else p) := by simp [Strided.dim, hB.dims]
  have c0 : C.dim 0 = p ∧ C.dim 1 = p := by simp [Strided.dim, dC]
  have hassert : ¬ (ndebug = false ∧ symmGemmAssert ta tb A B C = false) := by
    rintro ⟨h1, h2⟩
    rcases h with h | h
    · simp [h] at h1
    · subst h
      revert h2
      cases ta <;> cases tb <;> simp [symmGemmAssert, a0, b0, c0]
  obtain ⟨wT, sT, dT⟩ := fresh_matrix z n p
  obtain ⟨t0, ht0⟩ := holds_of_wf wT.wf dT
  obtain ⟨T, e1, e2, e3⟩ := gemm_mul (ta := ta) (tb := tb) (m := n) (n := p) (k := n) (alpha := (1 : R)) (beta := 0) (a := a) sA sB sT
    (by simpa using hlda) (by simpa using hldb) (Nat.le_refl _) wT.wf (by cases ta <;> exact hA) hB ht0 (fun h => .inl h)
  have wT' := isTensor_of_frame wT e2
  rw [zero_smul, zero_add, one_smul] at e3
  obtain ⟨t, ht⟩ := exists_mat (opMat ta n n a * opMat tb n p b)
  rw [ht] at e3
  have fr : C.Frame C.zero := ⟨rfl, rfl, rfl, by simp [Strided.zero], fun q hq => by
    have hlen : C.data.length ≤ q := by
      by_contra hlt
      have hlt' : q < p * p := by
        have := wC.length
        rw [dC] at this
        simp [numel] at this
        omega
      refine hq [q / p, q % p] ?_ ?_
      · rw [dC]
        have hp : 0 < p := Nat.pos_of_ne_zero fun e => by simp [e] at hlt'
        simp [InBox, Nat.div_lt_iff_lt_mul hp, hlt', Nat.mod_lt _ hp]
      · rw [wC.off, tensor_strides2 wC dC]
        have := Nat.div_add_mod q p
        simp [dot]
        rw [Nat.mul_comm]
        exact this.symm
    simp only [Strided.zero]
    rw [List.getElem?_eq_none (by simpa using hlen), List.getElem?_eq_none hlen]⟩
  have fin : ∃ C', gemm (!tb) false 1 B T 0 C.zero = .ok C' ∧ C.Frame C' ∧
      Holds C' ((opMat tb n p b)ᵀ * opMat ta n n a * opMat tb n p b) := by
    by_cases hn : n = 0
    · refine ⟨C.zero, C25_empty_inner _ _ _ _ _ _ _ ?_, fr, ?_⟩
      · rw [b0.1, b0.2]; cases tb <;> simp [hn]
      · convert hC0 using 1
        subst hn
        funext i j
        rw [Matrix.mul_apply]
        rfl
    · obtain ⟨C', f1, f2, f3⟩ := gemm_mul (ta := !tb) (tb := false) (m := p) (n := p) (k := n) (alpha := (1 : R)) (beta := 0)
        (a := b) sB (tensor_strides2 wT' e3.dims) (tensor_strides2 wC0 dC) (by cases tb <;> simpa using hldb) (Nat.le_refl _)
        (Nat.le_refl _) wC0.wf (by cases tb <;> simpa using hB) e3 hC0 (fun h => absurd h hn)
      refine ⟨C', f1, frame_trans fr f2, ?_⟩
      convert f3 using 1
      rw [zero_smul, zero_add, one_smul, Matrix.mul_assoc, ht]
      congr 1
      cases tb <;> rfl
  obtain ⟨C', f1, f2, f3⟩ := fin
  refine ⟨C', ?_, f2, f3⟩
  unfold symmGemm
  rw [if_neg hassert]
  have er : (if ta then A.dim 1 else A.dim 0) = n := by rw [a0.1, a0.2]; simp
  have ec : (if tb then B.dim 0 else B.dim 1) = p := by rw [b0.1, b0.2]; cases tb <;> rfl
  simp only [er, ec]
  rw [e1]
  exact f1

/-- **C104 (refuted).** In a debug build every call with a rectangular B of the right shape fails an assertion: the
dimension of B that is compared with A is the wrong one. -/
theorem C104_refuted {R : Type} [Add R] [Mul R] [Zero R] [One R] [BEq R] (ta tb : Bool) (z : Nat → R) (n p : Nat)
    (A B C : Strided R) (dA : A.dims = [n, n]) (dB : B.dims = [if tb then p else n, if tb then n else p]) (h : p ≠ n) :
    (symmGemm false ta tb z A B C).isUb = true := by
  have e : symmGemmAssert ta tb A B C = false := by
    cases ta <;> cases tb <;> simp [symmGemmAssert, Strided.dim, dA, dB, h]
  unfold symmGemm
  rw [if_pos ⟨rfl, e⟩]
  rfl

/-- Concrete cases: `BᵀAB` for a 2×3 matrix B without asserts, the failed assert, and a square case with asserts. -/
example : symmGemm true false false (fun _ => 9) (⟨[1, 2, 3, 4], 0, [2, 2], [2, 1]⟩ : Strided Int)
    ⟨[1, 0, 2, 0, 1, 1], 0, [2, 3], [3, 1]⟩ ⟨List.replicate 9 7, 0, [3, 3], [3, 1]⟩ =
    .ok ⟨[1, 2, 4, 3, 4, 10, 5, 8, 18], 0, [3, 3], [3, 1]⟩ := by decide
example : symmGemm false true false (fun _ => 9) (⟨[1, 2, 3, 4], 0, [2, 2], [2, 1]⟩ : Strided Int)
    ⟨[1, 1, 0, 1], 0, [2, 2], [2, 1]⟩ ⟨List.replicate 4 7, 0, [2, 2], [2, 1]⟩ =
    .ok ⟨[1, 4, 3, 10], 0, [2, 2], [2, 1]⟩ := by decide

/-! ### C105 -/

/-- **C105 (rows).** `scale_row(row, c, &A)` multiplies the elements of that row by `c` and changes nothing else, for every
matrix tensor or view whose second stride is not zero and every row of it. -/
theorem C105_scale_row_partial {R : Type} [Mul R] (A : Strided R) (w : A.WF) (m n s0 s1 : Nat) (d : A.dims = [m, n])
    (s : A.strides = [s0, s1]) (h1 : s1 ≠ 0) (row : Nat) (hr : row < m) (f : List Nat → R) (hf : A.Represents f) (c : R) :
    ∃ A', scaleRow row c A = .ok A' ∧ A.Frame A' ∧ ∀ i j, i < m → j < n →
      A'.read [(i : Int), (j : Int)] = .ok (if i = row then c * f [i, j] else f [i, j]) := by
  obtain ⟨A', e1, e2, e3⟩ := scaleRow_rep w d s h1 hr hf c
  exact ⟨A', e1, e2, fun i j hi hj => e3 [i, j] (by rw [e2.dims, d]; simp [InBox, hi, hj])⟩

/-- **C105 (columns).** `scale_column(col, c, &A)` likewise. -/
theorem C105_scale_column_partial {R : Type} [Mul R] (A : Strided R) (w : A.WF) (m n s0 s1 : Nat) (d : A.dims = [m, n])
    (s : A.strides = [s0, s1]) (h0 : s0 ≠ 0) (col : Nat) (hc : col < n) (f : List Nat → R) (hf : A.Represents f) (c : R) :
    ∃ A', scaleColumn col c A = .ok A' ∧ A.Frame A' ∧ ∀ i j, i < m → j < n →
      A'.read [(i : Int), (j : Int)] = .ok (if j = col then c * f [i, j] else f [i, j]) := by
  obtain ⟨A', e1, e2, e3⟩ := scaleColumn_rep w d s h0 hc hf c
  exact ⟨A', e1, e2, fun i j hi hj => e3 [i, j] (by rw [e2.dims, d]; simp [InBox, hi, hj])⟩

/-- **C105 (refuted for an index out of range).** The row number is not checked: scaling row 1 of a view of the first row of a
matrix changes the second row of the matrix. -/
theorem C105_range_refuted : ∃ v : Strided Int, v.WF ∧ v.dims = [1, 2] ∧ ∃ v', scaleRow 1 5 v = .ok v' ∧ ¬ v.Frame v' := by
  refine ⟨⟨[1, 2, 3, 4], 0, [1, 2], [2, 1]⟩, ⟨rfl, ?_, ?_⟩, rfl, ⟨[1, 2, 15, 20], 0, [1, 2], [2, 1]⟩, by decide, fun h => ?_⟩
  · intro idx hi
    obtain ⟨i, j, rfl, h1, h2⟩ := inBox2_cases hi
    simp [dot]; omega
  · intro x y hx hy e
    obtain ⟨i, j, rfl, h1, h2⟩ := inBox2_cases hx
    obtain ⟨k, l, rfl, h3, h4⟩ := inBox2_cases hy
    simp [dot] at e
    have : i = k := by omega
    have : j = l := by omega
    subst_vars; rfl
  · have := h.outside 2 (by
      intro j hj
      obtain ⟨i, k, rfl, h1, h2⟩ := inBox2_cases hj
      simp [dot]; omega)
    simp at this

/-- Concrete cases: a row and a column of every second column of a 2×4 matrix. -/
example : scaleRow 1 10 (⟨[1, 2, 3, 4, 5, 6, 7, 8], 0, [2, 2], [4, 2]⟩ : Strided Int) =
    .ok ⟨[1, 2, 3, 4, 50, 6, 70, 8], 0, [2, 2], [4, 2]⟩ := by decide
example : scaleColumn 1 10 (⟨[1, 2, 3, 4, 5, 6, 7, 8], 0, [2, 2], [4, 2]⟩ : Strided Int) =
    .ok ⟨[1, 2, 30, 4, 5, 6, 70, 8], 0, [2, 2], [4, 2]⟩ := by decide

/-! ### C106 -/

section
variable {R : Type} [CommRing R] [LinearOrder R]

/-- What `syev<true>` does with any square matrix: it diagonalises the symmetric matrix given by the *lower* triangle of the
row-major tensor; row k of A is an eigenvector of the k-th eigenvalue. -/
theorem C106_lower (syev : SyevFn R) (n ld : Nat) (A W : Strided R) (a : Nat → Nat → R) (hA : Holds A (mat n n a)) (hn : n ≠ 0)
    (sA : A.strides = [ld, 1]) (hl : n ≤ ld) (wW : W.WF) (dW : W.dims = [n]) (sW : W.strides = [1])
    (lapack : ∀ f, mat n n f = (mat n n a)ᵀ → IsSyev n f (syev true n f)) :
    ∃ A' W', ∃ (v : Matrix (Fin n) (Fin n) R) (w : Fin n → R), syevT syev true A W = .ok (A', W') ∧ Holds A' v ∧
      HoldsVec W' w ∧ A.Frame A' ∧ W.Frame W' ∧ (∀ k l, k ≤ l → w k ≤ w l) ∧
      (∀ k l, v k ⬝ᵥ v l = if k = l then 1 else 0) ∧ ∀ k, mat n n (fromLower a) *ᵥ v k = w k • v k := by
  obtain ⟨A', W', e1, e2, e3, e4, e5⟩ := syevT_ok (syev := syev) (vectors := true) sA hl hn hA wW dW sW
  have L := lapack (crop n n fun i j => a j i) (mat_crop _ _ _)
  refine ⟨A', W', _, _, e1, e2, e4, e3, e5, fun k l h => L.ascending k l h l.2, fun k l => ?_, fun k => ?_⟩
  · have := congrFun (congrFun L.orthonormal k) l
    rw [Matrix.one_apply] at this
    rw [← this]
    rfl
  · have := diag_column L.eigen k
    rw [mat_upper_lower] at this
    exact this

/-- **C106 (partial).** `syev(&A, &W)` of a symmetric n×n matrix (n > 0; a tensor or a view with contiguous rows): W holds the
eigenvalues in ascending order, and the *rows* of A are orthonormal eigenvectors, row k for `W(k)`; nothing outside A and W
changes.  Missing: the triangle that is read (`C106_triangle_refuted`), a strided W (`C106_stride_refuted`), the empty
matrix (`C106_empty_refuted`). -/
theorem C106_syev_partial (syev : SyevFn R) (n ld : Nat) (A W : Strided R) (M : Matrix (Fin n) (Fin n) R) (hA : Holds A M)
    (hM : M.IsSymm) (hn : n ≠ 0) (sA : A.strides = [ld, 1]) (hl : n ≤ ld) (wW : W.WF) (dW : W.dims = [n])
    (sW : W.strides = [1]) (lapack : ∀ f, mat n n f = M → IsSyev n f (syev true n f)) :
    ∃ A' W', ∃ (v : Matrix (Fin n) (Fin n) R) (w : Fin n → R), syevT syev true A W = .ok (A', W') ∧ Holds A' v ∧
      HoldsVec W' w ∧ A.Frame A' ∧ W.Frame W' ∧ (∀ k l, k ≤ l → w k ≤ w l) ∧
      (∀ k l, v k ⬝ᵥ v l = if k = l then 1 else 0) ∧ ∀ k, M *ᵥ v k = w k • v k := by
  obtain ⟨a, rfl⟩ := exists_mat M
  have := C106_lower syev n ld A W a hA hn sA hl wW dW sW (by rw [hM.eq]; exact lapack)
  rwa [fromLower_symm hM] at this

/-- **C106 (partial: new tensors).** `syev(A)` of a symmetric tensor (n > 0) returns the eigenvectors, in the *rows* of a new n×n
tensor, and the eigenvalues in ascending order in a new vector. -/
theorem C106_new_partial (syev : SyevFn R) (z : Nat → R) (n : Nat) (A : Strided R) (M : Matrix (Fin n) (Fin n) R) (hA : Holds A M)
    (hM : M.IsSymm) (hn : n ≠ 0) (wA : A.IsTensor) (lapack : ∀ f, mat n n f = M → IsSyev n f (syev true n f)) :
    ∃ V W, ∃ (v : Matrix (Fin n) (Fin n) R) (w : Fin n → R), syevNew syev z true A = .ok (V, W) ∧ Holds V v ∧
      HoldsVec W w ∧ V.IsTensor ∧ W.IsTensor ∧ (∀ k l, k ≤ l → w k ≤ w l) ∧
      (∀ k l, v k ⬝ᵥ v l = if k = l then 1 else 0) ∧ ∀ k, M *ᵥ v k = w k • v k := by
  have d0 : A.dim 0 = n := by simp [Strided.dim, hA.dims]
  have d1 : A.dim 1 = n := by simp [Strided.dim, hA.dims]
  have wW : (Strided.mk' z [n]).IsTensor := isTensor_mk' z (by simp)
  obtain ⟨V, W, v, w, e1, e2, e3, e4, e5, e6⟩ := C106_syev_partial syev n n A (Strided.mk' z [n]) M hA hM hn
    (tensor_strides2 wA hA.dims) (Nat.le_refl n) wW.wf rfl (by rw [wW.strides]; rfl) lapack
  refine ⟨V, W, v, w, ?_, e2, e3, isTensor_of_frame wA e4, isTensor_of_frame wW e5, e6⟩
  unfold syevNew
  rw [if_neg (by rw [d0, d1]; simp), d0, e1]

/-- **C106 (values only).** `syev<false>`: the same eigenvalues; what is left in A is not specified. -/
theorem C106_values_partial (syev : SyevFn R) (n ld : Nat) (A W : Strided R) (M : Matrix (Fin n) (Fin n) R) (hA : Holds A M)
    (hM : M.IsSymm) (hn : n ≠ 0) (sA : A.strides = [ld, 1]) (hl : n ≤ ld) (wW : W.WF) (dW : W.dims = [n])
    (sW : W.strides = [1]) (lapack : ∀ f, mat n n f = M → ∃ V, IsSyev n f ((syev false n f).1, V)) :
    ∃ A' W', ∃ w : Fin n → R, syevT syev false A W = .ok (A', W') ∧ HoldsVec W' w ∧ A.Frame A' ∧ W.Frame W' ∧
      (∀ k l, k ≤ l → w k ≤ w l) ∧ ∃ v : Matrix (Fin n) (Fin n) R, (∀ k l, v k ⬝ᵥ v l = if k = l then 1 else 0) ∧
        ∀ k, M *ᵥ v k = w k • v k := by
  obtain ⟨a, rfl⟩ := exists_mat M
  obtain ⟨A', W', e1, _, e3, e4, e5⟩ := syevT_ok (syev := syev) (vectors := false) sA hl hn hA wW dW sW
  obtain ⟨V, L⟩ := lapack (crop n n fun i j => a j i) ((mat_crop _ _ _).trans hM.eq)
  refine ⟨A', W', _, e1, e4, e3, e5, fun k l h => L.ascending k l h l.2, (mat n n V)ᵀ, fun k l => ?_, fun k => ?_⟩
  · have := congrFun (congrFun L.orthonormal k) l
    rw [Matrix.one_apply] at this
    rw [← this]
    rfl
  · have := diag_column L.eigen k
    rw [mat_upper_lower, fromLower_symm hM] at this
    exact this

end

/-- The eigenvalues of the zero matrix. -/
theorem diag_zero {R : Type} [CommRing R] [NoZeroDivisors R] [Nontrivial R] {n : Nat} {V : Matrix (Fin n) (Fin n) R} {w : Fin n → R}
    (ho : ∀ k l, V k ⬝ᵥ V l = if k = l then 1 else 0) (he : ∀ k, (0 : Matrix (Fin n) (Fin n) R) *ᵥ V k = w k • V k) (k : Fin n) :
    w k = 0 := by
  have h := he k
  rw [zero_mulVec] at h
  have h1 := ho k k
  rw [if_pos rfl] at h1
  have h2 : w k * (V k ⬝ᵥ V k) = 0 := by
    have := congrArg (fun x => x ⬝ᵥ V k) h
    simpa using this.symm
  rwa [h1, mul_one] at h2

/-- **C106 (refuted: which triangle).** The documentation says that the upper triangle of A holds the matrix and the lower one
is not referenced.  It is the other way round: for the matrix with 1 in the upper corner and 0 elsewhere, whose documented
eigenvalues are -1 and 1, `syev` returns 0 and 0 with every LAPACK that keeps its contract. -/
theorem C106_triangle_refuted (syev : SyevFn Rat) 
    (lapack : ∀ f, mat 2 2 f = !![0, 0; 1, 0] → IsSyev 2 f (syev true 2 f)) :
    let A : Strided Rat := ⟨[0, 1, 0, 0], 0, [2, 2], [2, 1]⟩
    Holds A !![0, 1; 0, 0] ∧ IsEigenvalue !![(0 : Rat), 1; 1, 0] 1 ∧
    ∃ A' W', syevT syev true A ⟨[5, 5], 0, [2], [1]⟩ = .ok (A', W') ∧ W'.read [0] = .ok 0 ∧ W'.read [1] = .ok 0 := by
  intro A
  have hA : Holds A (mat 2 2 fun i j => if i = 0 ∧ j = 1 then 1 else 0) := by
    refine ⟨rfl, fun i j => ?_⟩
    fin_cases i <;> fin_cases j <;> rfl
  have e : mat 2 2 (fromLower fun i j => if i = 0 ∧ j = 1 then (1 : Rat) else 0) = 0 := by
    funext i j
    fin_cases i <;> fin_cases j <;> rfl
  refine ⟨?_, ⟨![1, 1], ?_, ?_⟩, ?_⟩
  · refine ⟨rfl, fun i j => ?_⟩
    fin_cases i <;> fin_cases j <;> rfl
  · intro h
    have := congrFun h 0
    simp at this
  · funext i
    fin_cases i <;> simp [mulVec, dotProduct, Fin.sum_univ_two]
  · obtain ⟨A', W', v, w, e1, e2, e3, e4, e5, e6, e7, e8⟩ := C106_lower syev 2 2 A ⟨[5, 5], 0, [2], [1]⟩ _ hA (by decide) rfl
      (by decide) (Strided.IsTensor.wf ⟨rfl, rfl, rfl⟩) rfl rfl (fun f hf => lapack f (by
        rw [hf]; funext i j; fin_cases i <;> fin_cases j <;> rfl))
    rw [e] at e8
    have hz := diag_zero e7 e8
    refine ⟨A', W', e1, ?_, ?_⟩
    · have := e3.elems 0
      rw [hz] at this
      exact this
    · have := e3.elems 1
      rw [hz] at this
      exact this

/-- **C106 (refuted for a strided W).** The stride of W is ignored: with every LAPACK, the eigenvalues of a 2×2 matrix stored
into every second element of a vector of four leave the last element as it was, and write one in between. -/
theorem C106_stride_refuted {R : Type} [Zero R] (syev : SyevFn R) (x y z t : R) (A : Strided R) (a : Nat → Nat → R) (hA : Holds A (mat 2 2 a))
    (sA : A.strides = [2, 1]) :
    let W : Strided R := ⟨[x, y, z, t], 0, [2], [2]⟩
    ∃ A' W', syevT syev true A W = .ok (A', W') ∧ W'.read [1] = .ok z ∧
      W'.data = [(syev true 2 (crop 2 2 fun i j => a j i)).1 0, (syev true 2 (crop 2 2 fun i j => a j i)).1 1, z, t] := by
  intro W
  obtain ⟨A', W', e1, e2, e3, e4, e5⟩ := syevT_ok (syev := syev) (vectors := true) (W := ⟨[x, y, z, t], 0, [2], [1]⟩) sA
    (Nat.le_refl 2) (by decide) hA
    ⟨rfl, fun idx h => by
      obtain ⟨i, rfl, hi⟩ := inBox1_cases h
      simp [dot]; omega, fun i j hi hj e => by
      obtain ⟨i, rfl, hi⟩ := inBox1_cases hi
      obtain ⟨j, rfl, hj⟩ := inBox1_cases hj
      simp [dot] at e
      rw [e]⟩ rfl rfl
  have d0 : A.dim 0 = 2 := by simp [Strided.dim, hA.dims]
  have d1 : A.dim 1 = 2 := by simp [Strided.dim, hA.dims]
  have hd : W'.data = [(syev true 2 (crop 2 2 fun i j => a j i)).1 0, (syev true 2 (crop 2 2 fun i j => a j i)).1 1, z, t] := by
    apply List.ext_getElem?
    intro k
    have o : W'.off = 0 := e5.off
    match k with
    | 0 =>
      have := (read1_iff (i := 0) (e5.dims.trans rfl) (e5.strides.trans rfl) _).1 (e4.elems 0)
      simpa [o] using this
    | 1 =>
      have := (read1_iff (i := 1) (e5.dims.trans rfl) (e5.strides.trans rfl) _).1 (e4.elems 1)
      simpa [o] using this
    | k + 2 =>
      have := e5.outside (k + 2) (by
        intro j hj
        obtain ⟨i, rfl, hi⟩ := inBox1_cases hj
        simp [dot]; omega)
      rw [this]
      rfl
  refine ⟨A', ⟨W'.data, 0, [2], [2]⟩, ?_, ?_, hd⟩
  · unfold syevT at e1 ⊢
    rw [d0, d1, if_neg (by simp)] at e1 ⊢
    simp only [W]
    cases hv : vendorSyev syev true 2 A.data A.off (A.stride 0) [x, y, z, t] 0 (3 * 2) with
    | ok r =>
      rw [hv] at e1
      simp only [Outcome.ok_bind] at e1 ⊢
      have e1' := congrArg (fun o => match o with | Outcome.ok p => some p | _ => none) e1
      simp only [pure] at e1'
      rw [Option.some.injEq, Prod.mk.injEq] at e1'
      rw [← e1'.1, ← e1'.2]
      rfl
    | error m => rw [hv] at e1; simp at e1
    | ub m => rw [hv] at e1; simp at e1
  · rw [hd]; rfl

/-- **C106 (refuted for the empty matrix).** LAPACK rejects the arguments. -/
theorem C106_empty_refuted {R : Type} [Zero R] (syev : SyevFn R) (vectors : Bool) (A W : Strided R) (d : A.dims = [0, 0]) :
    (syevT syev vectors A W).isError = true := by
  have d0 : A.dim 0 = 0 := by simp [Strided.dim, d]
  have d1 : A.dim 1 = 0 := by simp [Strided.dim, d]
  unfold syevT vendorSyev
  rw [d0, d1, if_neg (by simp), if_pos (by right; decide)]
  rfl

/-- A case that meets the hypotheses: the symmetric matrix with eigenvalues 0 and 25 and eigenvectors (3, 4)/5, (-4, 3)/5. -/
def eigA : Strided Rat := ⟨[16, -12, -12, 9], 0, [2, 2], [2, 1]⟩
/-- What a LAPACK may return for `eigA` (eigenvectors in columns). -/
def eigOut : (Nat → Rat) × (Nat → Nat → Rat) :=
  (fun k => if k = 0 then 0 else 25,
    fun i k => if k = 0 then (if i = 0 then 3 / 5 else 4 / 5) else (if i = 0 then -4 / 5 else 3 / 5))

theorem eigA_holds : Holds eigA !![16, -12; -12, 9] := by
  refine ⟨rfl, fun i j => ?_⟩
  fin_cases i <;> fin_cases j <;> rfl

theorem eigOut_isSyev (f : Nat → Nat → Rat) (hf : mat 2 2 f = !![16, -12; -12, 9]) : IsSyev 2 f eigOut := by
  have e : mat 2 2 (fromUpper f) = !![16, -12; -12, 9] := by
    have h00 := congrFun (congrFun hf 0) 0
    have h01 := congrFun (congrFun hf 0) 1
    have h11 := congrFun (congrFun hf 1) 1
    funext i j
    fin_cases i <;> fin_cases j
    · exact h00
    · exact h01
    · exact h01
    · exact h11
  refine ⟨matrix_ext_dec (by decide +kernel), ?_, ?_⟩
  · rw [e]
    exact matrix_ext_dec (by decide +kernel)
  · intro i j hij hj
    have : i = 0 ∧ j = 0 ∨ i = 0 ∧ j = 1 ∨ i = 1 ∧ j = 1 := by omega
    rcases this with ⟨rfl, rfl⟩ | ⟨rfl, rfl⟩ | ⟨rfl, rfl⟩ <;> decide +kernel

example : ∃ A' W', syevT (fun _ _ _ => eigOut) true eigA ⟨[7, 7], 0, [2], [1]⟩ = .ok (A', W') ∧
    A'.data = [3 / 5, 4 / 5, -4 / 5, 3 / 5] ∧ W'.data = [0, 25] :=
  ⟨_, _, rfl, by decide +kernel, by decide +kernel⟩

example := C106_syev_partial (fun _ _ _ => eigOut) 2 2 eigA ⟨[7, 7], 0, [2], [1]⟩ _ eigA_holds
  (by funext i j; fin_cases i <;> fin_cases j <;> rfl) (by decide) rfl (by decide) (Strided.IsTensor.wf ⟨rfl, rfl, rfl⟩) rfl rfl
  eigOut_isSyev

example := C106_new_partial (fun _ _ _ => eigOut) (fun _ => 7) 2 eigA _ eigA_holds
  (by funext i j; fin_cases i <;> fin_cases j <;> rfl) (by decide) ⟨rfl, rfl, rfl⟩ eigOut_isSyev

/-- The hypothesis of `C106_triangle_refuted` can be met. -/
example : ∀ f, mat 2 2 f = !![0, 0; 1, 0] → IsSyev (R := Rat) 2 f (fun _ => 0, fun i j => if i = j then 1 else 0) := by
  intro f hf
  have h00 := congrFun (congrFun hf 0) 0
  have h01 := congrFun (congrFun hf 0) 1
  have h11 := congrFun (congrFun hf 1) 1
  have e : mat 2 2 (fromUpper f) = 0 := by
    funext i j
    fin_cases i <;> fin_cases j
    · exact h00
    · exact h01
    · exact h01
    · exact h11
  refine ⟨matrix_ext_dec (by decide +kernel), ?_, fun _ _ _ _ => le_refl _⟩
  rw [e]
  exact matrix_ext_dec (by decide +kernel)

/-! ### C107 -/

section
variable {R : Type} [CommRing R] [LinearOrder R] [IsStrictOrderedRing R] [BEq R] [LawfulBEq R]

/-- **C107 (partial).** `pow(A, alpha, cutoff)` of a symmetric n×n tensor, n > 0: a new tensor P with the eigenvectors of A; an
eigenvector of A for x is one of P for `x^alpha`, with two exceptions: a power that is not finite is replaced by 0, and when
alpha is negative the eigenvalues whose magnitude is below cutoff times the largest magnitude are replaced by 0 as well.
(Eigenvectors span the space, so this determines P.)  Missing: the documented meaning of the cutoff
(`C107_cutoff_refuted`) and the empty matrix (`C107_empty_refuted`). -/
theorem C107_eigenvectors_partial (syev : SyevFn R) (rpow : R → R → Option R) (z : Nat → R) (n : Nat) (A : Strided R) (alpha cutoff : R)
    (M : Matrix (Fin n) (Fin n) R) (wA : A.IsTensor) (hA : Holds A M) (hM : M.IsSymm) (hn : n ≠ 0)
    (lapack : ∀ f, mat n n f = M → IsSyev n f (syev true n f)) :
    ∃ P, ∃ (N : Matrix (Fin n) (Fin n) R) (radius : R), matPow syev rpow z A alpha cutoff = .ok P ∧ P.IsTensor ∧ Holds P N ∧
      IsRadius M radius ∧ ∀ v x, M *ᵥ v = x • v → N *ᵥ v = cutPow rpow alpha cutoff radius x • v := by
  obtain ⟨a, rfl⟩ := exists_mat M
  obtain ⟨P, m, e1, e2, e3, e4, e5⟩ := matPow_ok (syev := syev) (rpow := rpow) (z := z) (alpha := alpha) (cutoff := cutoff) wA hn hA
  have L := lapack (crop n n fun i j => a j i) ((mat_crop _ _ _).trans hM.eq)
  have he := L.eigen
  rw [mat_upper_lower, fromLower_symm hM] at he
  refine ⟨P, _, m, e1, e2, e5, diag_radius L.orthonormal he hn (fun k => e3 k k.2)
    (e4.imp id fun ⟨k, hk, h⟩ => ⟨⟨k, hk⟩, h⟩), fun v x hv => ?_⟩
  rw [diag_apply L.orthonormal he (powValue rpow alpha cutoff m) hv]
  unfold powValue cutPow
  split
  · rfl
  · cases rpow x alpha <;> rfl

/-- Both matrices in the same eigenbasis. -/
theorem pow_diagonal (syev : SyevFn R) (rpow : R → R → Option R) (z : Nat → R) (n : Nat) (A : Strided R) (alpha cutoff : R)
    (M : Matrix (Fin n) (Fin n) R) (wA : A.IsTensor) (hA : Holds A M) (hM : M.IsSymm) (hn : n ≠ 0)
    (lapack : ∀ f, mat n n f = M → IsSyev n f (syev true n f)) :
    ∃ P radius, ∃ (V : Matrix (Fin n) (Fin n) R) (w : Fin n → R), matPow syev rpow z A alpha cutoff = .ok P ∧ IsRadius M radius ∧
      Vᵀ * V = 1 ∧ M * V = V * diagonal w ∧ Holds P (V * diagonal (fun k => powValue rpow alpha cutoff radius (w k)) * Vᵀ) := by
  obtain ⟨a, rfl⟩ := exists_mat M
  obtain ⟨P, m, e1, e2, e3, e4, e5⟩ := matPow_ok (syev := syev) (rpow := rpow) (z := z) (alpha := alpha) (cutoff := cutoff) wA hn hA
  have L := lapack (crop n n fun i j => a j i) ((mat_crop _ _ _).trans hM.eq)
  have he := L.eigen
  rw [mat_upper_lower, fromLower_symm hM] at he
  exact ⟨P, m, _, _, e1, diag_radius L.orthonormal he hn (fun k => e3 k k.2)
    (e4.imp id fun ⟨k, hk, h⟩ => ⟨⟨k, hk⟩, h⟩), L.orthonormal, he, e5⟩

/-- **C107 (natural powers).** `pow(A, p)` is `A^p`. -/
theorem C107_power_partial (syev : SyevFn R) (rpow : R → R → Option R) (z : Nat → R) (n : Nat) (A : Strided R) (p : Nat) (alpha cutoff : R)
    (M : Matrix (Fin n) (Fin n) R) (wA : A.IsTensor) (hA : Holds A M) (hM : M.IsSymm) (hn : n ≠ 0) (ha : 0 ≤ alpha)
    (hp : ∀ x, rpow x alpha = some (x ^ p)) (lapack : ∀ f, mat n n f = M → IsSyev n f (syev true n f)) :
    ∃ P, matPow syev rpow z A alpha cutoff = .ok P ∧ Holds P (M ^ p) := by
  obtain ⟨P, m, V, w, e1, _, ho, he, e5⟩ := pow_diagonal syev rpow z n A alpha cutoff M wA hA hM hn lapack
  refine ⟨P, e1, ?_⟩
  rw [diag_pow ho he]
  simpa [powValue, hp, not_lt.2 ha] using e5

/-- **C107 (square roots).** If the eigenvalues of A have square roots and `std::pow` returns them, the square of `pow(A, 1/2)`
is A. -/
theorem C107_root_partial (syev : SyevFn R) (rpow : R → R → Option R) (z : Nat → R) (n : Nat) (A : Strided R) (alpha cutoff : R)
    (M : Matrix (Fin n) (Fin n) R) (wA : A.IsTensor) (hA : Holds A M) (hM : M.IsSymm) (hn : n ≠ 0) (ha : 0 ≤ alpha)
    (hp : ∀ x, IsEigenvalue M x → ∃ y, rpow x alpha = some y ∧ y * y = x)
    (lapack : ∀ f, mat n n f = M → IsSyev n f (syev true n f)) :
    ∃ P, ∃ N : Matrix (Fin n) (Fin n) R, matPow syev rpow z A alpha cutoff = .ok P ∧ Holds P N ∧ N * N = M := by
  obtain ⟨P, m, V, w, e1, _, ho, he, e5⟩ := pow_diagonal syev rpow z n A alpha cutoff M wA hA hM hn lapack
  refine ⟨P, _, e1, e5, ?_⟩
  rw [diag_mul ho]
  refine Eq.trans ?_ (diag_eq ho he).symm
  congr 3
  funext k
  obtain ⟨y, hy, h⟩ := hp _ (diag_eigenvalue ho he k)
  simp [powValue, hy, not_lt.2 ha, h]

/-- **C107 (inverse).** If no eigenvalue is below the cutoff, and `std::pow` returns the inverses of the eigenvalues,
`pow(A, -1)` is the inverse of A. -/
theorem C107_inverse_partial (syev : SyevFn R) (rpow : R → R → Option R) (z : Nat → R) (n : Nat) (A : Strided R) (alpha cutoff : R)
    (M : Matrix (Fin n) (Fin n) R) (wA : A.IsTensor) (hA : Holds A M) (hM : M.IsSymm) (hn : n ≠ 0)
    (hc : ∀ x r, IsEigenvalue M x → IsRadius M r → cutoff * r ≤ |x|)
    (hp : ∀ x, IsEigenvalue M x → ∃ y, rpow x alpha = some y ∧ y * x = 1)
    (lapack : ∀ f, mat n n f = M → IsSyev n f (syev true n f)) :
    ∃ P, ∃ N : Matrix (Fin n) (Fin n) R, matPow syev rpow z A alpha cutoff = .ok P ∧ Holds P N ∧ N * M = 1 := by
  obtain ⟨P, m, V, w, e1, hr, ho, he, e5⟩ := pow_diagonal syev rpow z n A alpha cutoff M wA hA hM hn lapack
  refine ⟨P, _, e1, e5, ?_⟩
  rw [diag_eq ho he, diag_mul ho, ← diag_one ho]
  congr 3
  funext k
  obtain ⟨y, hy, h⟩ := hp _ (diag_eigenvalue ho he k)
  have : ¬ |w k| < cutoff * m := not_lt.2 (hc _ _ (diag_eigenvalue ho he k) hr)
  simp [powValue, hy, this, h]

omit [IsStrictOrderedRing R] [LawfulBEq R] in
/-- **C107 (refuted for the empty matrix).** The empty matrix is its own power, but LAPACK rejects the arguments. -/
theorem C107_empty_refuted (syev : SyevFn R) (rpow : R → R → Option R) (z : Nat → R) (A : Strided R) (alpha cutoff : R)
    (d : A.dims = [0, 0]) : (matPow syev rpow z A alpha cutoff).isError = true := by
  have h := C106_empty_refuted syev true A (Strided.mk' z [0]) d
  have d0 : A.dim 0 = 0 := by simp [Strided.dim, d]
  have d1 : A.dim 1 = 0 := by simp [Strided.dim, d]
  unfold matPow
  rw [d0, d1, if_neg (by simp)]
  simp only
  cases hs : syevT syev true A (Strided.mk' z [0]) with
  | ok r => rw [hs] at h; simp [Outcome.isError] at h
  | error m => rfl
  | ub m => rw [hs] at h; simp [Outcome.isError] at h

end

/-- **C107 (refuted: the cutoff).** "Values below cutoff are considered zero": with a cutoff of 1/2, `pow` of the 1×1 matrix 1/4
to the power -1 is 4 and to the power 1 is 1/4, not 0: the cutoff is relative to the largest eigenvalue and is not used for
positive powers. -/
theorem C107_cutoff_refuted (syev : SyevFn Rat) (rpow : Rat → Rat → Option Rat) (h1 : rpow (1 / 4) 1 = some (1 / 4))
    (h2 : rpow (1 / 4) (-1) = some 4) (lapack : ∀ f, mat 1 1 f = !![1 / 4] → IsSyev 1 f (syev true 1 f)) :
    (∃ P, matPow syev rpow (fun _ => 0) ⟨[1 / 4], 0, [1, 1], [1, 1]⟩ 1 (1 / 2) = .ok P ∧ P.read [0, 0] = .ok (1 / 4)) ∧
    ∃ P, matPow syev rpow (fun _ => 0) ⟨[1 / 4], 0, [1, 1], [1, 1]⟩ (-1) (1 / 2) = .ok P ∧ P.read [0, 0] = .ok 4 := by
  have hA : Holds (⟨[1 / 4], 0, [1, 1], [1, 1]⟩ : Strided Rat) !![1 / 4] := by
    refine ⟨rfl, fun i j => ?_⟩
    fin_cases i; fin_cases j; rfl
  have hs : (!![1 / 4] : Matrix (Fin 1) (Fin 1) Rat).IsSymm := by funext i j; fin_cases i; fin_cases j; rfl
  have ev : (!![1 / 4] : Matrix (Fin 1) (Fin 1) Rat) *ᵥ ![1] = (1 / 4 : Rat) • ![1] := by
    funext i; fin_cases i; simp [mulVec, dotProduct]
  have rad : ∀ r, IsRadius (!![1 / 4] : Matrix (Fin 1) (Fin 1) Rat) r → r = 1 / 4 := by
    rintro r ⟨⟨x, ⟨v, hv, hx⟩, rfl⟩, _⟩
    have h0 := congrFun hx 0
    simp [mulVec, dotProduct] at h0
    have hv0 : v 0 ≠ 0 := by
      intro h
      apply hv
      funext i
      fin_cases i
      exact h
    rcases h0 with h0 | h0
    · rw [← h0]; decide +kernel
    · exact absurd h0 hv0
  have key : ∀ alpha y, rpow (1 / 4) alpha = some y →
      ∃ P, matPow syev rpow (fun _ => 0) ⟨[1 / 4], 0, [1, 1], [1, 1]⟩ alpha (1 / 2) = .ok P ∧ P.read [0, 0] = .ok y := by
    intro alpha y hy
    obtain ⟨P, N, r, e1, e2, e3, e4, e5⟩ := C107_eigenvectors_partial syev rpow (fun _ => 0) 1
      ⟨[1 / 4], 0, [1, 1], [1, 1]⟩ alpha (1 / 2) !![1 / 4] ⟨rfl, rfl, rfl⟩ hA hs (by decide) lapack
    refine ⟨P, e1, ?_⟩
    have h := congrFun (e5 _ _ ev) 0
    have hc : cutPow rpow alpha (1 / 2) r (1 / 4) = y := by
      rw [rad r e4]
      unfold cutPow
      rw [if_neg (by rintro ⟨_, h⟩; revert h; decide +kernel), hy]
    rw [hc] at h
    simp [mulVec, dotProduct] at h
    have := e3.elems 0 0
    rw [h] at this
    exact this
  exact ⟨key 1 _ h1, key (-1) _ h2⟩

/-- A case that meets the hypotheses: the square root of `eigA`, and its (pseudo-)inverse, where the eigenvalue 0 is cut off. -/
example : ∃ P, matPow (fun _ _ _ => eigOut) (fun x _ => if x = 25 then some 5 else if x = 0 then some 0 else none) (fun _ => 7)
    eigA (1 / 2) (1 / 1000) = .ok P ∧ P.data = [16 / 5, -12 / 5, -12 / 5, 9 / 5] := ⟨_, rfl, by decide +kernel⟩
example : ∃ P, matPow (fun _ _ _ => eigOut) (fun x _ => if x = 0 then none else some x⁻¹) (fun _ => 7)
    eigA (-1) (1 / 1000) = .ok P ∧ P.data = [16 / 625, -12 / 625, -12 / 625, 9 / 625] := ⟨_, rfl, by decide +kernel⟩

example := C107_eigenvectors_partial (fun _ _ _ => eigOut) (fun x _ => if x = 0 then none else some x⁻¹) (fun _ => 7) 2 eigA (-1)
  (1 / 1000) _ ⟨rfl, rfl, rfl⟩ eigA_holds (by funext i j; fin_cases i <;> fin_cases j <;> rfl) (by decide) eigOut_isSyev
example := C107_power_partial (fun _ _ _ => eigOut) (fun x _ => some (x ^ 2)) (fun _ => 7) 2 eigA 2 2
  (1 / 1000) _ ⟨rfl, rfl, rfl⟩ eigA_holds (by funext i j; fin_cases i <;> fin_cases j <;> rfl) (by decide) (by decide +kernel)
  (fun _ => rfl) eigOut_isSyev

/-! ### C108 -/

section
variable {R : Type} [CommRing R] [LinearOrder R] [BEq R] [LawfulBEq R]

/-- What `solve_continuous_lyapunov(A, Q)` returns: a solution of `A X + X A = s² Q`, where s is the scale factor of xTRSYL. -/
theorem C108_equation (gees : GeesFn R) (trsyl : TrsylFn R) (z : Nat → R) (n : Nat) (A Q : Strided R)
    (M N : Matrix (Fin n) (Fin n) R) (wA : A.IsTensor) (wQ : Q.IsTensor) (hA : Holds A M) (hQ : Holds Q N)
    (schur : ∀ f, mat n n f = M → IsSchur n f (gees n f)) 
    (sylvester : ∀ T C, SchurFactor M T → IsTrsyl n n T T C (trsyl n n T T C)) :
    ∃ X, ∃ (Y : Matrix (Fin n) (Fin n) R) (s : R), lyapunov gees trsyl z A Q = .ok X ∧ Holds X Y ∧
      (∃ T C, s = (trsyl n n T T C).1) ∧ 0 < s ∧ s ≤ 1 ∧ M * Y + Y * M = (s * s) • N := by
  obtain ⟨a, rfl⟩ := exists_mat M
  obtain ⟨q, rfl⟩ := exists_mat N
  obtain ⟨F, hF, X, e1, e2⟩ := lyapunov_ok (gees := gees) (trsyl := trsyl) (z := z) wA wQ hA hQ
  have S := schur (crop n n a) (mat_crop _ _ _)
  have ho' := mul_eq_one_comm.1 S.orthogonal
  have hT := quasi_crop S.quasi
  obtain ⟨t1, t2, t3⟩ := sylvester (crop n n (gees n (crop n n a)).1) (crop n n F)
    ⟨hT, _, S.orthogonal, by rw [mat_crop, S.eq, mat_crop]⟩ hT hT
  refine ⟨X, _, _, e1, e2, ⟨_, _, rfl⟩, t2, t3, ?_⟩
  have hS := S.eq
  have o := S.orthogonal
  rw [mat_crop] at hS
  simp only [mat_crop, hF] at t1
  generalize (trsyl n n _ _ _).1 = s at *
  generalize mat n n (trsyl n n _ _ _).2 = Y at *
  generalize mat n n (gees n (crop n n a)).2 = U at *
  generalize mat n n (gees n (crop n n a)).1 = T at *
  rw [← hS]
  have h1 : U * T * Uᵀ * (U * Y * Uᵀ) = U * (T * Y) * Uᵀ := by
    calc U * T * Uᵀ * (U * Y * Uᵀ) = U * T * (Uᵀ * U) * Y * Uᵀ := by simp only [Matrix.mul_assoc]
      _ = _ := by rw [o, Matrix.mul_one]; simp only [Matrix.mul_assoc]
  have h2 : U * Y * Uᵀ * (U * T * Uᵀ) = U * (Y * T) * Uᵀ := by
    calc U * Y * Uᵀ * (U * T * Uᵀ) = U * Y * (Uᵀ * U) * T * Uᵀ := by simp only [Matrix.mul_assoc]
      _ = _ := by rw [o, Matrix.mul_one]; simp only [Matrix.mul_assoc]
  have h3 : U * (Uᵀ * mat n n q * U) * Uᵀ = mat n n q := by
    calc U * (Uᵀ * mat n n q * U) * Uᵀ = (U * Uᵀ) * mat n n q * (U * Uᵀ) := by simp only [Matrix.mul_assoc]
      _ = _ := by rw [ho', Matrix.one_mul, Matrix.mul_one]
  rw [Matrix.mul_smul, Matrix.smul_mul, h1, h2, ← smul_add, ← Matrix.add_mul, ← Matrix.mul_add, t1, Matrix.mul_smul,
    Matrix.smul_mul, h3, smul_smul]

/-- **C108 (partial).** For a symmetric A, and an xTRSYL that does not scale, `solve_continuous_lyapunov(A, Q)` returns a
solution of `A X + X Aᵀ = Q`.  Missing: any other A (`C108_refuted`) and a scale factor other than 1
(`C108_scale_refuted`). -/
theorem C108_symmetric_partial (gees : GeesFn R) (trsyl : TrsylFn R) (z : Nat → R) (n : Nat) (A Q : Strided R)
    (M N : Matrix (Fin n) (Fin n) R) (wA : A.IsTensor) (wQ : Q.IsTensor) (hA : Holds A M) (hQ : Holds Q N) (hM : M.IsSymm)
    (schur : ∀ f, mat n n f = M → IsSchur n f (gees n f))
    (sylvester : ∀ T C, SchurFactor M T → IsTrsyl n n T T C (trsyl n n T T C)) (unscaled : ∀ T C, (trsyl n n T T C).1 = 1) :
    ∃ X, ∃ Y : Matrix (Fin n) (Fin n) R, lyapunov gees trsyl z A Q = .ok X ∧ Holds X Y ∧ M * Y + Y * Mᵀ = N := by
  obtain ⟨X, Y, s, e1, e2, ⟨T, C, rfl⟩, _, _, e3⟩ := C108_equation gees trsyl z n A Q M N wA wQ hA hQ schur sylvester
  refine ⟨X, Y, e1, e2, ?_⟩
  rw [unscaled] at e3
  rw [hM.eq, e3, mul_one, one_smul]

/-- **C108 (shapes).** Matrices that are not square or do not fit abort the program. -/
theorem C108_shapes {R : Type} [Add R] [Mul R] [Zero R] [One R] [BEq R] (gees : GeesFn R) (trsyl : TrsylFn R) (z : Nat → R)
    (A Q : Strided R) (h : ¬ ∃ n, A.dims = [n, n] ∧ Q.dims = [n, n]) (dA : A.dims.length = 2) (dQ : Q.dims.length = 2) :
    (lyapunov gees trsyl z A Q).isError = true := by
  unfold lyapunov
  rw [if_pos]
  · rfl
  · match hA : A.dims, hQ : Q.dims, dA, dQ with
    | [a, b], [c, d], _, _ =>
      simp only [Strided.dim, hA, hQ, List.getD_cons_zero, List.getD_cons_succ]
      by_contra hc
      push Not at hc
      obtain ⟨rfl, rfl, rfl⟩ := hc
      exact h ⟨_, hA, hQ⟩

end

/-- **C108 (refuted).** For `A = [[1, 1], [0, 1]]` and `Q = I`, whatever LAPACK returns (within its contract), the result is not a
solution of `A X + X Aᵀ = Q`, although there is one. -/
theorem C108_refuted (gees : GeesFn Rat) (trsyl : TrsylFn Rat) (z : Nat → Rat)
    (schur : ∀ f, mat 2 2 f = !![1, 1; 0, 1] → IsSchur 2 f (gees 2 f))
    (sylvester : ∀ T C, SchurFactor (!![1, 1; 0, 1] : Matrix (Fin 2) (Fin 2) Rat) T → IsTrsyl 2 2 T T C (trsyl 2 2 T T C)) :
    let M : Matrix (Fin 2) (Fin 2) Rat := !![1, 1; 0, 1]
    (∃ Y, M * Y + Y * Mᵀ = 1) ∧
    ∃ X, ∃ Y : Matrix (Fin 2) (Fin 2) Rat,
      lyapunov gees trsyl z ⟨[1, 1, 0, 1], 0, [2, 2], [2, 1]⟩ ⟨[1, 0, 0, 1], 0, [2, 2], [2, 1]⟩ = .ok X ∧ Holds X Y ∧
      M * Y + Y * Mᵀ ≠ 1 := by
  intro M
  refine ⟨⟨!![3 / 4, -1 / 4; -1 / 4, 1 / 2], matrix_ext_dec (by decide +kernel)⟩, ?_⟩
  have hA : Holds (⟨[1, 1, 0, 1], 0, [2, 2], [2, 1]⟩ : Strided Rat) M := by
    refine ⟨rfl, fun i j => ?_⟩
    fin_cases i <;> fin_cases j <;> rfl
  have hQ : Holds (⟨[1, 0, 0, 1], 0, [2, 2], [2, 1]⟩ : Strided Rat) (1 : Matrix (Fin 2) (Fin 2) Rat) := by
    refine ⟨rfl, fun i j => ?_⟩
    fin_cases i <;> fin_cases j <;> rfl
  obtain ⟨X, Y, s, e1, e2, _, _, _, e3⟩ := C108_equation gees trsyl z 2 _ _ M 1 ⟨rfl, rfl, rfl⟩ ⟨rfl, rfl, rfl⟩ hA hQ schur
    sylvester
  refine ⟨X, Y, e1, e2, fun h => ?_⟩
  have a10 := congrFun (congrFun e3 1) 0
  have b10 := congrFun (congrFun h 1) 0
  have b11 := congrFun (congrFun h 1) 1
  simp [M, Matrix.mul_apply, Fin.sum_univ_two, vecMul, dotProduct] at a10 b10 b11
  linarith

/-- **C108 (refuted: scaling).** With an xTRSYL that scales, as its contract allows, the solution of `2 x = 1` is wrong. -/
theorem C108_scale_refuted : ∃ (gees : GeesFn Rat) (trsyl : TrsylFn Rat),
    (∀ f, mat 1 1 f = !![1] → IsSchur 1 f (gees 1 f)) ∧
    (∀ T C, SchurFactor (!![1] : Matrix (Fin 1) (Fin 1) Rat) T → IsTrsyl 1 1 T T C (trsyl 1 1 T T C)) ∧
    ∃ X, lyapunov gees trsyl (fun _ => 0) ⟨[1], 0, [1, 1], [1, 1]⟩ ⟨[1], 0, [1, 1], [1, 1]⟩ = .ok X ∧ X.data = [1 / 8] := by
  refine ⟨fun _ f => (f, fun i j => if i = j then 1 else 0), fun _ _ T _ C => (1 / 2, fun i j => C i j / (4 * T 0 0)), ?_, ?_, _, rfl, by decide +kernel⟩
  · intro f hf
    have hI : mat 1 1 (fun i j => if i = j then (1 : Rat) else 0) = 1 := by funext i j; fin_cases i; fin_cases j; rfl
    refine ⟨?_, ⟨fun i j hi hj => by omega, fun i hi => by omega⟩, ?_⟩
    · show (mat 1 1 _)ᵀ * mat 1 1 _ = 1
      rw [hI, transpose_one, Matrix.one_mul]
    · show mat 1 1 _ * _ * (mat 1 1 _)ᵀ = _
      rw [hI, transpose_one, Matrix.one_mul, Matrix.mul_one]
  · rintro T C ⟨_, U, hU, hT⟩ _ _
    have h1 := congrFun (congrFun hU 0) 0
    have h2 := congrFun (congrFun hT 0) 0
    simp [Matrix.mul_apply, mat] at h1 h2
    have hT0 : T 0 0 = 1 := by
      have : T 0 0 * (U 0 0 * U 0 0) = 1 := by rw [← h2]; ring
      rwa [h1, mul_one] at this
    refine ⟨?_, by norm_num, by norm_num⟩
    funext i j
    fin_cases i; fin_cases j
    simp [Matrix.mul_apply, mat, hT0]
    ring

/-- LAPACK routines that keep their contracts exist for every matrix M with a solvable equation (over the rationals, 2×2). -/
theorem lapack_exists (M : Matrix (Fin 2) (Fin 2) Rat) (solve : ∀ K, ∃ X, M * X + X * M = K) :
    ∃ (gees : GeesFn Rat) (trsyl : TrsylFn Rat), (∀ f, mat 2 2 f = M → IsSchur 2 f (gees 2 f)) ∧
      (∀ T C, SchurFactor M T → IsTrsyl 2 2 T T C (trsyl 2 2 T T C)) ∧ ∀ T C, (trsyl 2 2 T T C).1 = 1 := by
  have all : ∀ T C : Nat → Nat → Rat, ∃ Y : Nat → Nat → Rat,
      SchurFactor M T → mat 2 2 T * mat 2 2 Y + mat 2 2 Y * mat 2 2 T = mat 2 2 C := by
    intro T C
    by_cases h : SchurFactor M T
    · obtain ⟨_, U, hU, hT⟩ := h
      obtain ⟨X, hX⟩ := solve (U * mat 2 2 C * Uᵀ)
      obtain ⟨Y, hY⟩ := exists_mat (Uᵀ * X * U)
      refine ⟨Y, fun _ => ?_⟩
      have hU' : U * Uᵀ = 1 := mul_eq_one_comm.1 hU
      have e : mat 2 2 T = Uᵀ * M * U := by
        rw [← hT]
        calc mat 2 2 T = (Uᵀ * U) * mat 2 2 T * (Uᵀ * U) := by rw [hU, Matrix.one_mul, Matrix.mul_one]
          _ = _ := by simp only [Matrix.mul_assoc]
      rw [e, ← hY]
      calc Uᵀ * M * U * (Uᵀ * X * U) + Uᵀ * X * U * (Uᵀ * M * U)
          = Uᵀ * M * (U * Uᵀ) * X * U + Uᵀ * X * (U * Uᵀ) * M * U := by
            simp only [Matrix.mul_assoc]
        _ = Uᵀ * (M * X + X * M) * U := by
            rw [hU', Matrix.mul_one, Matrix.mul_one, Matrix.mul_add, Matrix.add_mul]
            simp only [Matrix.mul_assoc]
        _ = (Uᵀ * U) * mat 2 2 C * (Uᵀ * U) := by rw [hX]; simp only [Matrix.mul_assoc]
        _ = _ := by rw [hU, Matrix.one_mul, Matrix.mul_one]
    · exact ⟨0, fun h' => absurd h' h⟩
  choose Y hY using all
  refine ⟨fun _ f => (f, fun i j => if i = j then 1 else 0), fun _ _ T _ C => (1, Y T C), fun f hf => ?_, fun T C h _ _ => ?_,
    fun _ _ => rfl⟩
  · have hI : mat 2 2 (fun i j => if i = j then (1 : Rat) else 0) = 1 := by
      funext i j; fin_cases i <;> fin_cases j <;> rfl
    refine ⟨?_, ⟨fun i j hi hj => by omega, fun i hi => by omega⟩, ?_⟩
    · show (mat 2 2 _)ᵀ * mat 2 2 _ = 1
      rw [hI, transpose_one, Matrix.one_mul]
    · show mat 2 2 _ * _ * (mat 2 2 _)ᵀ = _
      rw [hI, transpose_one, Matrix.one_mul, Matrix.mul_one]
  · exact ⟨by rw [one_smul]; exact hY T C h, by norm_num, by norm_num⟩

/-- The hypotheses of `C108_refuted` can be met. -/
example : ∃ (gees : GeesFn Rat) (trsyl : TrsylFn Rat), (∀ f, mat 2 2 f = !![1, 1; 0, 1] → IsSchur 2 f (gees 2 f)) ∧
    (∀ T C, SchurFactor (!![1, 1; 0, 1] : Matrix (Fin 2) (Fin 2) Rat) T → IsTrsyl 2 2 T T C (trsyl 2 2 T T C)) ∧
    ∀ T C, (trsyl 2 2 T T C).1 = 1 :=
  lapack_exists _ fun K => ⟨!![(K 0 0 - K 1 0 / 2) / 2, (K 0 1 - (K 0 0 - K 1 0 / 2) / 2 - (K 1 1 - K 1 0 / 2) / 2) / 2;
      K 1 0 / 2, (K 1 1 - K 1 0 / 2) / 2], by
    funext i j
    fin_cases i <;> fin_cases j <;> simp <;> ring⟩

/-- The hypotheses of `C108_symmetric_partial` can be met: diag(1, 2). -/
example : ∃ (gees : GeesFn Rat) (trsyl : TrsylFn Rat), (∀ f, mat 2 2 f = !![1, 0; 0, 2] → IsSchur 2 f (gees 2 f)) ∧
    (∀ T C, SchurFactor (!![1, 0; 0, 2] : Matrix (Fin 2) (Fin 2) Rat) T → IsTrsyl 2 2 T T C (trsyl 2 2 T T C)) ∧
    ∀ T C, (trsyl 2 2 T T C).1 = 1 :=
  lapack_exists _ fun K => ⟨!![K 0 0 / 2, K 0 1 / 3; K 1 0 / 3, K 1 1 / 4], by
    funext i j
    fin_cases i <;> fin_cases j <;> simp <;> ring⟩

/-- The diagonal matrix diag(1, 2), with the Sylvester solver for
diagonal matrices. -/
example : ∃ X, lyapunov (fun _ f => (f, fun i j => if i = j then 1 else 0))
    (fun _ _ T S C => (1, fun i j => C i j / (T i i + S j j))) (fun _ => 0)
    (⟨[1, 0, 0, 2], 0, [2, 2], [2, 1]⟩ : Strided Rat) ⟨[2, 3, 3, 8], 0, [2, 2], [2, 1]⟩ = .ok X ∧ X.data = [1, 1, 1, 2] :=
  ⟨_, rfl, by decide +kernel⟩

end Einsums.Props
