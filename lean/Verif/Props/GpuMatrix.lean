import Verif.Proofs.GpuMatrix
import Verif.Props.Spectral
import Verif.Props.Gesv
/-
C137: `symm_gemm`, `syev` and `pow` of matrices on the device.
C138: `gemm`, `gemv`, `ger` and `gesv` of matrices on the device.
-/
namespace Einsums.Props
open Spec Model Matrix

/-! ### C137 -/

/-- **C137 (symm_gemm, partial).** `symm_gemm<TransA, TransB>(A, B, &C)` on the device stores `op(B)ᵀ op(A) op(B)` in C, whatever the
old contents of C and whatever the interleavings of the two kernels, for an n×n matrix A, a matrix op(B) of n rows and p columns and
a p×p matrix C with contiguous rows.  Missing: n²p² ≥ 2^31 (`C137_overflow_refuted`) and rectangular B in a debug build
(`C137_assert_refuted`). -/
theorem C137_symm_gemm_partial {R : Type} [CommRing R] (ndebug ta tb : Bool) (n p : Nat) (A B C : Strided R) (a b : Nat → Nat → R)
    (lda ldb ldc : Nat) (hA : Holds A (mat n n a)) (hB : Holds B (mat (if tb then p else n) (if tb then n else p) b))
    (sA : A.strides = [lda, 1]) (sB : B.strides = [ldb, 1]) (sC : C.strides = [ldc, 1]) (wC : C.WF) (dC : C.dims = [p, p])
    (hldc : p ≤ ldc) (hp : p ≠ 0) (h : ndebug = true ∨ p = n) (ho : n * n * p * p < 2 ^ 31) (r : Nat → R)
    (s0 : List (Nat × RmwOp)) (s1 : List Nat) (h0 : Schedule (setAllThreads C) s0) (h1 : Schedule (symmThreads A C) s1) :
    ∃ C', deviceSymmGemm ndebug ta tb A B C r s0 s1 = .ok C' ∧ C.Frame C' ∧
      Holds C' ((opMat tb n p b)ᵀ * opMat ta n n a * opMat tb n p b) :=
  deviceSymmGemm_ok hA hB sA sB wC dC sC hldc hp h ho r h0 h1

/-- **C137 (symm_gemm, refuted for large matrices).** As soon as n²p² ≥ 2^31 — for square matrices from 216×216 on — the number
of terms overflows the `int` in which it is computed. -/
theorem C137_overflow_refuted {R : Type} [CommRing R] (ndebug ta tb : Bool) (n p : Nat) (A B C : Strided R) (ldc : Nat)
    (dA : A.dims = [n, n]) (wC : C.WF) (dC : C.dims = [p, p]) (sC : C.strides = [ldc, 1]) (hldc : p ≤ ldc) (hp : p ≠ 0)
    (ho : 2 ^ 31 ≤ n * n * p * p) (r : Nat → R) (s0 : List (Nat × RmwOp)) (s1 : List Nat) (h0 : Schedule (setAllThreads C) s0) :
    (deviceSymmGemm ndebug ta tb A B C r s0 s1).isUb = true := by
  unfold deviceSymmGemm
  split
  · rfl
  · obtain ⟨D, e1, f1, _⟩ := C129_set_all_partial (0 : R) C wC (by rw [dC]; simp [numel]; omega)
      (by rw [dC, sC]; simp [numel, linearSize, Nat.mul_comm ldc]; exact Nat.mul_le_mul (Nat.le_refl _) hldc) r s0 h0
    have d0 : D.dim 0 = p := by simp [Strided.dim, f1.dims, dC]
    have a0 : A.dim 0 = n := by simp [Strided.dim, dA]
    have : symmOverflow n p = true := by
      unfold symmOverflow
      exact decide_eq_true (Or.inr (Or.inr ho))
    rw [e1]
    simp only [Outcome.ok_bind, d0, a0, this, if_true]
    rfl

/-- Concrete cases: `BᵀAB` and `B Aᵀ Bᵀ` for a rectangular B without asserts, with the workers one after the other. -/
example : deviceSymmGemm true false false (⟨[1, 2, 3, 4], 0, [2, 2], [2, 1]⟩ : Strided Int)
    ⟨[1, 0, 2, 0, 1, 1], 0, [2, 3], [3, 1]⟩ ⟨List.replicate 9 7, 0, [3, 3], [3, 1]⟩ (fun _ => 0)
    ((List.range 9).map fun c => (c, .store)) (List.range 36) = .ok ⟨[1, 2, 4, 3, 4, 10, 5, 8, 18], 0, [3, 3], [3, 1]⟩ := by
  decide +kernel
example : deviceSymmGemm true true true (⟨[1, 2, 3, 4], 0, [2, 2], [2, 1]⟩ : Strided Int)
    ⟨[1, 0, 0, 1, 2, 1], 0, [3, 2], [2, 1]⟩ ⟨List.replicate 9 7, 0, [3, 3], [3, 1]⟩ (fun _ => 0)
    ((List.range 9).map fun c => (c, .store)) (List.range 36).reverse = .ok ⟨[1, 3, 5, 2, 4, 8, 4, 10, 18], 0, [3, 3], [3, 1]⟩ := by
  decide +kernel
example := C137_symm_gemm_partial true true true 2 3 (⟨[1, 2, 3, 4], 0, [2, 2], [2, 1]⟩ : Strided ℚ)
  ⟨[1, 0, 0, 1, 2, 1], 0, [3, 2], [2, 1]⟩ ⟨List.replicate 12 7, 0, [3, 3], [4, 1]⟩ (rows [[1, 2], [3, 4]]) (rows [[1, 0], [0, 1], [2, 1]])
  2 2 4 (holds_rows _ rfl _ (by decide +kernel)) (holds_rows _ rfl _ (by decide +kernel)) rfl rfl rfl
  (by
    refine ⟨rfl, ?_, ?_⟩
    · intro idx hi
      have : ∀ idx ∈ box [3, 3], 0 + dot idx [4, 1] < (List.replicate 12 (7 : ℚ)).length := by decide
      exact this idx (mem_box.2 hi)
    · intro i j hi hj
      have : ∀ i ∈ box [3, 3], ∀ j ∈ box [3, 3], dot i [4, 1] = dot j [4, 1] → i = j := by decide
      exact this i (mem_box.2 hi) j (mem_box.2 hj))
  rfl (by decide) (by decide) (.inl rfl) (by decide +kernel) (fun _ => 0) _ _ (Schedule.sequential _) (Schedule.sequential _)

/-- The bound is 215 for square matrices. -/
example : 215 * 215 * 215 * 215 < 2 ^ 31 ∧ 2 ^ 31 ≤ 216 * 216 * 216 * 216 := by decide +kernel

/-- **C137 (symm_gemm, refuted for rectangular B).** With asserts, the product is rejected although the shapes fit. -/
theorem C137_assert_refuted {R : Type} [CommRing R] (ta tb : Bool) (n p : Nat) (A B C : Strided R) (dA : A.dims = [n, n])
    (dB : B.dims = [if tb then p else n, if tb then n else p]) (h : p ≠ n) (r : Nat → R) (s0 : List (Nat × RmwOp)) (s1 : List Nat) :
    (deviceSymmGemm false ta tb A B C r s0 s1).isUb = true := by
  have e : symmGemmAssert ta tb A B C = false := by
    cases ta <;> cases tb <;> simp [symmGemmAssert, Strided.dim, dA, dB, h]
  unfold deviceSymmGemm
  rw [if_pos ⟨rfl, e⟩]
  rfl

/-- **C137 (syev, partial).** `syev` on the device stores the ascending eigenvalues of a symmetric matrix in W and orthonormal
eigenvectors in the rows of A. -/
theorem C137_syev_partial {R : Type} [CommRing R] [LinearOrder R] (syev : SyevFn R) (n ld : Nat) (A W : Strided R)
    (M : Matrix (Fin n) (Fin n) R) (sA : A.strides = [ld, 1]) (hl : n ≤ ld) (hn : n ≠ 0) (hA : Holds A M) (hM : M.IsSymm)
    (wW : W.WF) (dW : W.dims = [n]) (sW : W.strides = [1]) (lapack : ∀ f, mat n n f = M → IsSyev n f (syev true n f)) :
    ∃ A' W', ∃ (V : Matrix (Fin n) (Fin n) R) (w : Fin n → R), deviceSyev syev true A W = .ok (A', W') ∧ A.Frame A' ∧ W.Frame W' ∧
      Holds A' Vᵀ ∧ HoldsVec W' w ∧ Vᵀ * V = 1 ∧ M * V = V * diagonal w ∧ ∀ i j, i ≤ j → w i ≤ w j := by
  obtain ⟨a, rfl⟩ := exists_mat M
  obtain ⟨A', W', e1, e2, e3, e4, e5⟩ := syevT_ok (syev := syev) (vectors := true) sA hl hn hA wW dW sW
  have L := lapack (crop n n fun i j => a j i) ((mat_crop _ _ _).trans hM.eq)
  have he := L.eigen
  rw [mat_upper_lower, fromLower_symm hM] at he
  refine ⟨A', W', mat n n (syev true n (crop n n fun i j => a j i)).2, fun i => (syev true n (crop n n fun i j => a j i)).1 i,
    (deviceSyev_eq hA.dims hn).trans e1, e3, e5, e2, e4, L.orthonormal, he, fun i j h => L.ascending i j h j.2⟩

/-- **C137 (syev, refuted for the empty matrix).** The empty matrix is rejected. -/
theorem C137_empty_refuted {R : Type} [Zero R] (syev : SyevFn R) (vectors : Bool) (A W : Strided R) (wA : A.IsTensor)
    (dA : A.dims = [0, 0]) : (deviceSyev syev vectors A W).isError = true := by
  have d0 : A.dim 0 = 0 := by simp [Strided.dim, dA]
  have s0 : A.stride 0 = 0 := by simp [Strided.stride, tensor_strides2 wA dA]
  unfold deviceSyev vendorSyev
  rw [d0, s0, if_pos (by decide)]
  rfl

section
variable {R : Type} [CommRing R] [LinearOrder R] [NoZeroDivisors R]

/-- **C137 (pow, partial).** `pow(A, alpha, cutoff)` of a symmetric n×n device tensor, n ≥ 1: an eigenvector of A to the
eigenvalue x is an eigenvector of the result to the eigenvalue `x^alpha`, whatever the interleavings of the kernels.  Missing: the
cutoff (`C137_cutoff_refuted`), n⁴ ≥ 2^31 (`C137_pow_overflow_refuted`), and values `x^alpha` that are not finite. -/
theorem C137_pow_partial (ndebug : Bool) (syev : SyevFn R) (rpow : R → R → R) (z : Nat → R) (n : Nat) (A : Strided R) (alpha cutoff : R)
    (M : Matrix (Fin n) (Fin n) R) (wA : A.IsTensor) (hA : Holds A M) (hM : M.IsSymm) (hn : n ≠ 0) (ho : n * n * n * n < 2 ^ 31)
    (lapack : ∀ f, mat n n f = M → IsSyev n f (syev true n f)) (r : Nat → R) (sCopy sZero sDiag s0 : List (Nat × RmwOp))
    (s1 : List Nat) (hCopy : Schedule (assignThreads (Strided.mk' z A.dims) A) sCopy)
    (hZero : Schedule (setAllThreads (Strided.mk' z A.dims)) sZero) (hDiag : Schedule (eigDiagThreads n) sDiag)
    (h0 : Schedule (setAllThreads (Strided.mk' z A.dims)) s0) (h1 : Schedule (symmThreads A (Strided.mk' z A.dims)) s1) :
    ∃ P, ∃ N : Matrix (Fin n) (Fin n) R, devicePow ndebug syev rpow z A alpha cutoff r sCopy sZero sDiag s0 s1 = .ok P ∧
      P.IsTensor ∧ Holds P N ∧ ∀ v x, M *ᵥ v = x • v → N *ᵥ v = rpow x alpha • v := by
  obtain ⟨a, rfl⟩ := exists_mat M
  obtain ⟨P, e1, e2, e3⟩ := devicePow_ok (ndebug := ndebug) (syev := syev) (rpow := rpow) (z := z) (alpha := alpha) (cutoff := cutoff)
    wA hn ho hA r hCopy hZero hDiag h0 h1
  have L := lapack (crop n n fun i j => a j i) ((mat_crop _ _ _).trans hM.eq)
  have he := L.eigen
  rw [mat_upper_lower, fromLower_symm hM] at he
  exact ⟨P, _, e1, e2, e3, fun v x hv => diag_apply L.orthonormal he (fun x => rpow x alpha) hv⟩

omit [NoZeroDivisors R] in
/-- **C137 (pow, natural exponents).** If `pow(x, alpha)` is `x^p`, the result is the p-th power of A. -/
theorem C137_power_partial (ndebug : Bool) (syev : SyevFn R) (rpow : R → R → R) (z : Nat → R) (n p : Nat) (A : Strided R)
    (alpha cutoff : R) (hp : ∀ x, rpow x alpha = x ^ p)
    (M : Matrix (Fin n) (Fin n) R) (wA : A.IsTensor) (hA : Holds A M) (hM : M.IsSymm) (hn : n ≠ 0) (ho : n * n * n * n < 2 ^ 31)
    (lapack : ∀ f, mat n n f = M → IsSyev n f (syev true n f)) (r : Nat → R) (sCopy sZero sDiag s0 : List (Nat × RmwOp))
    (s1 : List Nat) (hCopy : Schedule (assignThreads (Strided.mk' z A.dims) A) sCopy)
    (hZero : Schedule (setAllThreads (Strided.mk' z A.dims)) sZero) (hDiag : Schedule (eigDiagThreads n) sDiag)
    (h0 : Schedule (setAllThreads (Strided.mk' z A.dims)) s0) (h1 : Schedule (symmThreads A (Strided.mk' z A.dims)) s1) :
    ∃ P, devicePow ndebug syev rpow z A alpha cutoff r sCopy sZero sDiag s0 s1 = .ok P ∧ Holds P (M ^ p) := by
  obtain ⟨a, rfl⟩ := exists_mat M
  obtain ⟨P, e1, e2, e3⟩ := devicePow_ok (ndebug := ndebug) (syev := syev) (rpow := rpow) (z := z) (alpha := alpha) (cutoff := cutoff)
    wA hn ho hA r hCopy hZero hDiag h0 h1
  have L := lapack (crop n n fun i j => a j i) ((mat_crop _ _ _).trans hM.eq)
  have he := L.eigen
  rw [mat_upper_lower, fromLower_symm hM] at he
  refine ⟨P, e1, ?_⟩
  rw [diag_pow L.orthonormal he]
  simpa [hp] using e3

/-- **C137 (pow, refuted for the cutoff).** alpha negative, x an eigenvalue of magnitude below `cutoff` times the largest one:
`cutPow`, the function of `pow` on the host, maps it to 0; on the device the result has the eigenvalue `x^alpha`. -/
theorem C137_cutoff_refuted (ndebug : Bool) (syev : SyevFn R) (rpow : R → R → R) (z : Nat → R) (n : Nat) (A : Strided R) (alpha cutoff : R)
    (M : Matrix (Fin n) (Fin n) R) (wA : A.IsTensor) (hA : Holds A M) (hM : M.IsSymm) (hn : n ≠ 0) (ho : n * n * n * n < 2 ^ 31)
    (lapack : ∀ f, mat n n f = M → IsSyev n f (syev true n f)) (r : Nat → R) (sCopy sZero sDiag s0 : List (Nat × RmwOp))
    (s1 : List Nat) (hCopy : Schedule (assignThreads (Strided.mk' z A.dims) A) sCopy)
    (hZero : Schedule (setAllThreads (Strided.mk' z A.dims)) sZero) (hDiag : Schedule (eigDiagThreads n) sDiag)
    (h0 : Schedule (setAllThreads (Strided.mk' z A.dims)) s0) (h1 : Schedule (symmThreads A (Strided.mk' z A.dims)) s1)
    (radius x : R) (v : Fin n → R) (hv : M *ᵥ v = x • v) (ha : alpha < 0) (hx : |x| < cutoff * radius) (hne : rpow x alpha • v ≠ 0) :
    ∃ P, ∃ N : Matrix (Fin n) (Fin n) R, devicePow ndebug syev rpow z A alpha cutoff r sCopy sZero sDiag s0 s1 = .ok P ∧
      Holds P N ∧ N *ᵥ v ≠ cutPow (fun x a => some (rpow x a)) alpha cutoff radius x • v := by
  obtain ⟨P, N, e1, _, e3, e4⟩ := C137_pow_partial ndebug syev rpow z n A alpha cutoff M wA hA hM hn ho lapack r sCopy sZero sDiag s0 s1
    hCopy hZero hDiag h0 h1
  refine ⟨P, N, e1, e3, ?_⟩
  rw [e4 v x hv, cutPow, if_pos ⟨ha, hx⟩, zero_smul]
  exact hne

omit [LinearOrder R] [NoZeroDivisors R] in
/-- **C137 (pow, refuted for large matrices).** The square of a 216×216 matrix, or any other power, is undefined behaviour. -/
theorem C137_pow_overflow_refuted (ndebug : Bool) (syev : SyevFn R) (rpow : R → R → R) (z : Nat → R) (n : Nat) (A : Strided R)
    (alpha cutoff : R) (wA : A.IsTensor) (dA : A.dims = [n, n]) (ho : 2 ^ 31 ≤ n * n * n * n)
    (r : Nat → R) (sCopy sZero sDiag s0 : List (Nat × RmwOp))
    (s1 : List Nat) (hCopy : Schedule (assignThreads (Strided.mk' z A.dims) A) sCopy)
    (hZero : Schedule (setAllThreads (Strided.mk' z A.dims)) sZero) (hDiag : Schedule (eigDiagThreads n) sDiag)
    (h0 : Schedule (setAllThreads (Strided.mk' z A.dims)) s0) :
    (devicePow ndebug syev rpow z A alpha cutoff r sCopy sZero sDiag s0 s1).isUb = true := by
  have hn : n ≠ 0 := by
    rintro rfl
    revert ho; decide
  obtain ⟨a, hA⟩ := holds_of_wf wA.wf dA
  obtain ⟨D, V, h, _, _, hD, _⟩ := devicePow_steps (ndebug := ndebug) (syev := syev) (rpow := rpow) (z := z) (alpha := alpha)
    (cutoff := cutoff) wA hn hA r s0 s1 hCopy hZero hDiag
  rw [h]
  obtain ⟨wF, sF, dF⟩ := fresh_matrix z n n
  rw [dA] at h0
  exact C137_overflow_refuted _ _ _ n n _ _ _ n hD.dims wF.wf dF sF (Nat.le_refl _) hn ho r s0 s1 h0

end

/-- Concrete cases: eigenvectors and powers of the example of C106. -/
example := C137_syev_partial (fun _ _ _ => eigOut) 2 2 eigA ⟨[0, 0], 0, [2], [1]⟩ _ rfl (Nat.le_refl _) (by decide) eigA_holds
  (by funext i j; fin_cases i <;> fin_cases j <;> rfl) (Model.Strided.IsTensor.wf ⟨rfl, rfl, rfl⟩) rfl rfl eigOut_isSyev
example := C137_pow_partial false (fun _ _ _ => eigOut) (fun x _ => x⁻¹) (fun _ => 7) 2 eigA (-1) (1 / 2) _ ⟨rfl, rfl, rfl⟩ eigA_holds
  (by funext i j; fin_cases i <;> fin_cases j <;> rfl) (by decide) (by decide) eigOut_isSyev (fun _ => 0) _ _ _ _ _
  (Schedule.sequential _) (Schedule.sequential _) (Schedule.sequential _) (Schedule.sequential _) (Schedule.sequential _)
example := C137_power_partial false (fun _ _ _ => eigOut) (fun x _ => x ^ 2) (fun _ => 7) 2 2 eigA 2 (1 / 2) (fun _ => rfl) _
  ⟨rfl, rfl, rfl⟩ eigA_holds (by funext i j; fin_cases i <;> fin_cases j <;> rfl) (by decide) (by decide) eigOut_isSyev (fun _ => 0)
  _ _ _ _ _ (Schedule.sequential _) (Schedule.sequential _) (Schedule.sequential _) (Schedule.sequential _) (Schedule.sequential _)

example := C137_cutoff_refuted false (fun _ _ _ => eigOut) (fun _ _ => 1) (fun _ => 7) 2 eigA (-1) (1 / 2) _ ⟨rfl, rfl, rfl⟩ eigA_holds
  (by funext i j; fin_cases i <;> fin_cases j <;> rfl) (by decide) (by decide) eigOut_isSyev (fun _ => 0) _ _ _ _ _
  (Schedule.sequential _) (Schedule.sequential _) (Schedule.sequential _) (Schedule.sequential _) (Schedule.sequential _)
  25 0 ![3, 4] (by funext i; fin_cases i <;> decide +kernel) (by decide +kernel) (by decide +kernel)
  (fun h => by have := congrFun h 0; revert this; decide +kernel)

/-! ### C138 -/

/-- **C138 (gemm, partial).** `gemm<TransA, TransB>(alpha, A, B, beta, &C)` on the device: `C := alpha op(A) op(B) + beta C`, also when
the inner dimension is 0.  Missing: tensors without columns, whose leading dimension 0 BLAS rejects (`C138_empty_refuted`). -/
theorem C138_gemm_partial {R : Type} [CommSemiring R] [BEq R] [LawfulBEq R] (ta tb : Bool) (m n k : Nat)
    (alpha beta : R) (A B C : Strided R) (lda ldb ldc : Nat) (fA fB fC : List Nat → R)
    (dA : A.dims = opDims ta m k) (dB : B.dims = opDims tb k n) (dC : C.dims = [m, n])
    (sA : A.strides = [lda, 1]) (sB : B.strides = [ldb, 1]) (sC : C.strides = [ldc, 1])
    (hlda : max 1 (if ta then m else k) ≤ lda) (hldb : max 1 (if tb then k else n) ≤ ldb) (hldc : max 1 n ≤ ldc)
    (hA : A.Represents fA) (hB : B.Represents fB) (w : C.WF) (hC : C.Represents fC) :
    ∃ C', deviceGemm ta tb alpha A B beta C = .ok C' ∧ C.Frame C' ∧
      ∀ i j, i < m → j < n → C'.read [(i : Int), (j : Int)] = .ok (beta * fC [i, j] +
        alpha * sumTo k fun l => opElem ta fA i l * opElem tb fB l j) := by
  have hdim0 : C.dim 0 = m := by simp [Strided.dim, dC]
  have hdim1 : C.dim 1 = n := by simp [Strided.dim, dC]
  have hkk : (if ta = true then A.dim 0 else A.dim 1) = k := by
    cases ta <;> simp [Strided.dim, dA, opDims]
  have hs : A.stride 0 = lda ∧ B.stride 0 = ldb ∧ C.stride 0 = ldc := by
    simp [Strided.stride, sA, sB, sC]
  unfold deviceGemm
  simp only [hdim0, hdim1, hkk, hs.1, hs.2.1, hs.2.2]
  obtain ⟨c', h1, h2, h3, h4⟩ := fortranGemm_mem (ta := ta) (tb := tb) (m := m) (n := n) (k := k)
    (alpha := alpha) (beta := beta) (a := A.data) (aoff := A.off) (lda := lda) (b := B.data)
    (boff := B.off) (ldb := ldb) (c := C.data) (coff := C.off) (ldc := ldc)
    (fun i l => opElem ta fA i l) (fun l j => opElem tb fB l j) hlda hldb hldc
    (by
      intro i l hi hl
      cases ta
      · have := represents_get hA (j := [i, l]) (by rw [dA]; exact inBox2.2 ⟨hi, hl⟩)
        simpa [sA, dot, opElem] using this
      · have := represents_get hA (j := [l, i]) (by rw [dA]; exact inBox2.2 ⟨hl, hi⟩)
        simpa [sA, dot, opElem] using this)
    (by
      intro l j hl hj
      cases tb
      · have := represents_get hB (j := [l, j]) (by rw [dB]; exact inBox2.2 ⟨hl, hj⟩)
        simpa [sB, dot, opElem] using this
      · have := represents_get hB (j := [j, l]) (by rw [dB]; exact inBox2.2 ⟨hj, hl⟩)
        simpa [sB, dot, opElem] using this)
    (by
      intro i j hi hj
      have := w.bound [i, j] (by rw [dC]; exact inBox2.2 ⟨hi, hj⟩)
      simpa [sC, dot, Nat.add_assoc] using this)
  rw [h1]
  obtain ⟨fr, r⟩ := frame_of_mem w h2 (f' := fun ij => beta * fC ij + alpha * sumTo k fun l =>
      opElem ta fA (ij.getD 0 0) l * opElem tb fB l (ij.getD 1 0))
    (by
      intro ij hij
      rw [dC] at hij
      obtain ⟨i, j, rfl, hi, hj⟩ := inBox2_cases hij
      have e := h3 i j hi hj
      have e2 := represents_get hC (j := [i, j]) (by rw [dC]; exact hij)
      have ea : C.off + dot [i, j] C.strides = C.off + i * ldc + j := by simp [sC, dot, Nat.add_assoc]
      rw [ea] at e2 ⊢
      rw [e, e2]
      simp only [Option.map_some, blasValue_eq, accum_eq]
      congr 3
      congr 1
      funext l
      simp [mul_comm])
    (by
      intro p hp
      apply h4
      intro i j hi hj e
      apply hp [i, j] (by rw [dC]; exact inBox2.2 ⟨hi, hj⟩)
      simp [sC, dot, e, Nat.add_assoc])
  refine ⟨_, rfl, fr, ?_⟩
  intro i j hi hj
  exact r [i, j] (by simp only [dC]; exact inBox2.2 ⟨hi, hj⟩)

/-- **C138 (gemm, refuted for matrices without elements).** The product of tensors without columns and without rows is rejected
by BLAS, because the leading dimension that the library passes for A is 0. -/
theorem C138_empty_refuted {R : Type} [CommSemiring R] [BEq R] (m : Nat) (alpha beta : R) (A B C : Strided R) (wA : A.IsTensor)
    (dA : A.dims = [m, 0]) : (deviceGemm false false alpha A B beta C).isError = true := by
  have d1 : A.dim 1 = 0 := by simp [Strided.dim, dA]
  have s0 : A.stride 0 = 0 := by simp [Strided.stride, tensor_strides2 wA dA]
  unfold deviceGemm fortranGemm
  simp only [d1, s0, Bool.false_eq_true, if_false]
  rw [if_pos (by right; left; decide)]
  rfl

/-- **C138 (gemv, partial).** `gemv<TransA>(alpha, A, x, beta, &y)` on the device: `y := alpha op(A) x + beta y`.  Missing: matrices
without elements (as on the host, C26). -/
theorem C138_gemv_partial {R : Type} [CommSemiring R] [BEq R] [LawfulBEq R] (trans : Bool) (m n : Nat)
    (alpha beta : R) (A x y : Strided R) (lda incx incy : Nat) (fA fx fy : List Nat → R)
    (dA : A.dims = [m, n]) (dx : x.dims = [if trans then m else n]) (dy : y.dims = [if trans then n else m])
    (sA : A.strides = [lda, 1]) (sx : x.strides = [incx]) (sy : y.strides = [incy])
    (hlda : n ≤ lda) (hx0 : incx ≠ 0) (hy0 : incy ≠ 0)
    (hA : A.Represents fA) (hx : x.Represents fx) (w : y.WF) (hy : y.Represents fy) (hm : m ≠ 0) (hn : n ≠ 0) :
    ∃ y', deviceGemv trans alpha A x beta y = .ok y' ∧ y.Frame y' ∧
      ∀ i, i < (if trans then n else m) → y'.read [(i : Int)] = .ok (beta * fy [i] +
        alpha * sumTo (if trans then m else n) fun l => opElem trans fA i l * fx [l]) := by
  have e : deviceGemv trans alpha A x beta y = gemv trans alpha A x beta y := by
    unfold deviceGemv gemv vendorGemv
    congr 1
    simp only [or_comm]
  rw [e]
  exact C26_gemv_partial trans m n alpha beta A x y lda incx incy fA fx fy dA dx dy sA sx sy hlda hx0 hy0 hA hx w hy hm hn

/-- **C138 (ger, what happens).** `ger(alpha, x, y, &A)` on the device, for a matrix A without gaps in memory: in every execution of
the two sorts `alpha x_i conj(y_j)` is added to every element, where conj is the identity for real numbers and the complex
conjugation for complex numbers. -/
theorem C138_ger_cells {R : Type} [CommRing R] [BEq R] (conj : R → R) (z : Nat → R) (m n incx incy : Nat) (alpha : R) (x y A : Strided R)
    (fA : Nat → Nat → R) (fx fy : Nat → R) (hm : m ≠ 0) (hn : m * n < 2 ^ 31) (tA : A.RowMajor) (hA : Holds A (mat m n fA))
    (hx : HoldsVec x fun i : Fin m => fx i) (hy : HoldsVec y fun i : Fin n => fy i) (sx : x.strides = [incx]) (sy : y.strides = [incy])
    (hx0 : incx ≠ 0) (hy0 : incy ≠ 0) (r : Nat → R) (s1 s2 : List (Nat × Nat × RmwOp)) (h1 : Schedule (sortThreads A) s1)
    (h2 : Schedule (sortThreads (Strided.mk' z [n, m])) s2) :
    ∃ A', deviceGer conj z alpha x y A r s1 s2 = .ok A' ∧ A.Frame A' ∧
      Holds A' (mat m n fun i j => fA i j + alpha * fx i * conj (fy j)) :=
  deviceGer_ok hm hn tA hA hx hy sx sy hx0 hy0 r h1 h2

/-- **C138 (ger, partial).** For real numbers: `A := A + alpha x yᵀ`.  Missing: complex numbers (`C138_ger_refuted`) and views with
gaps (`C138_ger_view_refuted`). -/
theorem C138_ger_partial {R : Type} [CommRing R] [BEq R] (z : Nat → R) (m n incx incy : Nat) (alpha : R) (x y A : Strided R)
    (M : Matrix (Fin m) (Fin n) R) (v : Fin m → R) (u : Fin n → R) (hm : m ≠ 0) (hn : m * n < 2 ^ 31) (tA : A.RowMajor)
    (hA : Holds A M) (hx : HoldsVec x v) (hy : HoldsVec y u) (sx : x.strides = [incx]) (sy : y.strides = [incy])
    (hx0 : incx ≠ 0) (hy0 : incy ≠ 0) (r : Nat → R) (s1 s2 : List (Nat × Nat × RmwOp)) (h1 : Schedule (sortThreads A) s1)
    (h2 : Schedule (sortThreads (Strided.mk' z [n, m])) s2) :
    ∃ A', deviceGer (fun t => t) z alpha x y A r s1 s2 = .ok A' ∧ A.Frame A' ∧ Holds A' (M + alpha • Matrix.vecMulVec v u) := by
  obtain ⟨a, rfl⟩ := exists_mat M
  have hx' : HoldsVec x fun i : Fin m => (fun l => if h : l < m then v ⟨l, h⟩ else 0) i := by simpa using hx
  have hy' : HoldsVec y fun i : Fin n => (fun l => if h : l < n then u ⟨l, h⟩ else 0) i := by simpa using hy
  obtain ⟨A', e1, e2, e3⟩ := C138_ger_cells (fun t => t) z m n incx incy alpha x y A a (fun l => if h : l < m then v ⟨l, h⟩ else 0)
    (fun l => if h : l < n then u ⟨l, h⟩ else 0) hm hn tA hA hx' hy' sx sy hx0 hy0 r s1 s2 h1 h2
  refine ⟨A', e1, e2, ?_⟩
  convert e3 using 1
  funext i j
  simp [mat, Matrix.vecMulVec, mul_assoc]

/-- **C138 (ger, refuted for complex numbers).** Whenever `conj y ≠ y`, already the update of the 1×1 matrix 0 by x = 1 and y does not
give y. -/
theorem C138_ger_refuted {R : Type} [CommRing R] [BEq R] (conj : R → R) (z : Nat → R) (y : R) (h : conj y ≠ y) (r : Nat → R)
    (s1 s2 : List (Nat × Nat × RmwOp)) (h1 : Schedule (sortThreads (⟨[0], 0, [1, 1], [1, 1]⟩ : Strided R)) s1)
    (h2 : Schedule (sortThreads (Strided.mk' z [1, 1])) s2) :
    ∃ A' v, deviceGer conj z 1 ⟨[1], 0, [1], [1]⟩ ⟨[y], 0, [1], [1]⟩ ⟨[0], 0, [1, 1], [1, 1]⟩ r s1 s2 = .ok A' ∧
      A'.read [0, 0] = .ok v ∧ v ≠ y := by
  obtain ⟨A', e1, _, e3⟩ := C138_ger_cells conj z 1 1 1 1 1 ⟨[1], 0, [1], [1]⟩ ⟨[y], 0, [1], [1]⟩ ⟨[0], 0, [1, 1], [1, 1]⟩
    (fun _ _ => 0) (fun _ => 1) (fun _ => y) (by decide) (by decide) ⟨rfl, Nat.le_refl _⟩
    ⟨rfl, fun i j => by fin_cases i; fin_cases j; rfl⟩ ⟨rfl, fun i => by fin_cases i; rfl⟩ ⟨rfl, fun i => by fin_cases i; rfl⟩
    rfl rfl (by decide) (by decide) r s1 s2 h1 h2
  refine ⟨A', _, e1, e3.elems 0 0, ?_⟩
  simpa [mat] using h

/-- **C138 (ger, refuted for views with gaps).** If the rows of A are longer in memory than in the view, `ger` writes outside the
memory of its temporary. -/
theorem C138_ger_view_refuted {R : Type} [CommRing R] [BEq R] (conj : R → R) (z : Nat → R) (m n s : Nat) (hm : 2 ≤ m) (h0 : 0 < n)
    (hs : n < s) (alpha : R) (x y A : Strided R) (dA : A.dims = [m, n]) (sA : A.strides = [s, 1]) (hn : m * n < 2 ^ 31) (r : Nat → R)
    (s1 s2 : List (Nat × Nat × RmwOp)) (h1 : Schedule (sortThreads A) s1) : (deviceGer conj z alpha x y A r s1 s2).isUb = true := by
  obtain ⟨wF, sF, dF⟩ := fresh_matrix z n m
  have a0 : A.dim 0 = m ∧ A.dim 1 = n := by simp [Strided.dim, dA]
  have := C135_view_refuted "j" "i" (by decide) m n s hm h0 hs A (Strided.mk' z [n, m]) dA sA wF dF hn 0 1 r s1 h1
  unfold deviceGer
  rw [a0.1, a0.2]
  cases e : deviceSort 0 ["i", "j"] (Strided.mk' z [n, m]) 1 ["j", "i"] A r s1 with
  | ok _ => rw [e] at this; cases this
  | error _ => rw [e] at this; cases this
  | ub _ => rfl

/-- **C138 (gesv, partial).** `gesv(&A, &B)` on AMD hardware returns 0 exactly if A is regular, and then leaves X with `X A = B` in
B.  Matrices with contiguous rows, also views.  Missing: the usual reading `A X = B` (as C126), NVIDIA hardware
(`C138_gesv_nvidia_refuted`). -/
theorem C138_gesv_partial {R : Type} [Field R] [BEq R] (gesv : GesvRoutine R) (n k lda ldb : Nat) (hl : max 1 n ≤ lda)
    (hl' : max 1 n ≤ ldb) (A B : Strided R) (sA : A.strides = [lda, 1]) (sB : B.strides = [ldb, 1]) (a b : Nat → Nat → R)
    (hA : Holds A (mat n n a)) (hB : Holds B (mat k n b))
    (lapack : IsGesv n k (crop n n (tr a)) (crop n k (tr b)) (gesv n k (crop n n (tr a)) (crop n k (tr b)))) :
    ∃ info A' B', ∃ x : Nat → Nat → R, deviceGesv false gesv A B = .ok (info, A', B') ∧ (info = 0 ↔ (mat n n a).det ≠ 0) ∧
      A.Frame A' ∧ B.Frame B' ∧ Holds B' (mat k n x) ∧ ((mat n n a).det ≠ 0 → mat k n x * mat n n a = mat k n b) := by
  obtain ⟨A', B', e1, _, e3, e4, e5⟩ := deviceGesv_ok (nvidia := false) (gesv := gesv) hl hl' sA sB hA hB
  have hi := gesv_info lapack
  exact ⟨_, A', B', _, e1, hi, e4, e5, e3, fun hd => gesv_solution lapack (hi.2 hd)⟩

/-- **C138 (gesv, refuted on NVIDIA hardware).** The call reports success, and B is unchanged. -/
theorem C138_gesv_nvidia_refuted {R : Type} [Field R] [BEq R] (gesv : GesvRoutine R) (n k lda ldb : Nat) (hl : max 1 n ≤ lda)
    (hl' : max 1 n ≤ ldb) (A B : Strided R) (sA : A.strides = [lda, 1]) (sB : B.strides = [ldb, 1]) (a b : Nat → Nat → R)
    (hA : Holds A (mat n n a)) (hB : Holds B (mat k n b)) (hr : (mat n n a).det ≠ 0)
    (lapack : IsGesv n k (crop n n (tr a)) (crop n k (tr b)) (gesv n k (crop n n (tr a)) (crop n k (tr b)))) :
    ∃ A', deviceGesv true gesv A B = .ok (0, A', B) := by
  obtain ⟨A', B', e1, _, _, _, _⟩ := deviceGesv_ok (nvidia := true) (gesv := gesv) hl hl' sA sB hA hB
  have hi := (gesv_info lapack).2 hr
  exact ⟨A', by rw [e1]; exact congrArg Outcome.ok (Prod.ext hi rfl)⟩

/-- Concrete cases: a product with an empty inner dimension, whose result is `beta C` (C25: not so on the host), an update of a
2×3 matrix, and one system of equations on both kinds of hardware. -/
example : deviceGemm false false 1 (⟨[9, 9], 0, [2, 0], [1, 1]⟩ : Strided Int) ⟨[], 0, [0, 2], [2, 1]⟩ 3
    ⟨[1, 2, 3, 4], 0, [2, 2], [2, 1]⟩ = .ok ⟨[3, 6, 9, 12], 0, [2, 2], [2, 1]⟩ := by decide +kernel
example : deviceGemm true false 2 (⟨[1, 2, 3, 4], 0, [2, 2], [2, 1]⟩ : Strided Int) ⟨[1, 0, 1, 0, 1, 1], 0, [2, 3], [3, 1]⟩ 1
    ⟨[1, 1, 1, 1, 1, 1], 0, [2, 3], [3, 1]⟩ = .ok ⟨[3, 7, 9, 5, 9, 13], 0, [2, 3], [3, 1]⟩ := by decide +kernel
example : deviceGer (fun t => t) (fun _ => 7) 2 (⟨[1, 2], 0, [2], [1]⟩ : Strided Int) ⟨[1, 10, 100], 0, [3], [1]⟩
    ⟨[1, 2, 3, 4, 5, 6], 0, [2, 3], [3, 1]⟩ (fun _ => 0)
    (sortThreads (⟨[1, 2, 3, 4, 5, 6], 0, [2, 3], [3, 1]⟩ : Strided Int)).flatten
    (sortThreads (Strided.mk' (fun _ => (7 : Int)) [3, 2])).flatten =
    .ok ⟨[3, 22, 203, 8, 45, 406], 0, [2, 3], [3, 1]⟩ := by decide +kernel
example := C138_ger_partial (fun _ => (7 : ℚ)) 2 3 1 1 2 ⟨[1, 2], 0, [2], [1]⟩ ⟨[1, 10, 100], 0, [3], [1]⟩
  ⟨[1, 2, 3, 4, 5, 6], 0, [2, 3], [3, 1]⟩ !![1, 2, 3; 4, 5, 6] ![1, 2] ![1, 10, 100] (by decide) (by decide) ⟨rfl, Nat.le_refl _⟩
  ⟨rfl, by decide +kernel⟩ ⟨rfl, by decide +kernel⟩ ⟨rfl, by decide +kernel⟩ rfl rfl (by decide) (by decide) (fun _ => 0) _ _
  (Schedule.sequential _) (Schedule.sequential _)
example := C138_ger_refuted (fun t : Int => -t) (fun _ => 7) 1 (by decide) (fun _ => 0) _ _ (Schedule.sequential _) (Schedule.sequential _)

example : ∃ A' B', deviceGesv false gesvEx ⟨[2, 1, 9, 4, 3, 9], 0, [2, 2], [3, 1]⟩ ⟨[1, 2, 3, 4], 0, [2, 2], [2, 1]⟩ = .ok (0, A', B') ∧
    B'.data = [-5/2, 3/2, -7/2, 5/2] := ⟨_, _, rfl, by decide +kernel⟩
example : ∃ A' B', deviceGesv true gesvEx ⟨[2, 1, 9, 4, 3, 9], 0, [2, 2], [3, 1]⟩ ⟨[1, 2, 3, 4], 0, [2, 2], [2, 1]⟩ = .ok (0, A', B') ∧
    B'.data = [1, 2, 3, 4] := ⟨_, _, rfl, by decide +kernel⟩
example := C138_gesv_partial gesvEx 1 2 3 1 (by decide) (by decide) ⟨[5, 0, 0], 0, [1, 1], [3, 1]⟩ ⟨[1, 2], 0, [2, 1], [1, 1]⟩ rfl rfl
  (rows [[5]]) (rows [[1], [2]]) (holds_rows _ rfl _ (by decide +kernel)) (holds_rows _ rfl _ (by decide +kernel)) (gesvEx_one _ _ _)

end Einsums.Props
