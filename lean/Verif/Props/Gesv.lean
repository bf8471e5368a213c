import Verif.Proofs.Gesv
import Verif.Props.Inverse
/-
C126: `gesv`.

The LAPACK routine is an arbitrary function; each theorem assumes of it what LAPACK documents (`IsGesv`), for the matrices
that it is given.
-/
namespace Einsums.Props
open Spec Model Matrix

variable {R : Type}

/-- **C126 (partial).** `gesv(&A, &B)` of an n×n tensor A and a k×n tensor B: 0 is returned if and only if A is regular; then B
is replaced by the X with X·A = B (the rows of B are the right-hand sides, A is the transposed matrix of the system).  A is
replaced by the factors of its transpose (U of the transpose on and below the diagonal).  Missing: views, empty matrices, the
rejection of shapes that do not fit (refuted below). -/
theorem C126_solve_partial [Field R] (gesv : GesvRoutine R) (n k : Nat) (hn : 0 < n) (A B : Strided R) (wA : A.IsTensor)
    (wB : B.IsTensor) (a b : Nat → Nat → R) (hA : Holds A (mat n n a)) (hB : Holds B (mat k n b))
    (lapack : IsGesv n k (crop n n (tr a)) (crop n k (tr b)) (gesv n k (crop n n (tr a)) (crop n k (tr b)))) :
    ∃ info A' B', gesvT gesv A B = .ok (info, A', B') ∧ (info = 0 ↔ (mat n n a).det ≠ 0) ∧ A.Frame A' ∧ B.Frame B' ∧
      (∃ f p, Holds A' (mat n n (tr f)) ∧ IsLU n n (crop n n (tr a)) (info, f, p)) ∧
      ∃ x : Nat → Nat → R, Holds B' (mat k n x) ∧ ((mat n n a).det ≠ 0 → mat k n x * mat n n a = mat k n b) := by
  obtain ⟨A', B', e1, e2, e3, e4, e5⟩ := gesvT_ok (gesv := gesv) hn (Nat.le_refl n) (tensor_strides2 wA hA.dims)
    (tensor_strides2 wB hB.dims) hA hB
  have hi := gesv_info lapack
  obtain ⟨p, hp⟩ := lapack.1
  refine ⟨_, A', B', e1, hi, e4, e5, ⟨_, p, e2, hp⟩, _, e3, fun hd => ?_⟩
  rw [← gesv_solution lapack (hi.2 hd)]
  congr 1
  exact mat_congr fun i j _ hj => if_pos hj

/-- **C126 (rows of B that are too short).** `gesv` stops with an error if B has fewer columns than A has rows. -/
theorem C126_narrow_rejects [Zero R] (gesv : GesvRoutine R) (n k m : Nat) (hm : m < n) (A B : Strided R) (dA : A.dims = [n, n])
    (dB : B.dims = [k, m]) : (gesvT gesv A B).isError = true := by
  have d0 : A.dim 0 = n := by simp [Strided.dim, dA]
  have b1 : B.dim 1 = m := by simp [Strided.dim, dB]
  unfold gesvT vendorGesv
  rw [d0, b1, if_neg (by omega), if_pos (by omega)]
  rfl

/-- **C126 (refuted for rows of B that are too long).** If B has more columns than A has rows, `gesv` does not reject it: it
solves for the first n columns and leaves the others. -/
theorem C126_wide_refuted [Field R] (gesv : GesvRoutine R) (n k m : Nat) (hn : 0 < n) (hm : n < m) (A B : Strided R)
    (wA : A.IsTensor) (wB : B.IsTensor) (a b : Nat → Nat → R) (hA : Holds A (mat n n a)) (hB : Holds B (mat k m b))
    (lapack : IsGesv n k (crop n n (tr a)) (crop n k (tr b)) (gesv n k (crop n n (tr a)) (crop n k (tr b)))) :
    ∃ info A' B', gesvT gesv A B = .ok (info, A', B') ∧ (info = 0 ↔ (mat n n a).det ≠ 0) ∧ B.Frame B' ∧
      ∃ x : Nat → Nat → R, Holds B' (mat k m x) ∧
      ((mat n n a).det ≠ 0 → mat k n x * mat n n a = mat k n b) ∧ ∀ i j, n ≤ j → x i j = b i j := by
  obtain ⟨A', B', e1, e2, e3, e4, e5⟩ := gesvT_ok (gesv := gesv) hn hm.le (tensor_strides2 wA hA.dims)
    (tensor_strides2 wB hB.dims) hA hB
  refine ⟨_, A', B', e1, gesv_info lapack, e5, _, e3, fun hd => ?_, fun i j hj => if_neg (by omega)⟩
  rw [← gesv_solution lapack ((gesv_info lapack).2 hd)]
  congr 1
  exact mat_congr fun i j _ hj => if_pos hj

/-- **C126 (refuted for A with more columns than rows).** `gesv` does not reject it. -/
theorem C126_not_square_refuted [Zero R] (gesv : GesvRoutine R) (n c k : Nat) (hn : 0 < n) (hc : n < c) (A B : Strided R)
    (wA : A.IsTensor) (wB : B.IsTensor) (dA : A.dims = [n, c]) (dB : B.dims = [k, n]) : ∃ r, gesvT gesv A B = .ok r := by
  have hin : ∀ i j, i < n → j < n → A.off + i * n + j < A.data.length := by
    intro i j hi hj
    rw [wA.off, wA.length, dA]
    simp only [numel, Nat.mul_one]
    have h1 : (i + 1) * n ≤ n * n := Nat.mul_le_mul_right n hi
    have h2 : n * n ≤ n * c := Nat.mul_le_mul_left n hc.le
    rw [Nat.add_mul] at h1
    omega
  have hin' : ∀ i j, i < k → j < n → B.off + i * n + j < B.data.length := by
    intro i j hi hj
    rw [wB.off, wB.length, dB]
    simp only [numel, Nat.mul_one]
    have h1 : (i + 1) * n ≤ k * n := Nat.mul_le_mul_right n hi
    rw [Nat.add_mul] at h1
    omega
  obtain ⟨d', e', e1, _⟩ := vendorGesv_ok (gesv := gesv) (n := n) (k := k) (d := A.data) (aoff := A.off) (lda := n) (e := B.data)
    (boff := B.off) (ldb := n) (a := fun i j => A.data.getD (A.off + i * n + j) 0) (b := fun i j => B.data.getD (B.off + i * n + j) 0)
    (by omega) (by omega)
    (fun i j hi hj => by simp [List.getD_eq_getElem?_getD, List.getElem?_eq_getElem (hin i j hi hj)])
    (fun i j hi hj => by simp [List.getD_eq_getElem?_getD, List.getElem?_eq_getElem (hin' i j hi hj)])
  have d0 : A.dim 0 = n := by simp [Strided.dim, dA]
  have b0 : B.dim 0 = k := by simp [Strided.dim, dB]
  have b1 : B.dim 1 = n := by simp [Strided.dim, dB]
  unfold gesvT
  simp only [d0, b0, b1, e1, Outcome.ok_bind]
  exact ⟨_, rfl⟩

/-- **C126 (refuted for A with fewer columns than rows).** `gesv` reads outside the storage of A. -/
theorem C126_tall_refuted [Zero R] (gesv : GesvRoutine R) (n c k : Nat) (hc : c < n) (A B : Strided R)
    (wA : A.IsTensor) (dA : A.dims = [n, c]) (dB : B.dims = [k, n]) : (gesvT gesv A B).isUb = true := by
  have d0 : A.dim 0 = n := by simp [Strided.dim, dA]
  have b1 : B.dim 1 = n := by simp [Strided.dim, dB]
  have hb : colMat n n A.data A.off n = .ub "LAPACK reads outside the storage" := by
    unfold colMat
    rw [if_neg]
    intro h
    rw [List.all_eq_true] at h
    have h2 := h (n - 1, n - 1) (mem_colPairs.2 ⟨by omega, by omega⟩)
    rw [decide_eq_true_eq, wA.off, wA.length, dA] at h2
    simp only [numel, Nat.mul_one] at h2
    have h3 : n * c ≤ n * (n - 1) := Nat.mul_le_mul_left n (by omega)
    have h4 : n * (n - 1) = (n - 1) * n := Nat.mul_comm _ _
    omega
  unfold gesvT vendorGesv
  rw [d0, b1, if_neg (by omega), if_neg (by omega), hb]
  rfl

/-- **C126 (refuted for empty matrices).** `gesv` of matrices without elements stops with an error. -/
theorem C126_empty_refuted [Zero R] (gesv : GesvRoutine R) (A B : Strided R) (dA : A.dims = [0, 0]) : (gesvT gesv A B).isError = true := by
  have d0 : A.dim 0 = 0 := by simp [Strided.dim, dA]
  unfold gesvT vendorGesv
  rw [d0, if_pos (by decide)]
  rfl

/-- **C126 (refuted for the usual reading).** With any LAPACK, for A = [[1, 1], [0, 1]] and B = [[1, 0], [0, 0]] `gesv` returns 0
and leaves an X in B with A·X ≠ B. -/
theorem C126_columns_refuted (gesv : GesvRoutine ℚ)
    (lapack : IsGesv 2 2 (crop 2 2 (tr (rows [[1, 1], [0, 1]]))) (crop 2 2 (tr (rows [[1, 0], [0, 0]])))
      (gesv 2 2 (crop 2 2 (tr (rows [[1, 1], [0, 1]]))) (crop 2 2 (tr (rows [[1, 0], [0, 0]]))))) :
    ∃ A' B', gesvT gesv ⟨[1, 1, 0, 1], 0, [2, 2], [2, 1]⟩ ⟨[1, 0, 0, 0], 0, [2, 2], [2, 1]⟩ = .ok (0, A', B') ∧
      ∀ x : Nat → Nat → ℚ, Holds B' (mat 2 2 x) → mat 2 2 (rows [[1, 1], [0, 1]]) * mat 2 2 x ≠ mat 2 2 (rows [[1, 0], [0, 0]]) := by
  obtain ⟨info, A', B', e1, e2, _, _, _, x, e3, e4⟩ := C126_solve_partial gesv 2 2 (by decide) ⟨[1, 1, 0, 1], 0, [2, 2], [2, 1]⟩
    ⟨[1, 0, 0, 0], 0, [2, 2], [2, 1]⟩ ⟨rfl, rfl, rfl⟩ ⟨rfl, rfl, rfl⟩ (rows [[1, 1], [0, 1]]) (rows [[1, 0], [0, 0]])
    (holds_rows _ rfl _ (by decide +kernel)) (holds_rows _ rfl _ (by decide +kernel)) lapack
  have hd : (mat 2 2 (rows [[1, 1], [0, 1]])).det ≠ 0 := by
    rw [Matrix.det_fin_two]
    decide +kernel
  rw [e2.2 hd] at e1
  refine ⟨A', B', e1, fun y hy he => ?_⟩
  have hxy : ∀ (i j : Fin 2), x i j = y i j := fun i j => Outcome.ok.inj ((e3.elems i j).symm.trans (hy.elems i j))
  have h4 := e4 hd
  have q1 := congrFun (congrFun h4 0) 0
  have q2 := congrFun (congrFun h4 0) 1
  have q3 := congrFun (congrFun he 0) 1
  have q4 := congrFun (congrFun h4 1) 1
  have q5 := congrFun (congrFun h4 1) 0
  simp only [Matrix.mul_apply, Fin.sum_univ_two, mat, rows] at q1 q2 q3 q4 q5
  have x00 := hxy 0 0
  have x01 := hxy 0 1
  have x10 := hxy 1 0
  have x11 := hxy 1 1
  simp at q1 q2 q3 q4 q5 x00 x01 x10 x11
  linarith

/-- **C126 (refuted for views as A).** With any LAPACK: for a view with the elements of the identity, the first two columns of a
2×4 tensor, and B = [[1, 1]], `gesv` leaves [[0, 1/5]] in B. -/
theorem C126_viewA_refuted (gesv : GesvRoutine ℚ)
    (lapack : IsGesv 2 1 (crop 2 2 (tr (rows [[1, 0], [5, 5]]))) (crop 2 1 (tr (rows [[1, 1]])))
      (gesv 2 1 (crop 2 2 (tr (rows [[1, 0], [5, 5]]))) (crop 2 1 (tr (rows [[1, 1]]))))) :
    Holds (⟨[1, 0, 5, 5, 0, 1, 5, 5], 0, [2, 2], [4, 1]⟩ : Strided ℚ) (1 : Matrix (Fin 2) (Fin 2) ℚ) ∧
    ∃ A' B', gesvT gesv ⟨[1, 0, 5, 5, 0, 1, 5, 5], 0, [2, 2], [4, 1]⟩ ⟨[1, 1], 0, [1, 2], [2, 1]⟩ = .ok (0, A', B') ∧
      B'.read [0, 0] = .ok 0 ∧ B'.read [0, 1] = .ok (1 / 5) := by
  constructor
  · exact ⟨rfl, by decide +kernel⟩
  · have hI := lapack
    obtain ⟨d', e', e1, _, e3, _, e5, _, _⟩ := vendorGesv_ok (gesv := gesv) (n := 2) (k := 1) (d := [1, 0, 5, 5, 0, 1, 5, 5]) (aoff := 0)
      (lda := 2) (e := [1, 1]) (boff := 0) (ldb := 2) (a := rows [[1, 0], [5, 5]]) (b := rows [[1, 1]]) (by decide) (by decide)
      (by intro i j hi hj; interval_cases i <;> interval_cases j <;> rfl)
      (by intro i j hi hj; interval_cases i; interval_cases j <;> rfl)
    have h0 := (gesv_info hI).2 (by rw [Matrix.det_fin_two]; decide +kernel)
    have hx := gesv_solution hI h0
    rw [h0] at e1
    have q1 := congrFun (congrFun hx 0) 0
    have q2 := congrFun (congrFun hx 0) 1
    simp only [Matrix.mul_apply, Fin.sum_univ_two, mat, rows] at q1 q2
    simp at q1 q2
    have r1 := e5 0 0 (by decide) (by decide)
    have r2 := e5 0 1 (by decide) (by decide)
    refine ⟨⟨d', 0, [2, 2], [4, 1]⟩, ⟨e', 0, [1, 2], [2, 1]⟩, ?_, ?_, ?_⟩
    · unfold gesvT
      simp only [Strided.dim, List.getD_cons_zero, List.getD_cons_succ]
      rw [e1]
      rfl
    · refine (read2_iff (t := ⟨e', 0, [1, 2], [2, 1]⟩) (i := 0) (j := 0) rfl rfl 0).2 ?_
      refine r1.trans (congrArg some ?_)
      linarith
    · refine (read2_iff (t := ⟨e', 0, [1, 2], [2, 1]⟩) (i := 0) (j := 1) rfl rfl (1 / 5)).2 ?_
      refine r2.trans (congrArg some ?_)
      linarith

/-- **C126 (refuted for views as B).** With any LAPACK: for A = [[2]] and B the view of the first column of [[2, 6], [4, 7]], `gesv`
returns 0, replaces 6, which is not in the view, by 3 and leaves 4. -/
theorem C126_viewB_refuted (gesv : GesvRoutine ℚ) (lapack : ∀ M N, IsGesv 1 2 M N (gesv 1 2 M N)) :
    ∃ A' B', gesvT gesv ⟨[2], 0, [1, 1], [1, 1]⟩ ⟨[2, 6, 4, 7], 0, [2, 1], [2, 1]⟩ = .ok (0, A', B') ∧ B'.data = [1, 3, 4, 7] := by
  have hI := lapack (crop 1 1 (tr (rows [[2]]))) (crop 1 2 (tr (rows [[2], [6]])))
  obtain ⟨d', e', e1, _, e3, _, e5, _, e7⟩ := vendorGesv_ok (gesv := gesv) (n := 1) (k := 2) (d := [2]) (aoff := 0)
    (lda := 1) (e := [2, 6, 4, 7]) (boff := 0) (ldb := 1) (a := rows [[2]]) (b := rows [[2], [6]]) (by decide) (by decide)
    (by intro i j hi hj; interval_cases i; interval_cases j; rfl)
    (by intro i j hi hj; interval_cases i <;> interval_cases j <;> rfl)
  have h0 := (gesv_info hI).2 (by rw [Matrix.det_fin_one]; decide +kernel)
  have hx := gesv_solution hI h0
  rw [h0] at e1
  have q1 := congrFun (congrFun hx 0) 0
  have q2 := congrFun (congrFun hx 1) 0
  simp only [Matrix.mul_apply, Fin.sum_univ_one, mat, rows] at q1 q2
  simp at q1 q2
  have r1 := e5 0 0 (by decide) (by decide)
  have r2 := e5 1 0 (by decide) (by decide)
  have r3 := e7 2 (by intro i j hi hj; omega)
  have r4 := e7 3 (by intro i j hi hj; omega)
  refine ⟨⟨d', 0, [1, 1], [1, 1]⟩, ⟨e', 0, [2, 1], [2, 1]⟩, ?_, ?_⟩
  · unfold gesvT
    simp only [Strided.dim, List.getD_cons_zero, List.getD_cons_succ]
    rw [e1]
    rfl
  · apply List.ext_getElem?
    intro i
    rcases Nat.lt_or_ge i 4 with hi | hi
    · interval_cases i
      · refine r1.trans (congrArg some ?_)
        linarith
      · refine r2.trans (congrArg some ?_)
        linarith
      · exact r3
      · exact r4
    · rw [List.getElem?_eq_none (by simpa [e3] using hi), List.getElem?_eq_none (by simpa using hi)]

/-! #### Instances -/

/-- xGESV for regular 2×2 matrices that need no interchange, and for 1×1 matrices. -/
def gesvEx : GesvRoutine ℚ := fun n _ M N =>
  if n = 1 then (if M 0 0 = 0 then 1 else 0, M, fun _ j => N 0 j / M 0 0)
  else
    let F := rows [[M 0 0, M 0 1], [M 1 0 / M 0 0, M 1 1 - M 1 0 / M 0 0 * M 0 1]]
    let y : Nat → ℚ := fun j => (N 1 j - M 1 0 / M 0 0 * N 0 j) / F 1 1
    (0, F, fun i j => if i = 0 then (N 0 j - M 0 1 * y j) / M 0 0 else y j)

/-- The hypotheses of `C126_solve_partial` are met, and the result. -/
example : IsGesv 2 2 (crop 2 2 (tr (rows [[2, 1], [4, 3]]))) (crop 2 2 (tr (rows [[1, 2], [3, 4]])))
    (gesvEx 2 2 (crop 2 2 (tr (rows [[2, 1], [4, 3]]))) (crop 2 2 (tr (rows [[1, 2], [3, 4]])))) :=
  ⟨⟨fun i => i + 1, fun i hi => ⟨Nat.le_refl _, by simp at *; omega⟩, matrix_ext_dec (by decide +kernel), by decide +kernel⟩, fun _ =>
    matrix_ext_dec (by decide +kernel)⟩

/-- The hypothesis of `C126_columns_refuted` is met. -/
example : IsGesv 2 2 (crop 2 2 (tr (rows [[1, 1], [0, 1]]))) (crop 2 2 (tr (rows [[1, 0], [0, 0]])))
    (gesvEx 2 2 (crop 2 2 (tr (rows [[1, 1], [0, 1]]))) (crop 2 2 (tr (rows [[1, 0], [0, 0]])))) :=
  ⟨⟨fun i => i + 1, fun i hi => ⟨Nat.le_refl _, by simp at *; omega⟩, matrix_ext_dec (by decide +kernel), by decide +kernel⟩, fun _ =>
    matrix_ext_dec (by decide +kernel)⟩

/-- The hypothesis of `C126_viewA_refuted` is met. -/
example : IsGesv 2 1 (crop 2 2 (tr (rows [[1, 0], [5, 5]]))) (crop 2 1 (tr (rows [[1, 1]])))
    (gesvEx 2 1 (crop 2 2 (tr (rows [[1, 0], [5, 5]]))) (crop 2 1 (tr (rows [[1, 1]])))) :=
  ⟨⟨fun i => i + 1, fun i hi => ⟨Nat.le_refl _, by simp at *; omega⟩, matrix_ext_dec (by decide +kernel), by decide +kernel⟩, fun _ =>
    matrix_ext_dec (by decide +kernel)⟩

example : ∃ A' B', gesvT gesvEx ⟨[2, 1, 4, 3], 0, [2, 2], [2, 1]⟩ ⟨[1, 2, 3, 4], 0, [2, 2], [2, 1]⟩ = .ok (0, A', B') ∧
    B'.data = [-5/2, 3/2, -7/2, 5/2] := ⟨_, _, rfl, by decide +kernel⟩

/-- The hypotheses of `C126_viewB_refuted` are met. -/
theorem gesvEx_one (k : Nat) (M N : Nat → Nat → ℚ) : IsGesv 1 k M N (gesvEx 1 k M N) := by
  refine ⟨⟨fun _ => 1, fun i hi => ⟨?_, ?_⟩, ?_, ?_⟩, fun h => ?_⟩
  · rw [Nat.lt_one_iff.1 hi]
  · exact Nat.le_refl 1
  · funext i j
    rw [Subsingleton.elim i 0, Subsingleton.elim j 0]
    simp [gesvEx, mat, Matrix.mul_apply, unitLower, upperPart, interchanges]
  · simp [gesvEx]
  · funext i j
    rw [Subsingleton.elim i 0]
    have h0 : M 0 0 ≠ 0 := by
      intro c
      simp [gesvEx, c] at h
    simp [gesvEx, mat, Matrix.mul_apply]
    field_simp

end Einsums.Props
