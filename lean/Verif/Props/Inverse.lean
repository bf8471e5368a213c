import Verif.Proofs.Inverse
import Mathlib.Data.Rat.Defs
import Mathlib.Algebra.Order.Ring.Rat
import Mathlib.Tactic.Linarith
import Mathlib.Tactic.IntervalCases
import Mathlib.Tactic.FinCases
import Mathlib.Tactic.Ring
import Mathlib.LinearAlgebra.Matrix.NonsingularInverse
/-
C101–C103: determinant, inverse, norm.

The LAPACK routines are arbitrary functions; each theorem assumes of them what LAPACK documents (`IsLU`, `IsGetri`, `IsMaxAbs`,
… in Spec/Lu.lean) at the matrix they are called with, which is the transpose of the argument.  `Holds t M`: the tensor `t`
holds the matrix `M`.
-/
namespace Einsums.Props
open Spec Model Matrix

variable {R : Type}

/-- The transposed matrix, which is what LAPACK sees of a row-major tensor. -/
abbrev tr (a : Nat → Nat → R) : Nat → Nat → R := fun i j => a j i

/-! ### C101: det -/

/-- **C101 (singular matrices).** For every singular matrix `det` returns 0. -/
theorem C101_singular [CommRing R] [IsDomain R] (getrf : GetrfFn R) (n : Nat) (hn : 0 < n) (A : Strided R) (w : A.IsTensor)
    (a : Nat → Nat → R) (hA : Holds A (mat n n a)) (lapack : IsLU n n (crop n n (tr a)) (getrf n n (crop n n (tr a))))
    (hdet : (mat n n a).det = 0) (fuel : Nat) : Model.det getrf fuel A = some (.ok (mat n n a).det) := by
  have s := tensor_strides2 w hA.dims
  have h := (det_cases s (by omega) hA lapack).1
  rw [hdet]
  refine h ?_ fuel
  intro h0
  have := (lu_info lapack).1 h0
  rw [mat_crop, mat_transpose, Matrix.det_transpose] at this
  exact this hdet

/-- **C101.** For every triangular matrix for which LAPACK interchanges no rows, `det` returns the determinant.  Missing:
all other regular matrices (refuted below). -/
theorem C101_det_partial [CommRing R] [IsDomain R] (getrf : GetrfFn R) (n : Nat) (hn : 0 < n) (A : Strided R)
    (w : A.IsTensor) (a : Nat → Nat → R) (hA : Holds A (mat n n a))
    (lapack : IsLU n n (crop n n (tr a)) (getrf n n (crop n n (tr a))))
    (tri : (∀ i j, i < n → j < i → a i j = 0) ∨ (∀ i j, j < n → i < j → a i j = 0))
    (noswap : ∀ i, i < n → (getrf n n (crop n n (tr a))).2.2 i = i + 1) (fuel : Nat) :
    Model.det getrf (fuel + 1) A = some (.ok (mat n n a).det) := by
  have s := tensor_strides2 w hA.dims
  by_cases hdet : (mat n n a).det = 0
  · exact C101_singular getrf n hn A w a hA lapack hdet _
  · rw [(det_cases s (by omega) hA lapack).2.2 ?_ noswap fuel]
    · congr 2
      rcases tri with h | h
      · rw [Matrix.det_of_isUpperTriangular]
        · rfl
        · intro i j hij
          exact h i j i.2 hij
      · rw [Matrix.det_of_isLowerTriangular]
        · rfl
        · intro i j hij
          exact h i j j.2 hij
    · rw [lu_info lapack, mat_crop, mat_transpose, Matrix.det_transpose]
      exact hdet

/-- **C101.** `det` of a matrix that is not square throws. -/
theorem C101_not_square [CommRing R] (getrf : GetrfFn R) (m n : Nat) (h : m ≠ n) (A : Strided R) (d : A.dims = [m, n])
    (fuel : Nat) : ∃ e, Model.det getrf fuel A = some (.error e) := by
  have d0 : A.dim 0 = m := by simp [Strided.dim, d]
  have d1 : A.dim 1 = n := by simp [Strided.dim, d]
  unfold Model.det
  rw [if_pos (by omega)]
  exact ⟨_, rfl⟩

/-- **C101 (refuted).** Whenever LAPACK interchanges two rows of a regular matrix, `det` does not end. -/
theorem C101_interchange_refuted [CommRing R] [IsDomain R] (getrf : GetrfFn R) (n : Nat) (hn : 0 < n) (A : Strided R)
    (w : A.IsTensor) (a : Nat → Nat → R) (hA : Holds A (mat n n a))
    (lapack : IsLU n n (crop n n (tr a)) (getrf n n (crop n n (tr a)))) (hdet : (mat n n a).det ≠ 0)
    (swap : ∃ i, i < n ∧ (getrf n n (crop n n (tr a))).2.2 i ≠ i + 1) (fuel : Nat) : Model.det getrf fuel A = none := by
  have s := tensor_strides2 w hA.dims
  refine (det_cases s (by omega) hA lapack).2.1 ?_ swap fuel
  rw [lu_info lapack, mat_crop, mat_transpose, Matrix.det_transpose]
  exact hdet

/-- **C101 (refuted).** For every LAPACK, `det` of a regular matrix whose first element is 0 does not end. -/
theorem C101_zero_corner_refuted [CommRing R] [IsDomain R] (getrf : GetrfFn R) (n : Nat) (hn : 0 < n) (A : Strided R)
    (w : A.IsTensor) (a : Nat → Nat → R) (hA : Holds A (mat n n a))
    (lapack : IsLU n n (crop n n (tr a)) (getrf n n (crop n n (tr a)))) (hdet : (mat n n a).det ≠ 0) (h0 : a 0 0 = 0)
    (fuel : Nat) : Model.det getrf fuel A = none := by
  refine C101_interchange_refuted getrf n hn A w a hA lapack hdet ?_ fuel
  by_contra hall
  push Not at hall
  have hinfo : (getrf n n (crop n n (tr a))).1 = 0 := by
    rw [lu_info lapack, mat_crop, mat_transpose, Matrix.det_transpose]
    exact hdet
  have hF := lapack.info.1 hinfo 0 (by omega)
  have e := lapack.eq
  revert e
  rw [Nat.min_self, interchanges_none hall]
  intro e
  have e' := congrFun (congrFun e ⟨0, hn⟩) ⟨0, hn⟩
  rw [Matrix.mul_apply, Finset.sum_eq_single (⟨0, hn⟩ : Fin n)] at e'
  · simp [mat, crop, tr, h0, unitLower, upperPart] at e'
    exact hF e'.symm
  · intro k _ hk
    have hk' : k.1 ≠ 0 := fun h => hk (Fin.ext h)
    have : mat n n (upperPart (getrf n n (crop n n (tr a))).2.1) k ⟨0, hn⟩ = 0 := by
      simp [mat, upperPart, Nat.pos_of_ne_zero hk']
    rw [this, mul_zero]
  · intro h
    exact absurd (Finset.mem_univ _) h

/-! #### Instances -/

/-- A matrix given by its rows. -/
def rows (l : List (List ℚ)) : Nat → Nat → ℚ := fun i j => (l.getD i []).getD j 0

theorem holds_rows {m n : Nat} (t : Strided ℚ) (d : t.dims = [m, n]) (l : List (List ℚ))
    (h : ∀ (i : Fin m) (j : Fin n), t.read [(i.1 : Int), (j.1 : Int)] = .ok (rows l i j)) : Holds t (mat m n (rows l)) :=
  ⟨d, h⟩

theorem matrix_ext_dec {m n : Nat} {M N : Matrix (Fin m) (Fin n) ℚ}
    (h : ∀ (i : Fin m) (j : Fin n), decide (M i j = N i j) = true) : M = N := by
  ext i j
  exact of_decide_eq_true (h i j)

/-- [[2, 1], [1, 1]]: determinant 1. -/
def detA : Strided ℚ := ⟨[2, 1, 1, 1], 0, [2, 2], [2, 1]⟩

theorem detA_holds : Holds detA (mat 2 2 (rows [[2, 1], [1, 1]])) := holds_rows _ rfl _ (by decide +kernel)

/-- **C101 (refuted).** For every LAPACK that keeps its contract, `det` of [[2, 1], [1, 1]] is never 1: it is 2 (the product
of the diagonal of the argument, not of the factor), or it does not end. -/
theorem C101_refuted (getrf : GetrfFn ℚ)
    (lapack : IsLU 2 2 (crop 2 2 (tr (rows [[2, 1], [1, 1]]))) (getrf 2 2 (crop 2 2 (tr (rows [[2, 1], [1, 1]]))))) :
    (mat 2 2 (rows [[2, 1], [1, 1]])).det = 1 ∧
      ((∀ fuel, Model.det getrf fuel detA = none) ∨ ∀ fuel, Model.det getrf (fuel + 1) detA = some (.ok 2)) := by
  have hdet : (mat 2 2 (rows [[2, 1], [1, 1]])).det = 1 := by
    rw [Matrix.det_fin_two]
    decide +kernel
  refine ⟨hdet, ?_⟩
  have hinfo : (getrf 2 2 (crop 2 2 (tr (rows [[2, 1], [1, 1]])))).1 = 0 := by
    rw [lu_info lapack, mat_crop, mat_transpose, Matrix.det_transpose, hdet]
    exact one_ne_zero
  have c := det_cases (ld := 2) (A := detA) rfl (by decide) detA_holds lapack
  by_cases hp : ∀ i, i < 2 → (getrf 2 2 (crop 2 2 (tr (rows [[2, 1], [1, 1]])))).2.2 i = i + 1
  · right
    intro fuel
    rw [c.2.2 hinfo hp fuel]
    congr 2
    decide +kernel
  · left
    push Not at hp
    exact fun fuel => c.2.1 hinfo hp fuel

/-- xGETRF for a matrix that is upper triangular already. -/
def getrfId (R : Type) : GetrfFn R := fun _ _ M => (0, M, fun i => i + 1)

/-- The lower triangular [[2, 0], [1, 3]]; its transpose is upper triangular. -/
def lowA : Strided ℚ := ⟨[2, 0, 1, 3], 0, [2, 2], [2, 1]⟩

theorem lowA_holds : Holds lowA (mat 2 2 (rows [[2, 0], [1, 3]])) := holds_rows _ rfl _ (by decide +kernel)

theorem lowA_lu : IsLU 2 2 (crop 2 2 (tr (rows [[2, 0], [1, 3]]))) (getrfId ℚ 2 2 (crop 2 2 (tr (rows [[2, 0], [1, 3]])))) where
  pivots := by
    intro i hi
    simp [getrfId] at *
    omega
  eq := matrix_ext_dec (by decide +kernel)
  info := by
    constructor
    · intro _
      decide +kernel
    · intro _
      rfl

example : Model.det (getrfId ℚ) 1 lowA = some (.ok 6) := by
  rw [C101_det_partial (getrfId ℚ) 2 (by decide) lowA ⟨rfl, by decide, by decide⟩ _ lowA_holds lowA_lu (Or.inr ?_) ?_ 0]
  · congr 2
    rw [Matrix.det_fin_two]
    decide +kernel
  · intro i j hj hij
    interval_cases j
    · omega
    · interval_cases i
      rfl
  · intro i _
    rfl

/-- A LAPACK for [[0, 1], [1, 0]]: one interchange. -/
def getrfSwap : GetrfFn ℚ := fun _ _ _ => (0, rows [[1, 0], [0, 1]], fun _ => 2)

example : ∀ fuel, Model.det getrfSwap fuel ⟨[0, 1, 1, 0], 0, [2, 2], [2, 1]⟩ = none := by
  intro fuel
  refine C101_zero_corner_refuted getrfSwap 2 (by decide) _ ⟨rfl, by decide, by decide⟩ (rows [[0, 1], [1, 0]])
    (holds_rows _ rfl _ (by decide +kernel)) ⟨?_, matrix_ext_dec (by decide +kernel), ?_⟩ ?_ rfl fuel
  · intro i hi
    simp [getrfSwap] at *
    omega
  · constructor
    · intro _
      decide +kernel
    · intro _
      rfl
  · rw [Matrix.det_fin_two]
    decide +kernel

/-! ### C102: getrf, getri, invert -/

/-- **C102.** For every square matrix (or view with unit stride along its rows): if it is regular, `invert` replaces it by
its inverse and changes nothing else; if it is singular, the program stops with a message.  Missing: views with another stride
(refuted below). -/
theorem C102_invert_partial [Field R] (getrf : GetrfFn R) (getri : GetriFn R) (n ld : Nat) (hn : 0 < n) (A : Strided R)
    (hs : A.strides = [ld, 1]) (hl : n ≤ ld) (a : Nat → Nat → R) (hA : Holds A (mat n n a))
    (lapack : IsLU n n (crop n n (tr a)) (getrf n n (crop n n (tr a))))
    (lapack' : ∀ F p, IsGetri n F p (getri n F p)) :
    ((mat n n a).det ≠ 0 → ∃ A', invert getrf getri A = .ok A' ∧ A.Frame A' ∧ ∃ x : Nat → Nat → R,
      Holds A' (mat n n x) ∧ mat n n x * mat n n a = 1 ∧ mat n n a * mat n n x = 1) ∧
    ((mat n n a).det = 0 → (invert getrf getri A).isError = true) := by
  have hinfo := lu_info lapack
  rw [mat_crop, mat_transpose, Matrix.det_transpose] at hinfo
  obtain ⟨A1, pv, e1, e2, e3, e4, e5⟩ := getrfT_ok (getrf := getrf) hs (by omega) hA
    (pivot := List.replicate (A.dim 0) 0)
  have d0 : A.dim 0 = n := by simp [Strided.dim, hA.dims]
  constructor
  · intro hdet
    have hr := hinfo.2 hdet
    obtain ⟨A2, f1, f2, f3⟩ := getriT_ok (getri := getri) (e3.strides.trans hs) (by omega) e2 (pivot := pv)
      (by rw [e4]; omega)
    have key := getri_inverse (A := crop n n (tr a)) (F := (getrf n n (crop n n (tr a))).2.1)
      (p := (getrf n n (crop n n (tr a))).2.2)
      (G := crop n n fun i j => (getrf n n (crop n n (tr a))).2.1 i j) (q := fun i => pv.getD i 0)
      (by rw [← hr]; exact lapack)
      (by intro i j hi hj; rw [crop, if_pos ⟨hi, hj⟩])
      (by intro i hi; simp [List.getD_eq_getElem?_getD, e5 i hi]) (lapack' _ _)
    refine ⟨A2, ?_, frame_trans e3 f3, _, f2, ?_⟩
    · unfold invert
      rw [e1]
      simp only [Outcome.ok_bind]
      rw [if_neg (Nat.not_lt.2 (Nat.le_of_eq hr)), f1]
      simp only [Outcome.ok_bind]
      rw [if_neg (Nat.not_lt.2 (Nat.le_of_eq key.1))]
      rfl
    · have h2 := key.2
      rw [mat_crop, mat_transpose] at h2
      have h3 := congrArg Matrix.transpose h2
      rw [Matrix.transpose_mul, Matrix.transpose_transpose, Matrix.transpose_one] at h3
      rw [mat_transpose]
      exact ⟨mul_eq_one_comm.1 h3, h3⟩
  · intro hdet
    have hr : (getrf n n (crop n n (tr a))).1 ≠ 0 := fun h => hinfo.1 h hdet
    unfold invert
    rw [e1]
    simp only [Outcome.ok_bind]
    rw [if_pos (Nat.pos_of_ne_zero hr)]
    rfl

/-- **C102 (what `getrf` leaves).** For every square matrix: with a permutation σ of the columns, A = L·U, with L on and
below the diagonal of the result and U above it, with a unit diagonal. -/
theorem C102_getrf_partial [CommRing R] (getrf : GetrfFn R) (n ld : Nat) (hn : 0 < n) (A : Strided R)
    (hs : A.strides = [ld, 1]) (hl : n ≤ ld) (a : Nat → Nat → R) (hA : Holds A (mat n n a)) (pivot : List Nat)
    (lapack : IsLU n n (crop n n (tr a)) (getrf n n (crop n n (tr a)))) :
    ∃ info A' pv, getrfT getrf A pivot = .ok (info, A', pv) ∧ A.Frame A' ∧ ∃ f : Nat → Nat → R, Holds A' (mat n n f) ∧
      (mat n n a).submatrix id (interchanges n n fun i => pv.getD i 0) =
        (mat n n (upperPart (tr f)))ᵀ * (unitLower n n (tr f))ᵀ := by
  obtain ⟨A1, pv, e1, e2, e3, e4, e5⟩ := getrfT_ok (getrf := getrf) hs (by omega) hA (pivot := pivot)
  refine ⟨_, A1, pv, e1, e3, _, e2, ?_⟩
  have e := lapack.eq
  revert e
  rw [Nat.min_self, mat_crop, mat_transpose]
  intro e
  have hq : interchanges n n (fun i => pv.getD i 0) = interchanges n n (getrf n n (crop n n (tr a))).2.2 :=
    interchanges_congr (fun i hi => by simp [List.getD_eq_getElem?_getD, e5 i hi])
  rw [hq, ← Matrix.transpose_mul]
  exact congrArg Matrix.transpose e

/-- **C102 (refuted for matrices that are not square).** For every matrix with fewer rows than columns `getrf` works
outside the storage, for every one with more rows the program stops. -/
theorem C102_getrf_refuted [CommRing R] (getrf : GetrfFn R) (m n : Nat) (hm : 0 < m) (hn : 0 < n) (A : Strided R)
    (w : A.IsTensor) (d : A.dims = [m, n]) (pivot : List Nat) :
    (m < n → (getrfT getrf A pivot).isUb = true) ∧ (n < m → (getrfT getrf A pivot).isError = true) := by
  have d0 : A.dim 0 = m := by simp [Strided.dim, d]
  have d1 : A.dim 1 = n := by simp [Strided.dim, d]
  have st : A.stride 0 = n := by simp [Strided.stride, tensor_strides2 w d]
  have hlen : A.data.length = m * n := by rw [w.length, d]; simp [numel]
  constructor
  · intro h
    unfold getrfT vendorGetrf
    simp only [d0, d1, st]
    rw [if_neg (by omega)]
    have : colMat m n A.data A.off n = .ub "LAPACK reads outside the storage" := by
      unfold colMat
      rw [if_neg]
      rw [List.all_eq_true]
      intro hall
      have := hall (0, n - 1) (mem_colPairs.2 ⟨hm, by simp only; omega⟩)
      simp only [decide_eq_true_eq] at this
      have h2 : m * n ≤ (n - 1) * n := Nat.mul_le_mul_right n (by omega)
      omega
    rw [this]
    rfl
  · intro h
    unfold getrfT vendorGetrf
    simp only [d0, d1, st]
    rw [if_pos (by omega)]
    rfl

/-- **C102 (refuted: A = P L U).** For every LAPACK: `getrf` of [[2, 0], [1, 1]] leaves a matrix whose unit lower part times
whose upper part is not a permutation of the rows of the argument, as documented. -/
theorem C102_plu_refuted (getrf : GetrfFn ℚ)
    (lapack : IsLU 2 2 (crop 2 2 (tr (rows [[2, 0], [1, 1]]))) (getrf 2 2 (crop 2 2 (tr (rows [[2, 0], [1, 1]]))))) :
    ∃ info A' pv, getrfT getrf ⟨[2, 0, 1, 1], 0, [2, 2], [2, 1]⟩ [] = .ok (info, A', pv) ∧ ∃ f : Nat → Nat → ℚ,
      Holds A' (mat 2 2 f) ∧
      ∀ σ : Equiv.Perm (Fin 2), (mat 2 2 (rows [[2, 0], [1, 1]])).submatrix σ id ≠
        unitLower 2 2 f * mat 2 2 (upperPart f) := by
  obtain ⟨A1, pv, e1, e2, _⟩ := getrfT_ok (getrf := getrf) (n := 2) (ld := 2) (A := ⟨[2, 0, 1, 1], 0, [2, 2], [2, 1]⟩) rfl
    (by decide) (a := rows [[2, 0], [1, 1]]) (holds_rows _ rfl _ (by decide +kernel)) (pivot := [])
  refine ⟨_, A1, pv, e1, _, e2, ?_⟩
  revert lapack
  generalize getrf 2 2 (crop 2 2 (tr (rows [[2, 0], [1, 1]]))) = out
  rintro ⟨hp, heq, hinfo⟩
  obtain ⟨info, F, p⟩ := out
  simp only at hp heq hinfo ⊢
  have p0 := hp 0 (by decide)
  have hF : F 0 0 = 2 ∧ F 0 1 = 1 ∧ F 1 0 = 0 ∧ F 1 1 = 1 := by
    revert heq
    rw [Nat.min_self]
    have p1 := hp 1 (by decide)
    have hp1 : p 1 = 2 := by omega
    have hp0 : p 0 = 1 ∨ p 0 = 2 := by omega
    rcases hp0 with h | h
    · rw [interchanges_none (by intro i hi; interval_cases i <;> simp [h, hp1])]
      intro e
      have e00 := congrFun (congrFun e 0) 0
      have e01 := congrFun (congrFun e 0) 1
      have e10 := congrFun (congrFun e 1) 0
      have e11 := congrFun (congrFun e 1) 1
      simp [Matrix.mul_apply, mat, unitLower, upperPart, crop, rows, tr] at e00 e01 e10 e11
      rw [← e00] at e10
      have : F 1 0 = 0 := by simpa using e10
      rw [this] at e11
      exact ⟨e00.symm, e01.symm, this, by linarith⟩
    · intro e
      have hσ : interchanges 2 2 p = Equiv.swap 0 1 := by
        simp [interchanges, h, hp1, List.range_succ]
        rfl
      rw [hσ] at e
      have e00 := congrFun (congrFun e 0) 0
      have e10 := congrFun (congrFun e 1) 0
      simp [Matrix.mul_apply, mat, unitLower, upperPart, crop, rows, tr] at e00 e10
      rw [← e00] at e10
      simp at e10
  obtain ⟨h00, h01, h10, h11⟩ := hF
  intro σ e
  have e10 := congrFun (congrFun e 1) 0
  simp [Matrix.mul_apply, mat, unitLower, upperPart, h00, h01] at e10
  have : σ 1 = 0 ∨ σ 1 = 1 := by omega
  have e00 := congrFun (congrFun e 0) 0
  have e11 := congrFun (congrFun e 1) 1
  simp [Matrix.mul_apply, mat, unitLower, upperPart, h00, h01, h10, h11] at e00 e11
  rcases this with h | h
  · rw [h] at e11
    simp [rows] at e11
  · rw [h] at e10
    simp [rows] at e10

/-- **C102 (refuted for strided views).** For every LAPACK: `invert` of a view with the elements of the identity, such as
`A(All, All, 0)` of a tensor of rank 3, stops with a message that it is singular. -/
theorem C102_view_refuted (getrf : GetrfFn ℚ) (getri : GetriFn ℚ)
    (lapack : IsLU 2 2 (crop 2 2 (rows [[1, 0], [0, 0]])) (getrf 2 2 (crop 2 2 (rows [[1, 0], [0, 0]])))) :
    Holds (⟨[1, 0, 0, 0, 0, 0, 1, 0], 0, [2, 2], [4, 2]⟩ : Strided ℚ) (1 : Matrix (Fin 2) (Fin 2) ℚ) ∧
    (invert getrf getri ⟨[1, 0, 0, 0, 0, 0, 1, 0], 0, [2, 2], [4, 2]⟩).isError = true := by
  constructor
  · refine ⟨rfl, ?_⟩
    decide +kernel
  · have hM : colMat 2 2 ([1, 0, 0, 0, 0, 0, 1, 0] : List ℚ) 0 4 = .ok (crop 2 2 (rows [[1, 0], [0, 0]])) := by
      apply colMat_ok
      intro i j hi hj
      interval_cases i <;> interval_cases j <;> rfl
    have hr : (getrf 2 2 (crop 2 2 (rows [[1, 0], [0, 0]]))).1 ≠ 0 := by
      intro h
      have := (lu_info lapack).1 h
      apply this
      rw [Matrix.det_fin_two]
      decide +kernel
    obtain ⟨d', s1, _⟩ := colStore_frame (m := 2) (n := 2) (M := (getrf 2 2 (crop 2 2 (rows [[1, 0], [0, 0]]))).2.1)
      (a := ([1, 0, 0, 0, 0, 0, 1, 0] : List ℚ)) (off := 0) (ld := 4) (by decide)
      (by intro i j hi hj; simp only [List.length_cons, List.length_nil]; omega)
    unfold invert getrfT vendorGetrf
    simp only [Strided.dim, Strided.stride, List.getD_cons_zero, List.getD_cons_succ]
    rw [if_neg (by decide), hM]
    simp only [Outcome.ok_bind]
    rw [s1]
    simp only [Outcome.ok_bind, pure_bind]
    rw [if_pos (Nat.pos_of_ne_zero hr)]
    rfl

/-! #### Instances -/

/-- xGETRI: the inverse, by cofactors, of the 2×2 matrix that was factored. -/
def getri2 : GetriFn ℚ := fun n F p =>
  let M : Nat → Nat → ℚ := fun i j => if h : i < n ∧ j < n then
    (unitLower n n F * mat n n (upperPart F)).submatrix (interchanges n n p).symm id ⟨i, h.1⟩ ⟨j, h.2⟩ else 0
  let d := M 0 0 * M 1 1 - M 0 1 * M 1 0
  (0, rows [[M 1 1 / d, - M 0 1 / d], [- M 1 0 / d, M 0 0 / d]])

theorem getri2_ok (F : Nat → Nat → ℚ) (p : Nat → Nat) : IsGetri 2 F p (getri2 2 F p) := by
  intro hF
  refine ⟨rfl, ?_⟩
  set M := (unitLower 2 2 F * mat 2 2 (upperPart F)).submatrix (interchanges 2 2 p).symm id with hM
  have hd : M.det ≠ 0 := by
    rw [hM, Matrix.det_permute, Matrix.det_mul, det_unitLower, one_mul, det_upper, Fin.prod_univ_two]
    refine mul_ne_zero ?_ (mul_ne_zero (hF 0 (by decide)) (hF 1 (by decide)))
    rcases Int.units_eq_one_or (Equiv.Perm.sign (interchanges 2 2 p).symm) with h | h <;> rw [h] <;> simp
  rw [Matrix.det_fin_two] at hd
  ext i j
  have e00 : mat 2 2 (getri2 2 F p).2 0 0 = M 1 1 / (M 0 0 * M 1 1 - M 0 1 * M 1 0) := rfl
  have e01 : mat 2 2 (getri2 2 F p).2 0 1 = - M 0 1 / (M 0 0 * M 1 1 - M 0 1 * M 1 0) := rfl
  have e10 : mat 2 2 (getri2 2 F p).2 1 0 = - M 1 0 / (M 0 0 * M 1 1 - M 0 1 * M 1 0) := rfl
  have e11 : mat 2 2 (getri2 2 F p).2 1 1 = M 0 0 / (M 0 0 * M 1 1 - M 0 1 * M 1 0) := rfl
  have key : ∀ x y z v c : ℚ, x * y + z * v = c * (M 0 0 * M 1 1 - M 0 1 * M 1 0) →
      x / (M 0 0 * M 1 1 - M 0 1 * M 1 0) * y + z / (M 0 0 * M 1 1 - M 0 1 * M 1 0) * v = c := by
    intro x y z v c h
    rw [div_mul_eq_mul_div, div_mul_eq_mul_div, ← add_div, div_eq_iff hd, h]
  fin_cases i <;> fin_cases j <;> simp only [Matrix.mul_apply, Fin.sum_univ_two, Fin.zero_eta, Fin.mk_one, e00, e01, e10, e11,
    Matrix.one_apply] <;> apply key <;> simp <;> ring

/-- The hypotheses of C102 are met: [[2, 0], [1, 3]] as a view into a matrix with three columns. -/
example : ∃ A', invert (getrfId ℚ) getri2 ⟨[2, 0, 9, 1, 3, 9], 0, [2, 2], [3, 1]⟩ = .ok A' := by
  obtain ⟨A', h, _⟩ := (C102_invert_partial (getrfId ℚ) getri2 2 3 (by decide) ⟨[2, 0, 9, 1, 3, 9], 0, [2, 2], [3, 1]⟩ rfl
    (by decide) (rows [[2, 0], [1, 3]]) (holds_rows _ rfl _ (by decide +kernel)) lowA_lu getri2_ok).1
    (by rw [Matrix.det_fin_two]; decide +kernel)
  exact ⟨A', h⟩

example : (getrfT (getrfId ℚ) ⟨[1, 2], 0, [1, 2], [2, 1]⟩ []).isUb = true :=
  (C102_getrf_refuted (getrfId ℚ) 1 2 (by decide) (by decide) _ ⟨rfl, by decide, by decide⟩ rfl []).1 (by decide)

/-- The hypothesis of `C101_refuted` is met. -/
example : IsLU 2 2 (crop 2 2 (tr (rows [[2, 1], [1, 1]]))) (0, rows [[2, 1], [1/2, 1/2]], fun i => i + 1) where
  pivots := by intro i hi; simp at *; omega
  eq := matrix_ext_dec (by decide +kernel)
  info := ⟨fun _ => by decide +kernel, fun _ => rfl⟩

/-- The hypothesis of `C102_plu_refuted` is met. -/
example : IsLU 2 2 (crop 2 2 (tr (rows [[2, 0], [1, 1]]))) (0, rows [[2, 1], [0, 1]], fun i => i + 1) where
  pivots := by intro i hi; simp at *; omega
  eq := matrix_ext_dec (by decide +kernel)
  info := ⟨fun _ => by decide +kernel, fun _ => rfl⟩

/-- The hypothesis of `C102_view_refuted` is met. -/
example : IsLU 2 2 (crop 2 2 (rows [[1, 0], [0, 0]])) (2, rows [[1, 0], [0, 0]], fun i => i + 1) where
  pivots := by intro i hi; simp at *; omega
  eq := matrix_ext_dec (by decide +kernel)
  info := ⟨fun h => by simp at h, fun h => absurd rfl (h 1 (by decide))⟩

/-! ### C103: norm -/

/-- **C103.** For every square matrix (or view with unit stride along its rows), `norm` with MaxAbs is the largest absolute
value, with Frobenius the root of the sum of squares; with One it is the largest *row* sum and with Infinity the largest
*column* sum.  Missing: One and Infinity the right way round, and other shapes (refuted below). -/
theorem C103_norm_partial [Field R] [LinearOrder R] (lange : LangeFn R) (n ld : Nat) (hn : 0 < n) (A : Strided R)
    (hs : A.strides = [ld, 1]) (hl : n ≤ ld) (a : Nat → Nat → R) (hA : Holds A (mat n n a))
    (lapackM : IsMaxAbs n n (mat n n (tr a)) (lange .maxAbs n n (crop n n (tr a))))
    (lapackF : IsFrobenius n n (mat n n (tr a)) (lange .frobenius n n (crop n n (tr a))))
    (lapack1 : IsMaxColSum n n (mat n n (tr a)) (lange .one n n (crop n n (tr a))))
    (lapackI : IsMaxRowSum n n (mat n n (tr a)) (lange .infinity n n (crop n n (tr a)))) :
    (∃ v, norm lange .maxAbs A = .ok v ∧ IsMaxAbs n n (mat n n a) v) ∧
    (∃ v, norm lange .frobenius A = .ok v ∧ IsFrobenius n n (mat n n a) v) ∧
    (∃ v, norm lange .one A = .ok v ∧ IsMaxRowSum n n (mat n n a) v) ∧
    (∃ v, norm lange .infinity A = .ok v ∧ IsMaxColSum n n (mat n n a) v) := by
  have h := colsAt_swap ((holdsMat_iff hA.dims hs a).1 hA)
  have d0 : A.dim 0 = n := by simp [Strided.dim, hA.dims]
  have d1 : A.dim 1 = n := by simp [Strided.dim, hA.dims]
  have st : A.stride 0 = ld := by simp [Strided.stride, hs]
  have key : ∀ ty, norm lange ty A = .ok (lange ty n n (crop n n (tr a))) := by
    intro ty
    unfold norm
    simp only [d0, d1, st]
    rw [if_neg (by omega), colMat_ok h]
    rfl
  refine ⟨⟨_, key _, ?_, ?_⟩, ⟨_, key _, lapackF.1, ?_⟩, ⟨_, key _, lapack1⟩, ⟨_, key _, lapackI⟩⟩
  · obtain ⟨i, j, h⟩ := lapackM.1
    exact ⟨j, i, h⟩
  · exact fun i j => lapackM.2 j i
  · rw [lapackF.2, Finset.sum_comm]
    rfl

/-- **C103 (refuted: One and Infinity).** For every LAPACK: the 1-norm of [[1, 2], [3, 4]] is 6, `norm(Norm::One, A)` is 7;
its ∞-norm is 7, `norm(Norm::Infinity, A)` is 6. -/
theorem C103_one_refuted (lange : LangeFn ℚ)
    (lapack1 : IsMaxColSum 2 2 (mat 2 2 (tr (rows [[1, 2], [3, 4]]))) (lange .one 2 2 (crop 2 2 (tr (rows [[1, 2], [3, 4]])))))
    (lapackI : IsMaxRowSum 2 2 (mat 2 2 (tr (rows [[1, 2], [3, 4]])))
      (lange .infinity 2 2 (crop 2 2 (tr (rows [[1, 2], [3, 4]]))))) :
    IsMaxColSum 2 2 (mat 2 2 (rows [[1, 2], [3, 4]])) 6 ∧ IsMaxRowSum 2 2 (mat 2 2 (rows [[1, 2], [3, 4]])) 7 ∧
    norm lange .one ⟨[1, 2, 3, 4], 0, [2, 2], [2, 1]⟩ = .ok 7 ∧
    norm lange .infinity ⟨[1, 2, 3, 4], 0, [2, 2], [2, 1]⟩ = .ok 6 := by
  have hA : Holds (⟨[1, 2, 3, 4], 0, [2, 2], [2, 1]⟩ : Strided ℚ) (mat 2 2 (rows [[1, 2], [3, 4]])) :=
    holds_rows _ rfl _ (by decide +kernel)
  have h := colsAt_swap ((holdsMat_iff hA.dims (ld := 2) rfl _).1 hA)
  have key : ∀ ty, norm lange ty ⟨[1, 2, 3, 4], 0, [2, 2], [2, 1]⟩ = .ok (lange ty 2 2 (crop 2 2 (tr (rows [[1, 2], [3, 4]])))) := by
    intro ty
    unfold norm
    rw [if_neg (by decide)]
    show (colMat 2 2 _ 0 2 >>= _) = _
    rw [colMat_ok h]
    rfl
  rw [key, key]
  refine ⟨⟨⟨1, by decide +kernel⟩, by decide +kernel⟩, ⟨⟨1, by decide +kernel⟩, by decide +kernel⟩, ?_, ?_⟩
  · congr 1
    obtain ⟨⟨j, hj⟩, hle⟩ := lapack1
    apply le_antisymm
    · rw [hj]
      clear hj hle
      revert j
      decide +kernel
    · refine le_trans ?_ (hle 1)
      decide +kernel
  · congr 1
    obtain ⟨⟨j, hj⟩, hle⟩ := lapackI
    apply le_antisymm
    · rw [hj]
      clear hj hle
      revert j
      decide +kernel
    · refine le_trans ?_ (hle 1)
      decide +kernel

/-- **C103 (refuted for matrices that are not square).** `norm` of every such matrix is undefined: with fewer rows than
columns LAPACK reads outside the storage, with more it is given a leading dimension below the number of rows. -/
theorem C103_shape_refuted [Zero R] (lange : LangeFn R) (type : NormType) (m n : Nat) (hm : 0 < m) (hn : 0 < n)
    (hmn : m ≠ n) (A : Strided R) (w : A.IsTensor) (d : A.dims = [m, n]) : (norm lange type A).isUb = true := by
  have d0 : A.dim 0 = m := by simp [Strided.dim, d]
  have d1 : A.dim 1 = n := by simp [Strided.dim, d]
  have st : A.stride 0 = n := by simp [Strided.stride, tensor_strides2 w d]
  have hlen : A.data.length = m * n := by rw [w.length, d]; simp [numel]
  unfold norm
  simp only [d0, d1, st]
  split
  · rfl
  · have : colMat m n A.data A.off n = .ub "LAPACK reads outside the storage" := by
      unfold colMat
      rw [if_neg]
      rw [List.all_eq_true]
      intro hall
      have := hall (0, n - 1) (mem_colPairs.2 ⟨hm, by simp only; omega⟩)
      simp only [decide_eq_true_eq] at this
      have h2 : m * n ≤ (n - 1) * n := Nat.mul_le_mul_right n (by omega)
      omega
    rw [this]
    rfl

/-- The hypotheses of C103 are met: the 2×2 matrix of ones has the norms 1, 2, 2, 2. -/
example : ∃ v, norm (fun t _ _ _ => if t = .maxAbs then (1 : ℚ) else 2) .frobenius ⟨[1, 1, 1, 1], 0, [2, 2], [2, 1]⟩ = .ok v ∧
    IsFrobenius 2 2 (mat 2 2 (rows [[1, 1], [1, 1]])) v :=
  (C103_norm_partial (fun t _ _ _ => if t = .maxAbs then (1 : ℚ) else 2) 2 2 (by decide)
    ⟨[1, 1, 1, 1], 0, [2, 2], [2, 1]⟩ rfl (by decide) (rows [[1, 1], [1, 1]]) (holds_rows _ rfl _ (by decide +kernel))
    ⟨⟨0, 0, by decide +kernel⟩, by decide +kernel⟩ ⟨by decide +kernel, by decide +kernel⟩
    ⟨⟨0, by decide +kernel⟩, by decide +kernel⟩ ⟨⟨0, by decide +kernel⟩, by decide +kernel⟩).2.1

end Einsums.Props
