import Mathlib.Tactic.Linarith
import Verif.Proofs.HipBlas
/-
C144, C145: the matrix and vector functions of the GPU backend (hipblas.hip), which take host pointers.

`HostMat mem off ld m n f` (Spec/HipBlas.lean): the storage holds, column by column, the m×n matrix f; `HostVec` the same for vectors.
`conj` is the complex conjugate (the identity for real types), `junk` is the content of new device memory.  (For alpha = 0 the hipBLAS
routines may return without an access; the refutations that rest on their accesses are therefore stated for alpha ≠ 0.)
-/
namespace Einsums.Props
open Spec Model

variable {R : Type} [CommSemiring R] [BEq R] [LawfulBEq R]

/-! ### C144: gemm, gemv -/

/-- **C144 (partial, gemm).** For a square result, square transposed operands and operands of which the allocation contains all
columns to their ends, `gemm` sets C to alpha·op(A)·op(B) + beta·C (column-major) and changes nothing else, provided that C has no
gaps if beta = 0 and ldc = k.  Missing: other shapes and submatrices (refuted below). -/
theorem C144_gemm_partial (conj : R → R) (junk : Nat → R) (ta tb : Char) (m k : Nat) (alpha : R) (a : List R) (aoff lda : Nat)
    (b : List R) (boff ldb : Nat) (beta : R) (c : List R) (coff ldc : Nat) (f g h : Nat → Nat → R)
    (hta : ta ∈ ['N', 'n', 'T', 't', 'C', 'c']) (htb : tb ∈ ['N', 'n', 'T', 't', 'C', 'c'])
    (hm : 0 < m) (hk : 0 < k) (ka : Transposes ta → k = m) (kb : Transposes tb → k = m)
    (hlda : m ≤ lda) (hldb : k ≤ ldb) (hldc : m ≤ ldc) (gap : beta = 0 → ldc = k → ldc = m)
    (oa : k * lda < 2 ^ 31) (ob : ldb * m < 2 ^ 31) (oc : m * ldc < 2 ^ 31)
    (sa : aoff + k * lda ≤ a.length) (sb : boff + ldb * m ≤ b.length) (sc : coff + m * ldc ≤ c.length)
    (ha : HostMat a aoff lda m k f) (hb : HostMat b boff ldb k m g) (hc : HostMat c coff ldc m m h) :
    ∃ c', backendGemm conj junk ta tb m m k alpha a aoff lda b boff ldb beta c coff ldc = .ok c' ∧
      HostMat c' coff ldc m m (fun i j => alpha * sumTo k (fun l => opAt conj ta f i l * opAt conj tb g l j) + beta * h i j) ∧
      SameOutsideMat c c' coff ldc m m := by
  obtain ⟨c', cg, e1, e2, e3, e4, e5, e6⟩ := backendGemm_core (conj := conj) (junk := junk) (alpha := alpha) (beta := beta) f g
    hta htb hm hk ka kb hlda hldb hldc (by simpa using oa) (by simpa using ob) (by simpa using oc) sa sb sc ha hb
  have hin : ∀ {i j : Nat}, i < m → j < m → i + j * ldc < m * ldc := by
    intro i j hi hj
    have : (j + 1) * ldc ≤ m * ldc := Nat.mul_le_mul_right _ hj
    rw [Nat.succ_mul] at this
    omega
  refine ⟨c', e1, fun i j hi hj => ?_, e2, fun q hq => ?_⟩
  · rw [e4 i j hi hj, e3 _ (hin hi hj)]
    have h1 := hc i j hi hj
    rw [← Nat.add_assoc, h1]
    have : ∀ old, beta * old = beta * h i j → blasValue alpha beta (accum k fun l => opAt conj ta f i l * opAt conj tb g l j) old
        = alpha * sumTo k (fun l => opAt conj ta f i l * opAt conj tb g l j) + beta * h i j := by
      intro old ho
      rw [blasValue_eq, accum_eq, ho, add_comm]
    split
    · simp only [Option.map_some]
      rw [this _ rfl]
    · rename_i hz
      simp only [Option.map_some]
      rw [this _ ?_]
      have : beta = 0 := by
        simp only [Bool.or_eq_true, Bool.not_eq_eq_eq_not, Bool.not_true, beq_eq_false_iff_ne, not_or, not_not] at hz
        exact hz.1
      rw [this, zero_mul, zero_mul]
  · by_cases hw : coff ≤ q ∧ q < coff + m * ldc
    · obtain ⟨p, rfl⟩ := Nat.exists_eq_add_of_le hw.1
      have hp : p < m * ldc := by omega
      have hnot : ∀ i j, i < m → j < m → p ≠ i + j * ldc := fun i j hi hj he => hq i j hi hj (by omega)
      rw [e5 p hp hnot, e3 p hp]
      split
      · rfl
      · rename_i hz
        exfalso
        simp only [Bool.or_eq_true, Bool.not_eq_eq_eq_not, Bool.not_true, beq_eq_false_iff_ne, not_or, not_not, bne_iff_ne] at hz
        have hl := gap hz.1 hz.2
        refine hnot (p % ldc) (p / ldc) ?_ ?_ ?_
        · rw [← hl]
          exact Nat.mod_lt _ (by omega)
        · exact Nat.div_lt_of_lt_mul (by rwa [Nat.mul_comm])
        · rw [Nat.mul_comm, Nat.mod_add_div]
    · exact e6 q (by omega)

omit [LawfulBEq R] in
/-- **C144 (refuted for wide results).** If C has more columns than rows, `gemm` computes in device memory that is too small: the
behaviour is undefined, for all contents of the matrices. -/
theorem C144_gemm_wide_refuted (conj : R → R) (junk : Nat → R) (ta tb : Char) (m n k : Nat) (alpha : R) (a : List R) (aoff lda : Nat)
    (b : List R) (boff ldb : Nat) (beta : R) (c : List R) (coff ldc : Nat)
    (hta : ta ∈ ['N', 'n', 'T', 't', 'C', 'c']) (htb : tb ∈ ['N', 'n', 'T', 't', 'C', 'c']) (_ha : alpha ≠ 0)
    (hm : 0 < m) (hmn : m < n) (hk : 0 < k)
    (hlda : (if Transposes ta then k else m) ≤ lda) (hldb : (if Transposes tb then n else k) ≤ ldb) (hldc : m ≤ ldc) :
    (backendGemm conj junk ta tb m n k alpha a aoff lda b boff ldb beta c coff ldc).isUb = true := by
  refine isUb_of (backendGemm_ne ?_ ?_ (by omega)) fun c' h => ?_
  · split at hlda <;> rename_i hT <;> simp only [hT, if_true, if_false] <;> omega
  · split at hldb <;> rename_i hT <;> simp only [hT, if_true, if_false] <;> omega
  obtain ⟨_, _, _, h4⟩ := backendGemm_inv hta htb h
  obtain ⟨h5, _⟩ := h4 0 m hm hmn
  omega

omit [LawfulBEq R] in
/-- **C144 (refuted for tall results, and for operands without the memory that the function copies).** `gemm` copies k columns of A, n
columns of B and m columns of C (leading dimension included), whatever the shapes: if one of these ends beyond the allocation, the
behaviour is undefined.  For C with m > n rows that is the case whenever nothing follows the n columns of C; for a transposed A when
k > m, for a transposed B when n > k, and for a submatrix in the last rows. -/
theorem C144_gemm_overread_refuted (conj : R → R) (junk : Nat → R) (ta tb : Char) (m n k : Nat) (alpha : R) (a : List R)
    (aoff lda : Nat) (b : List R) (boff ldb : Nat) (beta : R) (c : List R) (coff ldc : Nat)
    (hta : ta ∈ ['N', 'n', 'T', 't', 'C', 'c']) (htb : tb ∈ ['N', 'n', 'T', 't', 'C', 'c']) (hm : 0 < m) (hn : 0 < n) (hk : 0 < k)
    (hlda : (if Transposes ta then k else m) ≤ lda) (hldb : (if Transposes tb then n else k) ≤ ldb) (hldc : m ≤ ldc)
    (short : a.length < aoff + k * lda ∨ b.length < boff + ldb * n ∨ c.length < coff + m * ldc) :
    (backendGemm conj junk ta tb m n k alpha a aoff lda b boff ldb beta c coff ldc).isUb = true := by
  refine isUb_of (backendGemm_ne ?_ ?_ (by omega)) fun c' h => ?_
  · split at hlda <;> rename_i hT <;> simp only [hT, if_true, if_false] <;> omega
  · split at hldb <;> rename_i hT <;> simp only [hT, if_true, if_false] <;> omega
  obtain ⟨h1, h2, h3, _⟩ := backendGemm_inv hta htb h
  omega

omit [LawfulBEq R] in
/-- **C144 (refuted for transposed operands).** If A is transposed and k < m, or B is transposed and n < k, the device memory of that
operand is too small: the behaviour is undefined. -/
theorem C144_gemm_transposed_refuted (conj : R → R) (junk : Nat → R) (ta tb : Char) (m n k : Nat) (alpha : R) (a : List R)
    (aoff lda : Nat) (b : List R) (boff ldb : Nat) (beta : R) (c : List R) (coff ldc : Nat)
    (hta : ta ∈ ['N', 'n', 'T', 't', 'C', 'c']) (htb : tb ∈ ['N', 'n', 'T', 't', 'C', 'c']) (_ha : alpha ≠ 0)
    (hm : 0 < m) (hn : 0 < n) (hk : 0 < k)
    (hlda : (if Transposes ta then k else m) ≤ lda) (hldb : (if Transposes tb then n else k) ≤ ldb) (hldc : m ≤ ldc)
    (shape : (Transposes ta ∧ k < m) ∨ (Transposes tb ∧ n < k)) :
    (backendGemm conj junk ta tb m n k alpha a aoff lda b boff ldb beta c coff ldc).isUb = true := by
  refine isUb_of (backendGemm_ne ?_ ?_ (by omega)) fun c' h => ?_
  · split at hlda <;> rename_i hT <;> simp only [hT, if_true, if_false] <;> omega
  · split at hldb <;> rename_i hT <;> simp only [hT, if_true, if_false] <;> omega
  obtain ⟨_, _, _, h4⟩ := backendGemm_inv hta htb h
  rcases shape with ⟨hT, hs⟩ | ⟨hT, hs⟩
  · have h5 := ((h4 k 0 hs hn).2 0 hk).1
    rw [if_pos hT] at h5
    omega
  · have h5 := ((h4 0 0 hm hn).2 n hs).2
    rw [if_pos hT, Nat.mul_comm] at h5
    omega

/-- **C144 (refuted for results with gaps).** If beta = 0 and the leading dimension of C is k > m, the elements between the columns of
C (the other rows of the matrix that C is a part of) are overwritten with what the device memory contained. -/
theorem C144_gemm_gap_refuted (conj : R → R) (junk : Nat → R) (ta tb : Char) (m k : Nat) (alpha : R) (a : List R) (aoff lda : Nat)
    (b : List R) (boff ldb : Nat) (c : List R) (coff : Nat) (f g : Nat → Nat → R)
    (hta : ta ∈ ['N', 'n', 'T', 't', 'C', 'c']) (htb : tb ∈ ['N', 'n', 'T', 't', 'C', 'c'])
    (hm : 0 < m) (ka : ¬ Transposes ta) (kb : ¬ Transposes tb) (hk : m < k)
    (hlda : m ≤ lda) (hldb : k ≤ ldb) (oa : k * lda < 2 ^ 31) (ob : ldb * m < 2 ^ 31) (oc : m * k < 2 ^ 31)
    (sa : aoff + k * lda ≤ a.length) (sb : boff + ldb * m ≤ b.length) (sc : coff + m * k ≤ c.length)
    (ha : HostMat a aoff lda m k f) (hb : HostMat b boff ldb k m g) :
    ∃ c', backendGemm conj junk ta tb m m k alpha a aoff lda b boff ldb 0 c coff k = .ok c' ∧
      ∀ i j, m ≤ i → i < k → j < m → c'[coff + i + j * k]? = some (junk (i + j * k)) := by
  obtain ⟨c', cg, e1, e2, e3, e4, e5, e6⟩ := backendGemm_core (conj := conj) (junk := junk) (alpha := alpha) (beta := 0) f g
    hta htb hm (by omega) (fun h => absurd h ka) (fun h => absurd h kb) hlda hldb hk.le (by simpa using oa) (by simpa using ob)
    (by simpa using oc) sa sb sc ha hb
  refine ⟨c', e1, fun i j h1 h2 h3 => ?_⟩
  have hin : i + j * k < m * k := by
    have : (j + 1) * k ≤ m * k := Nat.mul_le_mul_right _ h3
    rw [Nat.succ_mul] at this
    omega
  rw [Nat.add_assoc, e5 _ hin, e3 _ hin]
  · rw [if_neg (by simp)]
  · intro i' j' hi' _ he
    have h4 : (i + j * k) % k = i := by rw [Nat.add_mul_mod_self_right, Nat.mod_eq_of_lt h2]
    have h5 : (i' + j' * k) % k = i' := by rw [Nat.add_mul_mod_self_right, Nat.mod_eq_of_lt (by omega)]
    rw [he, h5] at h4
    omega

/-- **C144 (refuted as a replacement of the CPU backend).** For the same arguments the two backends return different results: the CPU
backend takes row-major matrices. -/
theorem C144_not_row_major : ∃ (a b c r s : List Int), vendorGemm false false 2 2 2 1 a 0 2 b 0 2 0 c 0 2 = .ok r ∧
    (∀ junk, backendGemm id junk 'n' 'n' 2 2 2 1 a 0 2 b 0 2 0 c 0 2 = .ok s) ∧ r ≠ s :=
  ⟨[1, 1, 0, 1], [1, 0, 1, 1], [0, 0, 0, 0], [2, 1, 1, 1], [1, 1, 1, 2], by decide, fun junk => by rfl, by decide⟩

/-- **C144 (partial, gemv).** For a transposed or a square A, `gemv` sets y to alpha·op(A)·x + beta·y (column-major) and changes nothing
else, if the allocations contain all columns of A and n·inc elements of the vectors.  Missing: the product with a rectangular A that is
not transposed, and vectors that end with their last element (refuted below). -/
theorem C144_gemv_partial (conj : R → R) (junk : Nat → R) (t : Char) (m n : Nat) (alpha : R) (a : List R) (aoff lda : Nat)
    (x : List R) (xoff incx : Nat) (beta : R) (y : List R) (yoff incy : Nat) (f : Nat → Nat → R) (u v : Nat → R)
    (ht : t ∈ ['N', 'n', 'T', 't', 'C', 'c']) (hm : 0 < m) (hn : 0 < n) (sq : Transposes t ∨ m = n)
    (hlda : m ≤ lda) (hx : 0 < incx) (hy : 0 < incy)
    (oa : n * lda < 2 ^ 31) (ox : m * incx < 2 ^ 31) (oy : n * incy < 2 ^ 31)
    (sa : aoff + n * lda ≤ a.length) (sx : xoff + m * incx ≤ x.length) (sy : yoff + n * incy ≤ y.length)
    (ha : HostMat a aoff lda m n f) (hu : HostVec x xoff incx m u) (hv : HostVec y yoff incy n v) :
    ∃ y', backendGemv conj junk t m n alpha a aoff lda x xoff incx beta y yoff incy = .ok y' ∧
      HostVec y' yoff incy n (fun i => alpha * sumTo m (fun l => opAt conj t f i l * u l) + beta * v i) ∧
      SameOutsideVec y y' yoff incy n := by
  obtain ⟨y', yg, e1, e2, e3, e4, e5, e6⟩ := backendGemv_core (conj := conj) (junk := junk) (alpha := alpha) (beta := beta) f u
    ht hm hn sq hlda hx hy (by simpa using oa) (by simpa using ox) (by simpa using oy) sa sx sy ha hu
  refine ⟨y', e1, fun i hi => ?_, e2, fun q hq => ?_⟩
  · rw [e4 i hi, e3 _ (Nat.mul_lt_mul_of_pos_right hi hy), hv i hi]
    have : ∀ old, beta * old = beta * v i → blasValue alpha beta (accum m fun l => opAt conj t f i l * u l) old
        = alpha * sumTo m (fun l => opAt conj t f i l * u l) + beta * v i := by
      intro old ho
      rw [blasValue_eq, accum_eq, ho, add_comm]
    split
    · simp only [Option.map_some]
      rw [this _ rfl]
    · rename_i hz
      simp only [Option.map_some]
      rw [this _ ?_]
      have : beta = 0 := by
        simp only [Bool.or_eq_true, Bool.not_eq_eq_eq_not, Bool.not_true, beq_eq_false_iff_ne, not_or, not_not] at hz
        exact hz.1
      rw [this, zero_mul, zero_mul]
  · by_cases hw : yoff ≤ q ∧ q < yoff + n * incy
    · obtain ⟨p, rfl⟩ := Nat.exists_eq_add_of_le hw.1
      have hp : p < n * incy := by omega
      have hnot : ∀ i, i < n → p ≠ i * incy := fun i hi he => hq i hi (by omega)
      rw [e5 p hp hnot, e3 p hp]
      split
      · rfl
      · rename_i hz
        exfalso
        simp only [Bool.or_eq_true, Bool.not_eq_eq_eq_not, Bool.not_true, beq_eq_false_iff_ne, not_or, not_not, bne_iff_ne] at hz
        rw [hz.2] at hp hnot
        exact hnot p (by omega) (by omega)
    · exact e6 q (by omega)

omit [LawfulBEq R] in
/-- **C144 (refuted for rectangular matrices).** `gemv` of a matrix that is not transposed and not square has undefined behaviour, for
all shapes and contents. -/
theorem C144_gemv_rect_refuted (conj : R → R) (junk : Nat → R) (t : Char) (m n : Nat) (alpha : R) (a : List R) (aoff lda : Nat)
    (x : List R) (xoff incx : Nat) (beta : R) (y : List R) (yoff incy : Nat) (ht : t ∈ ['N', 'n']) (_ha : alpha ≠ 0) (hm : 0 < m)
    (_hn : 0 < n) (sq : m ≠ n) (hlda : m ≤ lda) (hx : 0 < incx) (hy : 0 < incy) :
    (backendGemv conj junk t m n alpha a aoff lda x xoff incx beta y yoff incy).isUb = true := by
  refine isUb_of (backendGemv_ne (by omega) hx hy) fun y' h => ?_
  obtain ⟨_, _, _, h4⟩ := backendGemv_inv (by simp at ht ⊢; tauto) h
  have hT : ¬ Transposes t := by
    rcases (by simpa using ht : t = 'N' ∨ t = 'n') with rfl | rfl <;> decide
  rw [if_neg hT, if_neg hT] at h4
  rcases Nat.lt_or_gt_of_ne sq with h | h
  · have := (h4 0 hm).2 m h
    omega
  · have := (h4 n h).1
    omega

omit [LawfulBEq R] in
/-- **C144 (refuted for vectors and matrices that end with their last element).** `gemv` copies all of m·incx elements from x, n·incy from
(and to) y and n·lda from A: if one of these ends beyond the allocation the behaviour is undefined. -/
theorem C144_gemv_overread_refuted (conj : R → R) (junk : Nat → R) (t : Char) (m n : Nat) (alpha : R) (a : List R) (aoff lda : Nat)
    (x : List R) (xoff incx : Nat) (beta : R) (y : List R) (yoff incy : Nat) (ht : t ∈ ['N', 'n', 'T', 't', 'C', 'c'])
    (hlda : max 1 m ≤ lda) (hx : 0 < incx) (hy : 0 < incy)
    (short : a.length < aoff + n * lda ∨ x.length < xoff + m * incx ∨ y.length < yoff + n * incy) :
    (backendGemv conj junk t m n alpha a aoff lda x xoff incx beta y yoff incy).isUb = true := by
  refine isUb_of (backendGemv_ne hlda hx hy) fun y' h => ?_
  obtain ⟨h1, h2, h3, _⟩ := backendGemv_inv ht h
  omega

/-! ### C145: scal, axpy, dot, ger -/

omit [BEq R] [LawfulBEq R] in
/-- **C145 (partial, scal).** If the allocation contains n·inc elements from the first one on, `scal` multiplies the n elements of the vector
by alpha and changes nothing else.  Missing: a vector that ends with its last element (refuted below). -/
theorem C145_scal_partial (n : Nat) (alpha : R) (x : List R) (xoff inc : Nat) (f : Nat → R) (h0 : 0 < inc) (ox : n * inc < 2 ^ 31)
    (sx : xoff + n * inc ≤ x.length) (hx : HostVec x xoff inc n f) :
    ∃ x', backendScal n alpha x xoff inc = .ok x' ∧ HostVec x' xoff inc n (fun i => alpha * f i) ∧
      SameOutsideVec x x' xoff inc n :=
  backendScal_ok h0 (by simpa using ox) sx hx

/-- **C145 (partial, axpy).** As for `scal`: y becomes y + alpha·x. -/
theorem C145_axpy_partial (n : Nat) (alpha : R) (x : List R) (xoff incx : Nat) (y : List R) (yoff incy : Nat) (f g : Nat → R)
    (hx0 : 0 < incx) (hy0 : 0 < incy) (ox : n * incx < 2 ^ 31) (oy : n * incy < 2 ^ 31) (sx : xoff + n * incx ≤ x.length)
    (sy : yoff + n * incy ≤ y.length) (hx : HostVec x xoff incx n f) (hy : HostVec y yoff incy n g) :
    ∃ y', backendAxpy n alpha x xoff incx y yoff incy = .ok y' ∧ HostVec y' yoff incy n (fun i => g i + alpha * f i) ∧
      SameOutsideVec y y' yoff incy n := by
  by_cases ha : alpha = 0
  · refine ⟨y, ?_, fun i hi => ?_, rfl, fun _ _ => rfl⟩
    · unfold backendAxpy
      rw [intMul_ok (by simpa using ox), intMul_ok (by simpa using oy)]
      simp only [Outcome.ok_bind]
      rw [if_pos (by simpa using ha)]
      rfl
    · simp only [ha, zero_mul, add_zero]
      exact hy i hi
  · exact backendAxpy_ok (by simpa using ha) hx0 hy0 (by simpa using ox) (by simpa using oy) sx sy hx hy

omit [BEq R] [LawfulBEq R] in
/-- **C145 (partial, dot).** As for `scal`: the result is Σ conj(xᵢ)·yᵢ; for real types that is the scalar product. -/
theorem C145_dot_partial (conj : R → R) (n : Nat) (x : List R) (xoff incx : Nat) (y : List R) (yoff incy : Nat) (f g : Nat → R)
    (hx0 : 0 < incx) (hy0 : 0 < incy) (ox : n * incx < 2 ^ 31) (oy : n * incy < 2 ^ 31) (sx : xoff + n * incx ≤ x.length)
    (sy : yoff + n * incy ≤ y.length) (hx : HostVec x xoff incx n f) (hy : HostVec y yoff incy n g) :
    backendDot conj n x xoff incx y yoff incy = .ok (sumTo n fun i => conj (f i) * g i) := by
  rw [backendDot_ok hx0 hy0 (by simpa using ox) (by simpa using oy) sx sy hx hy, accum_eq]

/-- **C145 (partial, ger).** For an m×n matrix A with at most as many columns as rows, in an allocation that would contain m columns: A becomes
A + alpha·x·conj(y)ᵀ; for real types that is the rank-1 update.  Missing: wide A and allocations that end with A (refuted below). -/
theorem C145_ger_partial (conj : R → R) (m n : Nat) (alpha : R) (x : List R) (xoff incx : Nat) (y : List R) (yoff incy : Nat)
    (a : List R) (aoff lda : Nat) (f : Nat → Nat → R) (u v : Nat → R) (hm : 0 < m) (hnm : n ≤ m) (hx0 : 0 < incx) (hy0 : 0 < incy) (hlda : m ≤ lda)
    (ox : m * incx < 2 ^ 31) (oy : n * incy < 2 ^ 31) (oa : m * lda < 2 ^ 31)
    (sx : xoff + m * incx ≤ x.length) (sy : yoff + n * incy ≤ y.length) (sa : aoff + m * lda ≤ a.length)
    (hx : HostVec x xoff incx m u) (hy : HostVec y yoff incy n v) (ha : HostMat a aoff lda m n f) :
    ∃ a', backendGer conj m n alpha x xoff incx y yoff incy a aoff lda = .ok a' ∧
      HostMat a' aoff lda m n (fun i j => f i j + alpha * u i * conj (v j)) ∧ SameOutsideMat a a' aoff lda m n := by
  by_cases ha0 : alpha = 0
  · refine ⟨a, ?_, fun i j hi hj => ?_, rfl, fun _ _ => rfl⟩
    · unfold backendGer
      rw [intMul_ok (by simpa using ox), intMul_ok (by simpa using oy), intMul_ok (by simpa using oa)]
      simp only [Outcome.ok_bind]
      rw [if_pos (by simpa using ha0)]
      rfl
    · simp only [ha0, zero_mul, add_zero]
      exact ha i j hi hj
  · exact backendGer_ok (by simpa using ha0) hm hnm hx0 hy0 hlda (by simpa using ox) (by simpa using oy) (by simpa using oa) sx sy sa
      hx hy ha

/-- A concrete case: a 2×1 matrix in an allocation of two columns of three. -/
example : backendGer (fun x : Int => x) 2 1 10 [1, 2, 3, 4] 0 2 [5] 0 1 [1, 2, 3, 4, 5, 6] 0 3 = .ok [51, 152, 3, 4, 5, 6] := by decide

omit [BEq R] [LawfulBEq R] in
/-- **C145 (refuted for vectors that end with their last element, scal).** The vector has (n-1)·inc + 1 elements; if the allocation ends
before n·inc, the behaviour is undefined; for example for every row but the first of a column-major matrix. -/
theorem C145_scal_refuted (n : Nat) (alpha : R) (x : List R) (xoff inc : Nat) (short : x.length < xoff + n * inc) :
    (backendScal n alpha x xoff inc).isUb = true := by
  unfold backendScal
  by_cases o : n * inc < 2147483648
  · rw [intMul_ok o]
    simp only [Outcome.ok_bind]
    unfold hostRead
    rw [if_neg (by omega)]
    rfl
  · unfold intMul
    rw [if_neg o]
    rfl

/-- **C145 (refuted for vectors that end with their last element, axpy).** -/
theorem C145_axpy_refuted (n : Nat) (alpha : R) (x : List R) (xoff incx : Nat) (y : List R) (yoff incy : Nat) (ha : alpha ≠ 0)
    (short : x.length < xoff + n * incx ∨ y.length < yoff + n * incy) :
    (backendAxpy n alpha x xoff incx y yoff incy).isUb = true := by
  refine isUb_of ?_ fun y' h => ?_
  · unfold backendAxpy
    refine noErr_bind intMul_ne fun _ => noErr_bind intMul_ne fun _ => ?_
    split
    · rfl
    · refine noErr_bind hostRead_ne fun _ => noErr_bind hostRead_ne fun _ => noErr_bind ?_ fun _ => hostWrite_ne
      exact memLoop_ne (p := fun i : Nat => 0 + i * incy) fun i old => noErr_bind memGet_ne fun _ => rfl
  · unfold backendAxpy at h
    obtain ⟨sx, e1, h⟩ := ok_of_bind h
    obtain ⟨sy, e2, h⟩ := ok_of_bind h
    rw [if_neg (by simpa using ha)] at h
    obtain ⟨xg, e3, h⟩ := ok_of_bind h
    obtain ⟨yg, e4, h⟩ := ok_of_bind h
    rw [intMul_inv e1] at e3
    rw [intMul_inv e2] at e4
    have h1 := (hostRead_inv e3).1
    have h2 := (hostRead_inv e4).1
    omega

omit [BEq R] [LawfulBEq R] in
/-- **C145 (refuted for vectors that end with their last element, dot).** -/
theorem C145_dot_refuted (conj : R → R) (n : Nat) (x : List R) (xoff incx : Nat) (y : List R) (yoff incy : Nat)
    (short : x.length < xoff + n * incx ∨ y.length < yoff + n * incy) :
    (backendDot conj n x xoff incx y yoff incy).isUb = true := by
  refine isUb_of ?_ fun v h => ?_
  · unfold backendDot
    exact noErr_bind intMul_ne fun _ => noErr_bind intMul_ne fun _ => noErr_bind hostRead_ne fun _ => noErr_bind hostRead_ne fun _ =>
      sumLoop_ne fun l => noErr_bind memGet_ne fun _ => noErr_bind memGet_ne fun _ => rfl
  · unfold backendDot at h
    obtain ⟨sx, e1, h⟩ := ok_of_bind h
    obtain ⟨sy, e2, h⟩ := ok_of_bind h
    obtain ⟨xg, e3, h⟩ := ok_of_bind h
    obtain ⟨yg, e4, h⟩ := ok_of_bind h
    rw [intMul_inv e1] at e3
    rw [intMul_inv e2] at e4
    have h1 := (hostRead_inv e3).1
    have h2 := (hostRead_inv e4).1
    omega

omit [BEq R] [LawfulBEq R] in
/-- **C145 (refuted for complex numbers, dot).** The complex `dot` conjugates x, which that of the CPU backend does not: the results differ
for every x whose only element is not real and y = (1). -/
theorem C145_dot_complex_refuted (conj : R → R) (z : R) (hz : conj z ≠ z) :
    blasDot 1 [z] 0 1 [1] 0 1 = .ok z ∧ ∃ s, backendDot conj 1 [z] 0 1 [1] 0 1 = .ok s ∧ s ≠ z := by
  constructor
  · simp [blasDot, sumLoop, memGet]
  · refine ⟨conj z, ?_, hz⟩
    simp [backendDot, intMul, hostRead, blasDot, sumLoop, memGet]

/-- **C145 (refuted for wide matrices, ger).** If A has more columns than rows, its device memory is too small: the behaviour is undefined.
If it has more rows than columns, the memory after its n columns is read and written: undefined if the allocation ends before m columns. -/
theorem C145_ger_refuted (conj : R → R) (m n : Nat) (alpha : R) (x : List R) (xoff incx : Nat) (y : List R) (yoff incy : Nat)
    (a : List R) (aoff lda : Nat) (ha : alpha ≠ 0) (hm : 0 < m) (hx0 : 0 < incx) (hy0 : 0 < incy) (hlda : m ≤ lda)
    (bad : m < n ∨ a.length < aoff + m * lda) :
    (backendGer conj m n alpha x xoff incx y yoff incy a aoff lda).isUb = true := by
  refine isUb_of ?_ fun a' h => ?_
  · unfold backendGer
    refine noErr_bind intMul_ne fun _ => noErr_bind intMul_ne fun _ => noErr_bind intMul_ne fun _ => ?_
    split
    · rfl
    · refine noErr_bind hostRead_ne fun _ => noErr_bind hostRead_ne fun _ => noErr_bind hostRead_ne fun _ =>
        noErr_bind ?_ fun _ => hostWrite_ne
      unfold fortranGer
      rw [if_neg (by omega)]
      exact memLoop_ne (p := fun ij : Nat × Nat => 0 + ij.1 + ij.2 * lda) fun ij old =>
        noErr_bind memGet_ne fun _ => noErr_bind memGet_ne fun _ => rfl
  · unfold backendGer at h
    obtain ⟨sx, e1, h⟩ := ok_of_bind h
    obtain ⟨sy, e2, h⟩ := ok_of_bind h
    obtain ⟨sa, e3, h⟩ := ok_of_bind h
    rw [if_neg (by simpa using ha)] at h
    obtain ⟨xg, e4, h⟩ := ok_of_bind h
    obtain ⟨yg, e5, h⟩ := ok_of_bind h
    obtain ⟨ag, e6, h⟩ := ok_of_bind h
    obtain ⟨ag', e7, h⟩ := ok_of_bind h
    rw [intMul_inv e3] at e6
    obtain ⟨h1, h2⟩ := hostRead_inv e6
    unfold fortranGer at e7
    rw [if_neg (by omega)] at e7
    obtain ⟨_, h3⟩ := memLoop_inv (p := fun ij : Nat × Nat => 0 + ij.1 + ij.2 * lda) (g := fun ij old => do
      let u ← memGet xg (0 + ij.1 * incx)
      let v ← memGet (yg.map conj) (0 + ij.2 * incy)
      return old + alpha * u * v) e7
    rcases bad with hb | hb
    · have h4 := (h3 (0, m) (mem_colPairs.2 ⟨hm, hb⟩)).1
      simp only at h4
      omega
    · omega

/-- **C145 (refuted for complex numbers, ger).** The complex `ger` conjugates y, which that of the CPU backend does not. -/
theorem C145_ger_complex_refuted (conj : R → R) (z : R) (hz : conj z ≠ z) (one : (1 : R) ≠ 0) :
    vendorGer 1 1 1 [1] 0 1 [z] 0 1 [0] 0 1 = .ok [z] ∧
      ∃ s, backendGer conj 1 1 1 [1] 0 1 [z] 0 1 [0] 0 1 = .ok [s] ∧ s ≠ z := by
  constructor
  · simp [vendorGer, fortranGer, colPairs, memUpd, memGet]
  · refine ⟨conj z, ?_, hz⟩
    simp [backendGer, intMul, hostRead, hostWrite, fortranGer, colPairs, memUpd, memGet, one]

/-! ### The hypotheses are met -/

/-- A 2×2 product of submatrices with gaps, the first operand transposed. -/
example : ∃ c' : List Int, backendGemm id (fun _ => 99) 't' 'N' 2 2 2 3 [1, 2, 9, 3, 4, 9] 0 3 [0, 5, 6, 7, 8] 1 2 2 [7, 1, 1, 7, 7, 1, 1, 7, 7]
    1 4 = .ok c' ∧ c' = [7, 53, 119, 7, 7, 71, 161, 7, 7] := ⟨_, by rfl, by decide⟩

example : HostMat [1, 2, 9, 3, 4, 9] 0 3 2 2 (fun i j => ((if i = 0 then 1 else 2) + 2 * j : Int)) := by
  intro i j hi hj
  have h1 : i = 0 ∨ i = 1 := by omega
  have h2 : j = 0 ∨ j = 1 := by omega
  rcases h1 with rfl | rfl <;> rcases h2 with rfl | rfl <;> decide

/-- gemv of a transposed 2×3 matrix. -/
example : backendGemv id (fun _ => 99) 'T' 2 3 1 [1, 2, 3, 4, 5, 6] 0 2 [1, 0, 10, 0] 0 2 2 [1, 1, 1] 0 1 =
    Outcome.ok ([23, 45, 67] : List Int) := by rfl

/-- The vectors of the refutations: two elements, 2 apart, at the end of an allocation. -/
example : HostVec [5, 0, 6] 0 2 2 (fun i => (5 + i : Int)) ∧ (backendScal 2 (3 : Int) [5, 0, 6] 0 2).isUb = true ∧
    backendScal 2 (3 : Int) [5, 0, 6, 0] 0 2 = .ok [15, 0, 18, 0] := by
  refine ⟨fun i hi => ?_, C145_scal_refuted _ _ _ _ _ (by decide), by rfl⟩
  have : i = 0 ∨ i = 1 := by omega
  rcases this with rfl | rfl <;> decide

example : backendAxpy 2 (3 : Int) [5, 0, 6, 0] 0 2 [1, 1] 0 1 = .ok [16, 19] ∧
    backendDot id 2 ([5, 0, 6, 0] : List Int) 0 2 [1, 10] 0 1 = .ok 65 ∧
    backendGer id 2 2 (2 : Int) [1, 10] 0 1 [3, 4] 0 1 [0, 0, 0, 0] 0 2 = .ok [6, 60, 8, 80] := ⟨by rfl, by rfl, by rfl⟩

end Einsums.Props
