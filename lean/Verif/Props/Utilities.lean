import Verif.Proofs.Utilities
import Mathlib.Data.Rat.Floor
import Mathlib.Tactic.Linarith
import Mathlib.Tactic.FieldSimp
import Mathlib.Algebra.Order.Archimedean.Basic
/-
C40 arange; C41 create_identity_tensor; C65 create_incremented_tensor, create_ones_tensor, diagonal, diagonal_like.
-/
namespace Einsums.Props
open Spec Model

section
variable {R : Type}

/-! ### C40: arange -/

/-- **C40 (floating point, partial).** Over an ordered field (floating point without rounding), with a positive step and
fewer than 2^31 elements: if the step divides `stop - start` evenly, `arange` returns exactly the values
`start + k * step` below `stop`, in order.  Missing: other steps, see `C40_field_refuted`. -/
theorem C40_field_partial {K : Type} [Field K] [LinearOrder K] [IsStrictOrderedRing K] [FloorRing K] (z : Nat → K)
    (start stop step : K) (hs : 0 < step) (m : Nat) (hm : stop - start = m * step) (hmax : m < 2 ^ 31) :
    ∃ t n, arange (fieldArith K) z start stop step = .ok t ∧ t.IsTensor ∧ t.dims = [n] ∧
      (∀ k : Nat, k < n ↔ start + k * step < stop) ∧ t.Represents fun i => start + (i.headD 0 : Nat) * step := by
  have hq : (stop - start) / step = (m : K) := by rw [hm]; field_simp
  have hstop : stop = start + m * step := by rw [← hm]; ring
  have hlt : ∀ k : Nat, k < m ↔ start + k * step < stop := by
    intro k
    rw [hstop, add_lt_add_iff_left, mul_lt_mul_iff_left₀ hs, Nat.cast_lt]
  have key := arange_eq (A := fieldArith K) (z := z) (start := start) (stop := stop) (step := step)
    (diff := stop - start) (n := m) (fun k => start + k * step) (by simp)
    (by
      simp only [fieldArith, decide_eq_false_iff_not, not_lt]
      rw [hstop]
      have : 0 ≤ (m : K) * step := by positivity
      linarith)
    rfl
    (by
      simp only [fieldArith, hq, if_neg hs.ne', Nat.cast_nonneg, if_true, Int.floor_natCast]
      rw [if_pos (by omega)])
    (by
      intro k _
      simp only [fieldArith]
      congr 1
      push_cast
      ring)
    (by
      intro k hk
      simp only [fieldArith, decide_eq_true_eq]
      exact (hlt k).1 hk)
  obtain ⟨t, h1, h2, h3, h4⟩ := key.2 (by
    simp only [fieldArith, decide_eq_false_iff_not]
    rw [← hlt]
    omega)
  exact ⟨t, m, h1, h2, h3, hlt, h4⟩

/-- **C40 (floating point, refuted).** Whenever the step does not divide `stop - start` evenly, `arange` writes past the
end of its result. -/
theorem C40_field_refuted {K : Type} [Field K] [LinearOrder K] [IsStrictOrderedRing K] [FloorRing K] (z : Nat → K)
    (start stop step : K) (hle : start ≤ stop) (hs : 0 < step) (hm : ∀ m : Nat, stop - start ≠ m * step)
    (hmax : (stop - start) / step < 2 ^ 31) :
    (arange (fieldArith K) z start stop step).isUb = true := by
  have hq0 : 0 ≤ (stop - start) / step := div_nonneg (by linarith) hs.le
  have hfl : 0 ≤ ⌊(stop - start) / step⌋ := Int.floor_nonneg.2 hq0
  have hmul : (stop - start) / step * step = stop - start := by field_simp
  have hN : ((⌊(stop - start) / step⌋.toNat : Nat) : Int) = ⌊(stop - start) / step⌋ := Int.toNat_of_nonneg hfl
  have hNK : ((⌊(stop - start) / step⌋.toNat : Nat) : K) = (⌊(stop - start) / step⌋ : K) := by
    rw [← Int.cast_natCast, hN]
  have hfle := Int.floor_le ((stop - start) / step)
  have hle2 : ∀ k : Nat, k ≤ ⌊(stop - start) / step⌋.toNat → start + k * step < stop := by
    intro k hk
    have h1 : (k : K) ≤ (stop - start) / step := by
      have : (k : K) ≤ (⌊(stop - start) / step⌋.toNat : Nat) := Nat.cast_le.2 hk
      rw [hNK] at this
      linarith
    have h2 : (k : K) * step ≤ stop - start := by
      rw [← hmul]
      exact mul_le_mul_of_nonneg_right h1 hs.le
    have h3 := lt_of_le_of_ne h2 (fun e => hm k e.symm)
    linarith
  refine (arange_eq (A := fieldArith K) (z := z) (start := start) (stop := stop) (step := step)
    (diff := stop - start) (n := ⌊(stop - start) / step⌋.toNat) (fun k => start + k * step) (by simp)
    (by
      simp only [fieldArith, decide_eq_false_iff_not, not_lt]
      exact hle)
    rfl
    (by
      simp only [fieldArith]
      rw [if_neg hs.ne', if_pos hq0, hN, if_pos]
      constructor
      · exact le_trans (by norm_num) hfl
      · rw [Int.floor_lt]
        exact_mod_cast hmax)
    (by
      intro k _
      simp only [fieldArith]
      congr 1
      push_cast
      ring)
    (by
      intro k hk
      simp only [fieldArith, decide_eq_true_eq]
      exact hle2 k hk.le)).1 ?_
  simp only [fieldArith, decide_eq_true_eq]
  exact hle2 _ le_rfl

/-- arange(1, 2, 1/4) over the rationals has the four elements 1, 5/4, 3/2, 7/4; arange(0, 1, 2/5) overruns. -/
example : ∃ t, arange (fieldArith ℚ) (fun _ => 7) 1 2 (1 / 4) = .ok t ∧ t.dims = [4] ∧ t.read [3] = .ok (7 / 4) := by
  obtain ⟨t, n, h1, h2, h3, h4, h5⟩ := C40_field_partial (K := ℚ) (fun _ => 7) 1 2 (1 / 4) (by norm_num) 4 (by norm_num)
    (by norm_num)
  have hn : n = 4 := by
    have a := (h4 3).2 (by norm_num)
    have b := fun h => (h4 4).1 h
    norm_num at b
    omega
  subst hn
  refine ⟨t, h1, h3, ?_⟩
  have := h5 [3] (by rw [h3]; decide)
  norm_num [toIdx] at this
  exact this
example : (arange (fieldArith ℚ) (fun _ => 7) 0 1 (2 / 5)).isUb = true := by
  refine C40_field_refuted _ _ _ _ (by norm_num) (by norm_num) ?_ (by norm_num)
  intro m h
  have h2 : (5 : ℚ) = ((2 * m : Nat) : ℚ) := by push_cast; linarith
  have h3 : 5 = 2 * m := by exact_mod_cast h2
  omega

theorem int_bmod {m : Nat} (h : m < 2 ^ 31) : (m : Int).bmod (2 ^ 32) = m := by
  rw [Int.bmod_eq_of_le] <;> omega

/-- **C40 (integers, partial).** For signed integers of `w` bits with a positive step, a difference that fits the type and
fewer than 2^31 elements: `arange` returns exactly the values `start + k * step` below `stop`, in order, if the step
divides the difference. -/
theorem C40_int_partial (w : Nat) (z : Nat → Int) (start stop step : Int) (hle : start ≤ stop) (hs : 0 < step)
    (h1 : -(2 ^ (w - 1)) ≤ start) (h2 : stop < 2 ^ (w - 1)) (h3 : stop - start < 2 ^ (w - 1))
    (hmax : (stop - start) / step < 2 ^ 31) (hdvd : step ∣ stop - start) :
    ∃ t n, arange (intArith w) z start stop step = .ok t ∧ t.IsTensor ∧ t.dims = [n] ∧
      (∀ k : Nat, k < n ↔ start + k * step < stop) ∧ t.Represents fun i => start + (i.headD 0 : Nat) * step := by
  obtain ⟨q, hq⟩ := hdvd
  have hq0 : 0 ≤ q := by
    by_contra hneg
    have : step * q < 0 := by nlinarith
    omega
  obtain ⟨m, rfl⟩ := Int.eq_ofNat_of_zero_le hq0
  have hdiv : (stop - start) / step = m := by rw [hq]; exact Int.mul_ediv_cancel_left _ hs.ne'
  have hstop : stop = start + m * step := by rw [← Int.mul_comm, ← hq]; ring
  have hlt : ∀ k : Nat, k < m ↔ start + k * step < stop := by
    intro k
    rw [hstop, add_lt_add_iff_left, mul_lt_mul_iff_left₀ hs]
    omega
  have hmle : (m : Int) ≤ stop - start := by
    rw [hq]; nlinarith
  have hbnd : ∀ k : Nat, k < m → start + ((k + 1 : Nat) : Int) * step ≤ stop := by
    intro k hk
    rw [hstop]
    have : ((k + 1 : Nat) : Int) * step ≤ m * step := by
      apply mul_le_mul_of_nonneg_right _ hs.le
      exact_mod_cast hk
    omega
  have key := arange_eq (A := intArith w) (z := z) (start := start) (stop := stop) (step := step)
    (diff := stop - start) (n := m) (fun k => start + k * step) (by simp)
    (by
      simp only [intArith, decide_eq_false_iff_not, not_lt]
      exact hle)
    (by
      simp only [intArith, signedResult]
      rw [if_pos ⟨by have : (0 : Int) < 2 ^ (w - 1) := by positivity
                     omega, h3⟩])
    (by
      simp only [intArith, signedResult]
      have htd : (stop - start).tdiv step = m := by
        rw [Int.tdiv_eq_ediv_of_nonneg (by omega), hdiv]
      rw [if_neg hs.ne', htd, if_pos ⟨by have : (0 : Int) < 2 ^ (w - 1) := by positivity
                                         omega, by omega⟩]
      simp only [Outcome.ok_bind, Outcome.pure_eq]
      rw [int_bmod (by omega)])
    (by
      intro k hk
      simp only [intArith, signedResult]
      have e : start + (k : Int) * step + step = start + ((k + 1 : Nat) : Int) * step := by push_cast; ring
      have hb := hbnd k hk
      have hp : 0 ≤ ((k + 1 : Nat) : Int) * step := by positivity
      rw [e, if_pos ⟨by omega, by omega⟩])
    (by
      intro k hk
      simp only [intArith, decide_eq_true_eq]
      exact (hlt k).1 hk)
  obtain ⟨t, g1, g2, g3, g4⟩ := key.2 (by
    simp only [intArith, decide_eq_false_iff_not]
    rw [← hlt]
    omega)
  exact ⟨t, m, g1, g2, g3, hlt, g4⟩

/-- **C40 (integers, refuted).** Otherwise it writes past the end of its result. -/
theorem C40_int_refuted (w : Nat) (z : Nat → Int) (start stop step : Int) (hle : start ≤ stop) (hs : 0 < step)
    (h1 : -(2 ^ (w - 1)) ≤ start) (h2 : stop < 2 ^ (w - 1)) (h3 : stop - start < 2 ^ (w - 1))
    (hmax : (stop - start) / step < 2 ^ 31) (hdvd : ¬ step ∣ stop - start) :
    (arange (intArith w) z start stop step).isUb = true := by
  have hq0 : 0 ≤ (stop - start) / step := Int.ediv_nonneg (by omega) hs.le
  obtain ⟨m, hm⟩ := Int.eq_ofNat_of_zero_le hq0
  have hmul := Int.mul_ediv_add_emod (stop - start) step
  have hmod := Int.emod_pos_of_not_dvd hdvd
  have hmod : 0 < (stop - start) % step := by
    rcases hmod with h | h
    · omega
    · exact h
  rw [hm] at hmul
  have hlt : ∀ k : Nat, k ≤ m → start + k * step < stop := by
    intro k hk
    have : (k : Int) * step ≤ m * step := by
      apply mul_le_mul_of_nonneg_right _ hs.le
      exact_mod_cast hk
    have e : (m : Int) * step = step * m := Int.mul_comm _ _
    omega
  have hmle : (m : Int) ≤ stop - start := by
    have : (m : Int) ≤ step * m := by nlinarith
    omega
  refine (arange_eq (A := intArith w) (z := z) (start := start) (stop := stop) (step := step)
    (diff := stop - start) (n := m) (fun k => start + k * step) (by simp)
    (by
      simp only [intArith, decide_eq_false_iff_not, not_lt]
      exact hle)
    (by
      simp only [intArith, signedResult]
      rw [if_pos ⟨by have : (0 : Int) < 2 ^ (w - 1) := by positivity
                     omega, h3⟩])
    (by
      simp only [intArith, signedResult]
      have htd : (stop - start).tdiv step = m := by
        rw [Int.tdiv_eq_ediv_of_nonneg (by omega), hm]
      rw [if_neg hs.ne', htd, if_pos ⟨by have : (0 : Int) < 2 ^ (w - 1) := by positivity
                                         omega, by omega⟩]
      simp only [Outcome.ok_bind, Outcome.pure_eq]
      rw [int_bmod (by omega)])
    (by
      intro k hk
      simp only [intArith, signedResult]
      have e : start + (k : Int) * step + step = start + ((k + 1 : Nat) : Int) * step := by push_cast; ring
      have hb := hlt (k + 1) hk
      have hp : 0 ≤ ((k + 1 : Nat) : Int) * step := by positivity
      rw [e, if_pos ⟨by omega, by omega⟩])
    (by
      intro k hk
      simp only [intArith, decide_eq_true_eq]
      exact hlt k hk.le)).1 ?_
  simp only [intArith, decide_eq_true_eq]
  exact hlt m le_rfl

/-- **C40 (refuted for many elements).** With 64-bit integers, `arange(0, 2^32)` computes zero elements and overruns;
`arange(0, 2^31)` throws. -/
theorem C40_large_refuted (z : Nat → Int) :
    (arange (intArith 64) z 0 (2 ^ 32) 1).isUb = true ∧ (arange (intArith 64) z 0 (2 ^ 31) 1).isError = true := by
  constructor <;> rfl

example : arange (intArith 32) (fun _ => 7) (-3) 6 3 = .ok ⟨[-3, 0, 3], 0, [3], [1]⟩ := by decide
example : (arange (intArith 32) (fun _ => 7) 0 10 3).isUb = true := by decide

/-! ### C41: create_identity_tensor -/

/-- **C41 (exactly when).** `create_identity_tensor` returns a tensor of the requested shape with 1 where all indices are
equal and 0 elsewhere if and only if no dimension is smaller than the first. -/
theorem C41_identity_partial [Zero R] [One R] (h01 : (1 : R) ≠ 0) (z : Nat → R) (dims : List Nat) (hd : dims ≠ []) :
    (∃ t, identityTensor z dims = .ok t ∧ t.IsTensor ∧ t.dims = dims ∧
      t.Represents fun i => if ∀ x ∈ i, ∀ y ∈ i, x = y then 1 else 0) ↔ ∀ d ∈ dims, dims.headD 0 ≤ d := by
  constructor
  · rintro ⟨t, h1, _, _, h4⟩
    exact identity_exact h01 z hd h1 h4
  · exact identity_ok z hd

/-- **C41 (refuted).** Shape (3, 4, 2): the element (2, 3, 0) is 1.  Shape (2, 1): out-of-range write. -/
theorem C41_refuted :
    (∃ t, identityTensor (fun _ => (7 : Int)) [3, 4, 2] = .ok t ∧ t.read [2, 3, 0] = .ok 1) ∧
    (identityTensor (fun _ => (7 : Int)) [2, 1]).isUb = true := ⟨⟨_, rfl, by decide⟩, by decide⟩

example : identityTensor (fun _ => (7 : Int)) [2, 3] = .ok ⟨[1, 0, 0, 0, 1, 0], 0, [2, 3], [3, 1]⟩ := by decide

/-! ### C65: other factories -/

/-- **C65 (incremented).** `create_incremented_tensor` counts the elements in row-major order from zero; the increment is
one, or 1 + i for complex numbers. -/
theorem C65_incremented [AddMonoid R] (unit : R) (z : Nat → R) (dims : List Nat) (hd : dims ≠ []) :
    ∃ t, incremented unit z dims = .ok t ∧ t.IsTensor ∧ t.dims = dims ∧ t.Represents fun i => rowMajor i dims • unit :=
  incremented_eq unit z hd

/-- **C65 (ones).** -/
theorem C65_ones [One R] (z : Nat → R) (dims : List Nat) (hd : dims ≠ []) :
    (onesTensor z dims).IsTensor ∧ (onesTensor z dims).dims = dims ∧ (onesTensor z dims).Represents fun _ => 1 :=
  setAll_mk' z hd 1

/-- **C65 (diagonal).** `diagonal(v)` is the square matrix with `v` on its diagonal and zero elsewhere. -/
theorem C65_diagonal [Zero R] (z : Nat → R) (v : Strided R) (n : Nat) (hn : v.dims = [n]) (f : List Nat → R)
    (hf : v.Represents f) :
    ∃ t, diagonal z v = .ok t ∧ t.IsTensor ∧ t.dims = [n, n] ∧
      ∀ i j, i < n → j < n → t.read (toIdx [i, j]) = .ok (if i = j then f [i] else 0) := by
  obtain ⟨t, h1, h2, h3, h4⟩ := diagonalOf_eq z hn hf (le_refl n) (le_refl n)
  refine ⟨t, ?_, h2, h3, ?_⟩
  · unfold diagonal
    rw [hn]
    exact h1
  · intro i j hi hj
    rw [h4 i j hi hj]
    simp [hi]

/-- **C65 (diagonal_like, partial).** `diagonal_like(v, like)` has the shape of `like`, with `v` on its diagonal and zero
elsewhere, provided that `v` is not longer than the diagonal. -/
theorem C65_diagonal_like_partial [Zero R] (z : Nat → R) (v like : Strided R) (n a b : Nat) (hn : v.dims = [n])
    (f : List Nat → R) (hf : v.Represents f) (hl : like.dims = [a, b]) (ha : n ≤ a) (hb : n ≤ b) :
    ∃ t, diagonalLike z v like = .ok t ∧ t.IsTensor ∧ t.dims = [a, b] ∧
      ∀ i j, i < a → j < b → t.read (toIdx [i, j]) = .ok (if i = j ∧ i < n then f [i] else 0) := by
  obtain ⟨t, h1, h2, h3, h4⟩ := diagonalOf_eq z hn hf ha hb
  refine ⟨t, ?_, h2, h3, h4⟩
  unfold diagonalLike
  rw [hl]
  exact h1

/-- **C65 (diagonal_like, refuted).** A longer vector: for `like` of shape (4, 2), the third element of `v` lands at
(3, 0), off the diagonal; for shape (2, 3) it is written outside. -/
theorem C65_diagonal_like_refuted :
    (∃ t, diagonalLike (fun _ => (7 : Int)) ⟨[5, 6, 8], 0, [3], [1]⟩ ⟨[0, 0, 0, 0, 0, 0, 0, 0], 0, [4, 2], [2, 1]⟩ = .ok t ∧
      t.read [3, 0] = .ok 8) ∧
    (diagonalLike (fun _ => (7 : Int)) ⟨[5, 6, 8], 0, [3], [1]⟩ ⟨[0, 0, 0, 0, 0, 0], 0, [2, 3], [3, 1]⟩).isUb = true :=
  ⟨⟨_, rfl, by decide⟩, by decide⟩

example : incremented (1 : Int) (fun _ => 7) [2, 3] = .ok ⟨[0, 1, 2, 3, 4, 5], 0, [2, 3], [3, 1]⟩ := by decide
example : diagonal (fun _ => (7 : Int)) ⟨[5, 6], 0, [2], [1]⟩ = .ok ⟨[5, 0, 0, 6], 0, [2, 2], [2, 1]⟩ := by decide
example : diagonalLike (fun _ => (7 : Int)) ⟨[5], 0, [1], [1]⟩ ⟨[1, 2, 3, 4], 0, [2, 2], [2, 1]⟩ =
    .ok ⟨[5, 0, 0, 0], 0, [2, 2], [2, 1]⟩ := by decide

end
end Einsums.Props
