import Verif.Spec.Laguerre
import Mathlib.Tactic.Ring
import Mathlib.Tactic.FieldSimp
import Mathlib.Tactic.Linarith
import Mathlib.Tactic.Positivity
import Mathlib.Tactic.NormNum
import Mathlib.Algebra.Order.Floor.Ring
import Mathlib.Data.Nat.Log
/-
Rounding to a 24 bit significand.
-/
namespace Einsums
open Spec

theorem representable_nat {m : Nat} (h : m < 2 ^ 24) : Representable (m : ℚ) :=
  ⟨m, 0, by simp only [Nat.abs_cast]; exact_mod_cast h, by simp⟩

theorem Spec.NearestFloat.exact {fl : ℚ → ℚ} (h : NearestFloat fl) {x : ℚ} (hx : Representable x) : fl x = x := by
  have := h.nearest x x hx
  simp only [sub_self, abs_zero, abs_nonpos_iff] at this
  linarith

/-- A number at least 2^12 with a 24 bit significand is a multiple of 2^-11. -/
theorem representable_grid {y : ℚ} (h : Representable y) (hy : 2 ^ 12 ≤ y) : ∃ k : Int, y = k / 2048 := by
  obtain ⟨m, e, hm, rfl⟩ := h
  have hm' : (m : ℚ) < 2 ^ 24 := by
    have : m < 2 ^ 24 := lt_of_le_of_lt (le_abs_self m) hm
    exact_mod_cast this
  have he : -11 ≤ e := by
    by_contra hlt
    have h1 : (2 : ℚ) ^ e ≤ 2 ^ (-12 : Int) := zpow_le_zpow_right₀ (by norm_num) (by omega)
    have h2 : (0 : ℚ) < 2 ^ e := zpow_pos (by norm_num) e
    have h3 : (m : ℚ) * 2 ^ e < 2 ^ 24 * 2 ^ e := mul_lt_mul_of_pos_right hm' h2
    have h4 : (2 : ℚ) ^ 24 * 2 ^ e ≤ 2 ^ 24 * 2 ^ (-12 : Int) := mul_le_mul_of_nonneg_left h1 (by norm_num)
    have h5 : (2 : ℚ) ^ 24 * 2 ^ (-12 : Int) = 2 ^ 12 := by norm_num
    linarith
  obtain ⟨n, hn⟩ := Int.eq_ofNat_of_zero_le (show 0 ≤ e + 11 by omega)
  refine ⟨m * 2 ^ n, ?_⟩
  rw [show e = (n : Int) - 11 by omega, zpow_sub₀ (by norm_num)]
  push_cast
  norm_num
  ring

/-- The rounded quotient of two small numbers has the same ceiling as the quotient. -/
theorem ceil_float_div {fl : ℚ → ℚ} (h : NearestFloat fl) {m s : Nat} (hm : m < 2 ^ 24) (hs0 : 0 < s)
    (hs : s < 2 ^ 24) :
    ⌈fl ((m : ℚ) / s)⌉ = ⌈(m : ℚ) / s⌉ := by
  have hsQ : (0 : ℚ) < s := by exact_mod_cast hs0
  have hdm := Nat.div_add_mod m s
  have hml := Nat.mod_lt m hs0
  generalize hf : m / s = f at *
  generalize hr : m % s = r at *
  have hq : (m : ℚ) / s = f + r / s := by
    rw [← hdm]; push_cast; field_simp
  have hfm : f ≤ m := by rw [← hf]; exact Nat.div_le_self _ _
  by_cases hr0 : r = 0
  · rw [hq, hr0]
    simp only [Nat.cast_zero, zero_div, add_zero]
    rw [h.exact (representable_nat (by omega))]
  · have hrQ : (0 : ℚ) < r / s := by
      apply div_pos _ hsQ
      exact_mod_cast Nat.pos_of_ne_zero hr0
    have hr1 : (r : ℚ) / s < 1 := by rw [div_lt_one hsQ]; exact_mod_cast hml
    have hs1 : (1 : ℚ) / s ≤ r / s := by
      apply div_le_div_of_nonneg_right _ hsQ.le
      exact_mod_cast Nat.pos_of_ne_zero hr0
    have hc : ⌈(m : ℚ) / s⌉ = (f : Int) + 1 := by
      rw [Int.ceil_eq_iff, hq]
      push_cast
      constructor <;> linarith
    rw [hc, Int.ceil_eq_iff]
    push_cast
    have hs2 : 2 ≤ s := by
      by_contra hlt
      have : s = 1 := by omega
      subst this
      omega
    have hfs : f * s ≤ m := by rw [mul_comm]; omega
    have hf23 : f < 2 ^ 23 := by nlinarith
    constructor
    · -- above the floor
      have key : ∃ y : ℚ, Representable y ∧ (f : ℚ) < y ∧ y < f + 2 * (r / s) := by
        by_cases hf0 : f = 0
        · refine ⟨((1 : Int) : ℚ) * 2 ^ (-24 : Int), ⟨1, -24, by norm_num, rfl⟩, ?_, ?_⟩
          · rw [hf0]; norm_num
          · have h1 : (1 : ℚ) / 2 ^ 24 ≤ 1 / s := by
              apply one_div_le_one_div_of_le hsQ
              exact_mod_cast hs.le
            rw [hf0, zpow_neg]
            simp only [Int.cast_one, one_mul, Nat.cast_zero, zero_add, one_div] at h1 ⊢
            have h2 : ((2 : ℚ) ^ (24 : Int))⁻¹ = (2 ^ 24)⁻¹ := by norm_cast
            rw [h2]
            rw [one_div] at hs1
            linarith
        · have hl1 := Nat.pow_log_le_self 2 hf0
          have hl2 := Nat.lt_pow_succ_log_self (b := 2) (by norm_num) f
          generalize hl : Nat.log 2 f = l at *
          have hl22 : l ≤ 22 := by
            by_contra hlt
            have : 2 ^ 23 ≤ 2 ^ l := Nat.pow_le_pow_right (by norm_num) (by omega)
            omega
          have ht : 2 ^ l * 2 ^ (23 - l) = 2 ^ 23 := by rw [← pow_add]; congr 1; omega
          have ht' : (2 : ℚ) ^ l * 2 ^ (23 - l) = 2 ^ 23 := by exact_mod_cast ht
          generalize hT : 23 - l = T at *
          have hTQ : (0 : ℚ) < 2 ^ T := by positivity
          refine ⟨f + 1 / 2 ^ T, ⟨f * 2 ^ T + 1, -(T : Int), ?_, ?_⟩, ?_, ?_⟩
          · have h1 : (f + 1) * 2 ^ T ≤ 2 ^ (l + 1) * 2 ^ T := Nat.mul_le_mul_right _ hl2
            have h2 : 2 ^ (l + 1) * 2 ^ T = 2 ^ 24 := by rw [pow_succ, mul_assoc, mul_comm 2, ← mul_assoc, ht]; norm_num
            have h3 : 2 ≤ 2 ^ T := by
              calc 2 = 2 ^ 1 := rfl
                _ ≤ 2 ^ T := Nat.pow_le_pow_right (by norm_num) (by omega)
            have h4 : f * 2 ^ T + 1 < 2 ^ 24 := by
              rw [h2, add_mul] at h1
              omega
            rw [abs_of_nonneg (by positivity)]
            exact_mod_cast h4
          · rw [zpow_neg, zpow_natCast]
            push_cast
            field_simp
          · have : (0 : ℚ) < 1 / 2 ^ T := by positivity
            linarith
          · -- 1/2^T < 2/s
            have h1 : 2 ^ l * s < 2 ^ 24 := lt_of_le_of_lt (Nat.mul_le_mul_right s hl1) (by omega)
            have h1' : (2 : ℚ) ^ l * s < 2 ^ 24 := by exact_mod_cast h1
            have h2 : (s : ℚ) < 2 * 2 ^ T := by
              have hlp : (0 : ℚ) < 2 ^ l := by positivity
              have : (2 : ℚ) ^ l * s < 2 ^ l * (2 * 2 ^ T) := by
                calc (2 : ℚ) ^ l * s < 2 ^ 24 := h1'
                  _ = 2 * 2 ^ 23 := by norm_num
                  _ = 2 ^ l * (2 * 2 ^ T) := by rw [← ht']; ring
              exact lt_of_mul_lt_mul_left this hlp.le
            have h3 : (1 : ℚ) / 2 ^ T < 2 * (1 / s) := by
              rw [mul_one_div, div_lt_div_iff₀ hTQ hsQ]
              linarith
            linarith
      obtain ⟨y, hy, hy1, hy2⟩ := key
      have hn := h.nearest ((m : ℚ) / s) y hy
      rw [hq] at hn ⊢
      have h5 : |(f : ℚ) + r / s - y| < r / s := by
        rw [abs_lt]; constructor <;> linarith
      have h6 := lt_of_le_of_lt hn h5
      rw [abs_lt] at h6
      linarith
    · have hn := h.nearest ((m : ℚ) / s) ((f + 1 : Nat) : ℚ) (representable_nat (by omega))
      rw [hq] at hn ⊢
      push_cast at hn
      rw [abs_of_nonpos (by linarith : (f : ℚ) + r / s - (f + 1) ≤ 0)] at hn
      have := neg_abs_le ((f : ℚ) + r / s - fl (f + r / s))
      linarith
end Einsums
