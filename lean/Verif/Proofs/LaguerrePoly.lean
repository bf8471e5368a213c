import Verif.Spec.Laguerre
import Mathlib.Tactic.Ring
import Mathlib.Tactic.FieldSimp
import Mathlib.Tactic.LinearCombination
import Mathlib.Algebra.CharZero.Defs
import Mathlib.Data.Nat.Cast.Field
import Mathlib.Data.Nat.Factorial.Basic
/-
The three-term recurrence and the derivative of the Laguerre polynomials.
-/
namespace Einsums
open Polynomial Spec

variable {K : Type} [Field K]

theorem laguerre_coeff (k i : Nat) :
    (laguerre k : K[X]).coeff i = (-1) ^ i * (k.choose i : K) / (i.factorial : K) := by
  unfold laguerre
  rw [Polynomial.finsetSum_coeff]
  simp only [coeff_C_mul, coeff_X_pow]
  by_cases h : i < k + 1
  · rw [Finset.sum_eq_single i]
    · simp
    · intro b _ hb; rw [if_neg (Ne.symm hb), mul_zero]
    · intro hn; exact absurd (Finset.mem_range.2 h) hn
  · rw [Nat.choose_eq_zero_of_lt (by omega), Finset.sum_eq_zero]
    · simp
    · intro b hb
      rw [if_neg (by rintro rfl; exact h (Finset.mem_range.1 hb)), mul_zero]

theorem laguerre_zero : (laguerre 0 : K[X]) = 1 := by
  ext i
  rw [laguerre_coeff, coeff_one]
  cases i <;> simp

theorem laguerre_one : (laguerre 1 : K[X]) = 1 - X := by
  ext i
  rw [laguerre_coeff, coeff_sub, coeff_one, coeff_X]
  match i with
  | 0 => simp
  | 1 => simp
  | i + 2 => simp [Nat.choose_eq_zero_of_lt (show 1 < i + 2 by omega)]

variable [CharZero K]

theorem laguerre_rec (k : Nat) :
    C ((k : K) + 2) * laguerre (k + 2) = (C (2 * (k : K) + 3) - X) * laguerre (k + 1) - C ((k : K) + 1) * laguerre k := by
  ext i
  rw [sub_mul, coeff_sub, coeff_sub, coeff_C_mul, coeff_C_mul, coeff_C_mul]
  cases i with
  | zero => simp [laguerre_coeff]; ring
  | succ i =>
    rw [coeff_X_mul]
    simp only [laguerre_coeff]
    have f1 : ((i.factorial : Nat) : K) ≠ 0 := by exact_mod_cast Nat.factorial_ne_zero i
    have f2 : ((i : K) + 1) ≠ 0 := by exact_mod_cast Nat.succ_ne_zero i
    have e1 : ((k + 2).choose (i + 1) : K) = (k + 1).choose i + (k + 1).choose (i + 1) := by
      exact_mod_cast Nat.choose_succ_succ (k + 1) i
    have e2 : ((k + 1).choose (i + 1) : K) = k.choose i + k.choose (i + 1) := by
      exact_mod_cast Nat.choose_succ_succ k i
    have e3 : ((k : K) + 1) * k.choose i = (k + 1).choose i * ((k : K) + 1 - i) := by
      by_cases h : i ≤ k + 1
      · have := Nat.choose_mul_succ_eq k i
        have h2 : ((k.choose i * (k + 1) : Nat) : K) = (((k + 1).choose i * (k + 1 - i) : Nat) : K) := by rw [this]
        rw [Nat.cast_mul, Nat.cast_mul, Nat.cast_sub h] at h2
        push_cast at h2
        linear_combination h2
      · rw [Nat.choose_eq_zero_of_lt (by omega), Nat.choose_eq_zero_of_lt (by omega : k + 1 < i)]; simp
    rw [Nat.factorial_succ, pow_succ]
    push_cast
    field_simp
    rw [e1, e2]
    linear_combination e3

theorem laguerre_derivative (k : Nat) :
    derivative (laguerre (k + 1) : K[X]) = derivative (laguerre k) - laguerre k := by
  ext i
  rw [coeff_sub, coeff_derivative, coeff_derivative]
  simp only [laguerre_coeff]
  have f1 : ((i.factorial : Nat) : K) ≠ 0 := by exact_mod_cast Nat.factorial_ne_zero i
  have f2 : ((i : K) + 1) ≠ 0 := by exact_mod_cast Nat.succ_ne_zero i
  have e1 : ((k + 1).choose (i + 1) : K) = k.choose i + k.choose (i + 1) := by
    exact_mod_cast Nat.choose_succ_succ k i
  rw [Nat.factorial_succ, pow_succ, e1]
  push_cast
  field_simp
  ring

theorem laguerre_derivative_sum (k : Nat) :
    derivative (laguerre k : K[X]) = -∑ j ∈ Finset.range k, laguerre j := by
  induction k with
  | zero => simp [laguerre_zero]
  | succ k ih => rw [laguerre_derivative, ih, Finset.sum_range_succ]; ring

end Einsums
