import Mathlib.LinearAlgebra.Lagrange
import Mathlib.Data.Nat.Choose.Sum
import Mathlib.Algebra.Polynomial.FieldDivision
import Verif.Proofs.LaguerrePoly
/-
Gauss quadrature with the roots of a Laguerre polynomial, for the functional that maps `X ^ k` to `k!`.
-/
namespace Einsums
open Spec Polynomial

section
variable {K : Type} [Field K]

/-- The linear functional with the moments `k!`. -/
noncomputable def moment : K[X] →ₗ[K] K := Polynomial.lsum fun k => (k.factorial : K) • LinearMap.id

theorem moment_CX (a : K) (k : Nat) : moment (C a * X ^ k) = a * k.factorial := by
  rw [C_mul_X_pow_eq_monomial, moment, lsum_apply, sum_monomial_index _ _ (by simp)]
  simp [mul_comm]

theorem moment_C_mul (a : K) (p : K[X]) : moment (C a * p) = a * moment p := by
  rw [← smul_eq_C_mul, map_smul, smul_eq_mul]

theorem moment_one : moment (1 : K[X]) = 1 := by
  have := moment_CX (1 : K) 0
  simpa using this

variable [CharZero K]

theorem moment_laguerre (k : Nat) (hk : k ≠ 0) : moment (laguerre k : K[X]) = 0 := by
  unfold laguerre
  rw [map_sum]
  have : ∀ i ∈ Finset.range (k + 1), moment (C ((-1) ^ i * (k.choose i : K) / (i.factorial : K)) * X ^ i)
      = (((-1) ^ i * (k.choose i : Int) : Int) : K) := by
    intro i _
    rw [moment_CX, div_mul_cancel₀]
    · push_cast
      rfl
    · exact_mod_cast Nat.factorial_ne_zero i
  rw [Finset.sum_congr rfl this, ← Int.cast_sum, Int.alternating_sum_range_choose_of_ne hk, Int.cast_zero]

/-- The recurrence, solved for `X * L_k`. -/
theorem X_mul_laguerre (k : Nat) :
    X * (laguerre (k + 1) : K[X]) =
      C (2 * (k : K) + 3) * laguerre (k + 1) - C ((k : K) + 1) * laguerre k - C ((k : K) + 2) * laguerre (k + 2) := by
  rw [laguerre_rec]
  ring

theorem moment_X_pow_laguerre (m n : Nat) (h : m < n) : moment (X ^ m * laguerre n : K[X]) = 0 := by
  induction m generalizing n with
  | zero => simpa using moment_laguerre n (by omega)
  | succ m ih =>
    obtain ⟨k, rfl⟩ : ∃ k, n = k + 1 := ⟨n - 1, by omega⟩
    have : (X ^ (m + 1) * laguerre (k + 1) : K[X]) = C (2 * (k : K) + 3) * (X ^ m * laguerre (k + 1))
        - C ((k : K) + 1) * (X ^ m * laguerre k) - C ((k : K) + 2) * (X ^ m * laguerre (k + 2)) := by
      rw [pow_succ, mul_assoc, X_mul_laguerre]
      ring
    rw [this, map_sub, map_sub, moment_C_mul, moment_C_mul, moment_C_mul, ih _ (by omega), ih _ (by omega), ih _ (by omega)]
    simp

theorem moment_norm (n : Nat) : moment (X ^ n * laguerre n : K[X]) ≠ 0 := by
  induction n with
  | zero => simp [laguerre_zero, moment_one]
  | succ k ih =>
    have : (X ^ (k + 1) * laguerre (k + 1) : K[X]) = C (2 * (k : K) + 3) * (X ^ k * laguerre (k + 1))
        - C ((k : K) + 1) * (X ^ k * laguerre k) - C ((k : K) + 2) * (X ^ k * laguerre (k + 2)) := by
      rw [pow_succ, mul_assoc, X_mul_laguerre]
      ring
    have hk : (k : K) + 1 ≠ 0 := by exact_mod_cast Nat.succ_ne_zero k
    rw [this, map_sub, map_sub, moment_C_mul, moment_C_mul, moment_C_mul, moment_X_pow_laguerre k (k + 1) (by omega),
      moment_X_pow_laguerre k (k + 2) (by omega), mul_zero, mul_zero, sub_zero, zero_sub]
    exact neg_ne_zero.mpr (mul_ne_zero hk ih)

/-- Only the coefficient of the degree counts. -/
theorem moment_mul_laguerre (m : Nat) (g : K[X]) (hg : g.natDegree ≤ m) :
    moment (g * laguerre m) = g.coeff m * moment (X ^ m * laguerre m : K[X]) := by
  conv_lhs => rw [g.as_sum_range_C_mul_X_pow' (n := m + 1) (by omega)]
  rw [Finset.sum_mul, map_sum, Finset.sum_eq_single m]
  · rw [mul_assoc, moment_C_mul]
  · intro i hi hne
    rw [mul_assoc, moment_C_mul, moment_X_pow_laguerre i m (by have := Finset.mem_range.mp hi; omega), mul_zero]
  · intro h
    exact absurd (Finset.mem_range.mpr (by omega)) h

theorem moment_orthogonal (n : Nat) (g : K[X]) (hg : g.natDegree < n) : moment (g * laguerre n) = 0 := by
  rw [moment_mul_laguerre n g (by omega), coeff_eq_zero_of_natDegree_lt hg, zero_mul]

theorem laguerre_top (n : Nat) : (laguerre n : K[X]).coeff n ≠ 0 := by
  rw [laguerre_coeff, Nat.choose_self]
  have : (n.factorial : K) ≠ 0 := by exact_mod_cast Nat.factorial_ne_zero n
  simp [this]

theorem degree_laguerre (n : Nat) : (laguerre n : K[X]).natDegree = n := by
  apply natDegree_eq_of_le_of_coeff_ne_zero _ (laguerre_top n)
  rw [natDegree_le_iff_coeff_eq_zero]
  intro i hi
  rw [laguerre_coeff, Nat.choose_eq_zero_of_lt hi]
  simp

/-- The weight of a root. -/
noncomputable def rootWeight {n : Nat} (x : Fin n → K) (i : Fin n) : K := moment (Lagrange.basis Finset.univ x i)

/-- Exactness with those weights. -/
theorem rootWeight_exact {n : Nat} (x : Fin n → K) (hx : Function.Injective x)
    (hr : ∀ i, (laguerre n : K[X]).eval (x i) = 0) (p : K[X]) (hp : p.natDegree < 2 * n) :
    moment p = ∑ i, rootWeight x i * p.eval (x i) := by
  have hL : (laguerre n : K[X]) ≠ 0 := fun h => laguerre_top (K := K) n (by rw [h]; simp)
  have hdl : (laguerre n : K[X]).degree = n := by rw [degree_eq_natDegree hL, degree_laguerre]
  have hdec : p = laguerre n * (p / laguerre n) + p % laguerre n := (EuclideanDomain.div_add_mod p (laguerre n)).symm
  have hmod := degree_mod_lt p hL
  have hq : (p / laguerre n : K[X]).natDegree < n := by
    by_cases hz : p / (laguerre n : K[X]) = 0
    · rw [hz]
      simp
      omega
    · have hle : (laguerre n : K[X]).degree ≤ p.degree := by
        by_contra h
        exact hz ((Polynomial.div_eq_zero_iff hL).mpr (not_le.mp h))
      have := degree_add_div hL hle
      rw [← degree_mul] at this
      have h2 := natDegree_eq_of_degree_eq this
      rw [natDegree_mul hL hz, degree_laguerre] at h2
      omega
  have hint := Lagrange.eq_interpolate (s := Finset.univ) (v := x) (f := p % laguerre n) hx.injOn (by
    rw [Finset.card_univ, Fintype.card_fin, ← hdl]
    exact hmod)
  have heval : ∀ i, (p % laguerre n).eval (x i) = p.eval (x i) := by
    intro i
    conv_rhs => rw [hdec]
    rw [eval_add, eval_mul, hr i, zero_mul, zero_add]
  conv_lhs => rw [hdec]
  rw [map_add, mul_comm, moment_orthogonal n _ hq, zero_add, hint, Lagrange.interpolate_apply, map_sum]
  apply Finset.sum_congr rfl
  intro i _
  rw [moment_C_mul, heval i, rootWeight, mul_comm]

theorem rootWeight_sum {n : Nat} (hn : 0 < n) (x : Fin n → K) (hx : Function.Injective x)
    (hr : ∀ i, (laguerre n : K[X]).eval (x i) = 0) : ∑ i, rootWeight x i = 1 := by
  have := rootWeight_exact x hx hr 1 (by simp; omega)
  rw [moment_one] at this
  simpa using this.symm

/-- The weight of a root, from the derivative and the polynomial before. -/
theorem rootWeight_formula {n : Nat} (x : Fin (n + 1) → K) (hx : Function.Injective x)
    (hr : ∀ i, (laguerre (n + 1) : K[X]).eval (x i) = 0) (i : Fin (n + 1)) :
    rootWeight x i * ((laguerre n : K[X]).eval (x i) * (derivative (laguerre (n + 1) : K[X])).eval (x i)) =
      (laguerre (n + 1) : K[X]).coeff (n + 1) * moment (X ^ n * laguerre n : K[X]) := by
  obtain ⟨g, hg⟩ := dvd_iff_isRoot.mpr (hr i)
  have hL : (laguerre (n + 1) : K[X]) ≠ 0 := fun h => laguerre_top (K := K) (n + 1) (by rw [h]; simp)
  have hg0 : g ≠ 0 := by
    rintro rfl
    exact hL (by rw [hg, mul_zero])
  have hdeg : g.natDegree = n := by
    have := congrArg natDegree hg
    rw [degree_laguerre, natDegree_mul (X_sub_C_ne_zero _) hg0, natDegree_X_sub_C] at this
    omega
  have hcoeff : g.coeff n = (laguerre (n + 1) : K[X]).coeff (n + 1) := by
    rw [hg, sub_mul, coeff_sub, coeff_X_mul, coeff_C_mul, coeff_eq_zero_of_natDegree_lt (by omega : g.natDegree < n + 1)]
    simp
  have hder : (derivative (laguerre (n + 1) : K[X])).eval (x i) = g.eval (x i) := by
    rw [hg, derivative_mul]
    simp
  have hother : ∀ j, j ≠ i → g.eval (x j) = 0 := by
    intro j hj
    have := hr j
    rw [hg, eval_mul] at this
    simp only [eval_sub, eval_X, eval_C] at this
    rcases mul_eq_zero.mp this with h | h
    · exact absurd (hx (sub_eq_zero.mp h)) hj
    · exact h
  have hex := rootWeight_exact x hx hr (g * laguerre n) (by
    have := natDegree_mul_le (p := g) (q := (laguerre n : K[X]))
    rw [hdeg, degree_laguerre] at this
    omega)
  rw [moment_mul_laguerre n g (by omega), hcoeff, Finset.sum_eq_single i] at hex
  · rw [hex, hder, eval_mul]
    ring
  · intro j _ hj
    rw [eval_mul, hother j hj]
    ring
  · intro h
    exact absurd (Finset.mem_univ i) h

theorem rootFactors_ne {n : Nat} (x : Fin (n + 1) → K) (hx : Function.Injective x)
    (hr : ∀ i, (laguerre (n + 1) : K[X]).eval (x i) = 0) (i : Fin (n + 1)) :
    (laguerre n : K[X]).eval (x i) ≠ 0 ∧ (derivative (laguerre (n + 1) : K[X])).eval (x i) ≠ 0 := by
  have h := rootWeight_formula x hx hr i
  have hk := mul_ne_zero (laguerre_top (K := K) (n + 1)) (moment_norm (K := K) n)
  rw [← h] at hk
  exact ⟨left_ne_zero_of_mul (right_ne_zero_of_mul hk), right_ne_zero_of_mul (right_ne_zero_of_mul hk)⟩

/-- The inverses of the products, scaled in any way and normalised, are the weights. -/
theorem normalised_weight {n : Nat} (x : Fin (n + 1) → K) (hx : Function.Injective x)
    (hr : ∀ i, (laguerre (n + 1) : K[X]).eval (x i) = 0) (a b : K) (ha : a ≠ 0) (hb : b ≠ 0) (i : Fin (n + 1)) :
    (∑ j, ((laguerre n : K[X]).eval (x j) / a * ((derivative (laguerre (n + 1) : K[X])).eval (x j) / b))⁻¹) ≠ 0 ∧
    ((laguerre n : K[X]).eval (x i) / a * ((derivative (laguerre (n + 1) : K[X])).eval (x i) / b))⁻¹ /
      (∑ j, ((laguerre n : K[X]).eval (x j) / a * ((derivative (laguerre (n + 1) : K[X])).eval (x j) / b))⁻¹) =
    rootWeight x i := by
  have hk := mul_ne_zero (laguerre_top (K := K) (n + 1)) (moment_norm (K := K) n)
  generalize hκ : (laguerre (n + 1) : K[X]).coeff (n + 1) * moment (X ^ n * laguerre n : K[X]) = κ at hk
  have each : ∀ j, ((laguerre n : K[X]).eval (x j) / a * ((derivative (laguerre (n + 1) : K[X])).eval (x j) / b))⁻¹ =
      a * b / κ * rootWeight x j := by
    intro j
    have h := rootWeight_formula x hx hr j
    rw [hκ] at h
    obtain ⟨h1, h2⟩ := rootFactors_ne x hx hr j
    rw [← h]
    have h3 : rootWeight x j ≠ 0 := by
      intro e
      rw [e, zero_mul] at h
      exact hk h.symm
    field_simp
  have hsum : (∑ j, ((laguerre n : K[X]).eval (x j) / a * ((derivative (laguerre (n + 1) : K[X])).eval (x j) / b))⁻¹) =
      a * b / κ := by
    rw [Finset.sum_congr rfl fun j _ => each j, ← Finset.mul_sum, rootWeight_sum (by omega) x hx hr, mul_one]
  rw [hsum, each i]
  have hne : a * b / κ ≠ 0 := div_ne_zero (mul_ne_zero ha hb) hk
  exact ⟨hne, by rw [mul_div_assoc, mul_comm, div_mul_cancel₀ _ hne]⟩

end
end Einsums
