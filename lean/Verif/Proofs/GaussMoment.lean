import Mathlib.Analysis.SpecialFunctions.Gamma.Basic
import Verif.Proofs.GaussPoly
/-
The functional with the moments `k!` is the integral with the weight exp(-t) over the positive half line.
-/
namespace Einsums
open Spec Polynomial MeasureTheory

theorem moment_integral (p : ℝ[X]) :
    IntegrableOn (fun t => p.eval t * Real.exp (-t)) (Set.Ioi 0) ∧
      ∫ t in Set.Ioi (0 : ℝ), p.eval t * Real.exp (-t) = moment p := by
  induction p using Polynomial.induction_on' with
  | add p q hp hq =>
    have e : (fun t => (p + q).eval t * Real.exp (-t)) = fun t => p.eval t * Real.exp (-t) + q.eval t * Real.exp (-t) := by
      funext t
      rw [eval_add, add_mul]
    rw [e]
    exact ⟨hp.1.add hq.1, by rw [integral_add hp.1 hq.1, hp.2, hq.2, map_add]⟩
  | monomial k a =>
    have e : (fun t : ℝ => (monomial k a).eval t * Real.exp (-t)) =
        fun t : ℝ => a * (Real.exp (-t) * t ^ (((k : ℝ) + 1) - 1)) := by
      funext t
      rw [eval_monomial, add_sub_cancel_right, Real.rpow_natCast]
      ring
    have hpos : (0 : ℝ) < (k : ℝ) + 1 := by positivity
    rw [e]
    refine ⟨(Real.GammaIntegral_convergent hpos).const_mul a, ?_⟩
    rw [integral_const_mul, ← Real.Gamma_eq_integral hpos, Real.Gamma_nat_eq_factorial, ← C_mul_X_pow_eq_monomial, moment_CX]

/-- The weights of distinct roots are positive. -/
theorem rootWeight_pos {n : Nat} (x : Fin (n + 1) → ℝ) (hx : Function.Injective x)
    (hr : ∀ i, (laguerre (n + 1) : ℝ[X]).eval (x i) = 0) (i : Fin (n + 1)) : 0 < rootWeight x i := by
  have hb : (Lagrange.basis Finset.univ x i).natDegree ≤ n := by
    have := Lagrange.degree_basis (s := Finset.univ) (v := x) hx.injOn (Finset.mem_univ i)
    rw [Finset.card_univ, Fintype.card_fin] at this
    exact natDegree_le_of_degree_le (le_of_eq this)
  have hex := rootWeight_exact x hx hr (Lagrange.basis Finset.univ x i * Lagrange.basis Finset.univ x i) (by
    have := natDegree_mul_le (p := Lagrange.basis Finset.univ x i) (q := Lagrange.basis Finset.univ x i)
    omega)
  rw [Finset.sum_eq_single i, eval_mul, Lagrange.eval_basis_self hx.injOn (Finset.mem_univ i), ← (moment_integral _).2] at hex
  · have h0 : 0 ≤ rootWeight x i := by
      have : rootWeight x i = rootWeight x i * (1 * 1) := by ring
      rw [this, ← hex]
      apply integral_nonneg
      intro t
      simp only [eval_mul, Pi.zero_apply]
      exact mul_nonneg (mul_self_nonneg _) (Real.exp_pos _).le
    refine lt_of_le_of_ne h0 fun e => ?_
    have h := rootWeight_formula x hx hr i
    rw [← e, zero_mul] at h
    exact mul_ne_zero (laguerre_top (K := ℝ) (n + 1)) (moment_norm (K := ℝ) n) h.symm
  · intro j _ hj
    rw [eval_mul, Lagrange.eval_basis_of_ne hj.symm (Finset.mem_univ j)]
    ring
  · intro h
    exact absurd (Finset.mem_univ i) h

end Einsums
