import Mathlib.Algebra.Polynomial.Derivative
import Mathlib.Algebra.Field.Basic
import Mathlib.Data.Nat.Choose.Basic
import Mathlib.Data.Rat.Floor
/-
Specification of Laguerre series, and of rounding to a 24 bit significand.
-/
namespace Einsums.Spec
open Polynomial

/-- The Laguerre polynomial of degree `k`, by its closed formula. -/
noncomputable def laguerre {K : Type} [Field K] (k : Nat) : K[X] :=
  ∑ i ∈ Finset.range (k + 1), C ((-1) ^ i * (k.choose i : K) / (i.factorial : K)) * X ^ i

/-- The series with the `N` coefficients `c`. -/
noncomputable def laguerreSeries {K : Type} [Field K] (N : Nat) (c : Nat → K) : K[X] :=
  ∑ k ∈ Finset.range N, C (c k) * laguerre k

/-- Numbers with a significand of 24 bits (`float`, exponent range ignored). -/
def Representable (y : ℚ) : Prop := ∃ (m : Int) (e : Int), |m| < 2 ^ 24 ∧ y = m * 2 ^ e

/-- Rounding to a nearest `float`, ties in any way. -/
structure NearestFloat (fl : ℚ → ℚ) : Prop where
  representable : ∀ x, Representable (fl x)
  nearest : ∀ x y, Representable y → |x - fl x| ≤ |x - y|

/-- `x` is an eigenvalue of the n × n matrix with the elements `M`. -/
def Eigenvalue {K : Type} [Field K] (n : Nat) (M : List Nat → K) (x : K) : Prop :=
  ∃ v : Nat → K, (∃ k, k < n ∧ v k ≠ 0) ∧ ∀ a, a < n → ∑ b ∈ Finset.range n, M [a, b] * v b = x * v a

end Einsums.Spec
