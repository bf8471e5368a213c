import Mathlib.Analysis.SpecialFunctions.Trigonometric.Basic
import Mathlib.Algebra.BigOperators.Group.Finset.Basic
/-
Specification: the discrete Fourier transform and what FFTW's manual says of its transforms.
-/
namespace Einsums.Spec
open Complex

/-- The transform of the first `n` elements: the sum of `x j` times `exp(-2πi j k / n)`. -/
noncomputable def dft (n : Nat) (x : Nat → ℂ) (k : Nat) : ℂ :=
  ∑ j ∈ Finset.range n, x j * exp (-(2 * Real.pi * I * j * k / n))

/-- The unnormalised inverse transform: the sum of `X k` times `exp(2πi j k / n)`. -/
noncomputable def idft (n : Nat) (X : Nat → ℂ) (j : Nat) : ℂ :=
  ∑ k ∈ Finset.range n, X k * exp (2 * Real.pi * I * j * k / n)

/-- The whole spectrum of a real signal of length `n`, given its elements `0 … n/2`: the others are complex conjugates; the
imaginary parts of the elements `0` and `n/2` (for even `n`) are ignored. -/
noncomputable def wholeSpectrum (n : Nat) (X : Nat → ℂ) (k : Nat) : ℂ :=
  if k = 0 ∨ 2 * k = n then ((X k).re : ℂ)
  else if 2 * k < n then X k
  else (starRingEnd ℂ) (X (n - k))

/-- The contract of a forward transform of length `n` (the library may use no other input elements than the first `n`). -/
def IsForward (f : (Nat → ℂ) → Nat → ℂ) (n : Nat) : Prop := ∀ x k, k < n → f x k = dft n x k

/-- The contract of a backward transform. -/
def IsBackward (f : (Nat → ℂ) → Nat → ℂ) (n : Nat) : Prop := ∀ X j, j < n → f X j = idft n X j

/-- The contract of a transform of real numbers: the first half of the transform. -/
def IsRealForward (f : (Nat → ℝ) → Nat → ℂ) (n : Nat) : Prop := ∀ x k, k ≤ n / 2 → f x k = dft n (fun j => (x j : ℂ)) k

/-- The contract of a transform to real numbers, of which only the first half of the input is read. -/
def IsRealBackward (f : (Nat → ℂ) → Nat → ℝ) (n : Nat) : Prop := ∀ X j, j < n → (f X j : ℂ) = idft n (wholeSpectrum n X) j

end Einsums.Spec
