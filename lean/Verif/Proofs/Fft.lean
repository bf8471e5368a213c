import Verif.Model.Fft
import Verif.Spec.Fourier
import Verif.Proofs.Companion
import Mathlib.RingTheory.RootsOfUnity.Complex
import Mathlib.Algebra.BigOperators.Ring.Finset
/-
Proofs about the Fourier transforms.
-/
namespace Einsums
open Spec Model Props Complex

/-! ### the discrete Fourier transform -/

theorem exp_pow (n : Nat) (j k : Nat) : exp (2 * Real.pi * I * j * k / n) = exp (2 * Real.pi * I / n) ^ (j * k) := by
  rw [← Complex.exp_nat_mul]
  congr 1
  push_cast
  ring

theorem exp_pow_inv (n : Nat) (j k : Nat) :
    exp (-(2 * Real.pi * I * j * k / n)) = (exp (2 * Real.pi * I / n))⁻¹ ^ (j * k) := by
  rw [Complex.exp_neg, exp_pow, inv_pow]

/-- The inverse transform of the transform is the signal times its length. -/
theorem idft_dft {n : Nat} (x : Nat → ℂ) {j : Nat} (hj : j < n) : idft n (dft n x) j = n * x j := by
  have hn : n ≠ 0 := by omega
  have hw := Complex.isPrimitiveRoot_exp n hn
  generalize hW : exp (2 * Real.pi * I / n) = w at hw
  have hw0 : w ≠ 0 := by rw [← hW]; exact Complex.exp_ne_zero _
  unfold idft dft
  have e1 : ∀ k ∈ Finset.range n, (∑ l ∈ Finset.range n, x l * exp (-(2 * Real.pi * I * l * k / n))) *
      exp (2 * Real.pi * I * j * k / n) = ∑ l ∈ Finset.range n, x l * (w⁻¹ ^ l * w ^ j) ^ k := by
    intro k _
    rw [Finset.sum_mul]
    refine Finset.sum_congr rfl fun l _ => ?_
    rw [exp_pow, exp_pow_inv, hW, mul_assoc, mul_pow, ← pow_mul, ← pow_mul]
  rw [Finset.sum_congr rfl e1, Finset.sum_comm]
  have e2 : ∀ l ∈ Finset.range n, ∑ k ∈ Finset.range n, x l * (w⁻¹ ^ l * w ^ j) ^ k = if l = j then n * x j else 0 := by
    intro l hl
    rw [Finset.mem_range] at hl
    rw [← Finset.mul_sum]
    by_cases h : l = j
    · subst h
      rw [if_pos rfl, inv_pow, inv_mul_cancel₀ (pow_ne_zero _ hw0)]
      simp [mul_comm]
    · rw [if_neg h]
      have hq1 : w⁻¹ ^ l * w ^ j ≠ 1 := by
        intro e
        rw [inv_pow, inv_mul_eq_one₀ (pow_ne_zero _ hw0)] at e
        exact h (hw.pow_inj hl hj e)
      have hqn : (w⁻¹ ^ l * w ^ j) ^ n = 1 := by
        rw [mul_pow, ← pow_mul, ← pow_mul, mul_comm l, mul_comm j, pow_mul, pow_mul, inv_pow, hw.pow_eq_one]
        simp
      have := geom_sum_mul (w⁻¹ ^ l * w ^ j) n
      rw [hqn, sub_self] at this
      rw [(mul_eq_zero.1 this).resolve_right (sub_ne_zero.2 hq1), mul_zero]
  rw [Finset.sum_congr rfl e2, Finset.sum_ite_eq' , if_pos (Finset.mem_range.2 hj)]

theorem exp_reflect {n j k : Nat} (hn : n ≠ 0) (hk : k ≤ n) :
    exp (2 * Real.pi * I * j * (n - k : Nat) / n) = exp (-(2 * Real.pi * I * j * k / n)) := by
  have hn' : (n : ℂ) ≠ 0 := by exact_mod_cast hn
  rw [show 2 * Real.pi * I * j * (n - k : Nat) / n = -(2 * Real.pi * I * j * k / n) + (j : ℂ) * (2 * Real.pi * I) by
    rw [Nat.cast_sub hk]; field_simp; ring, Complex.exp_add, Complex.exp_nat_mul_two_pi_mul_I, mul_one]

theorem conj_exp (n j k : Nat) : (starRingEnd ℂ) (exp (2 * Real.pi * I * j * k / n)) = exp (-(2 * Real.pi * I * j * k / n)) := by
  rw [← Complex.exp_conj]
  congr 1
  have h2 : (starRingEnd ℂ) 2 = 2 := map_ofNat _ 2
  simp [h2]
  ring

/-- The transform of a real signal is symmetric. -/
theorem dft_conj {n k : Nat} (hn : n ≠ 0) (hk : k ≤ n) (x : Nat → ℝ) :
    (starRingEnd ℂ) (dft n (fun j => (x j : ℂ)) (n - k)) = dft n (fun j => (x j : ℂ)) k := by
  unfold dft
  rw [map_sum]
  refine Finset.sum_congr rfl fun j _ => ?_
  rw [map_mul, Complex.conj_ofReal, ← conj_exp, Complex.conj_conj, exp_reflect hn hk]

theorem whole_dft {n k : Nat} (hk : k < n) {X : Nat → ℂ} (x : Nat → ℝ) (hX : ∀ k, k ≤ n / 2 → X k = dft n (fun j => (x j : ℂ)) k) :
    wholeSpectrum n X k = dft n (fun j => (x j : ℂ)) k := by
  have hn : n ≠ 0 := by omega
  unfold wholeSpectrum
  split
  · next h =>
    rw [hX k (by omega)]
    rw [← Complex.conj_eq_iff_re]
    rcases h with rfl | h
    · unfold dft
      simp
    · have := dft_conj (k := k) hn (by omega) x
      rwa [show n - k = k by omega] at this
  · split
    · exact hX k (by omega)
    · rw [hX _ (by omega), dft_conj hn (by omega)]

theorem whole_conj {n k : Nat} (h0 : 0 < k) (hk : k < n) (X : Nat → ℂ) :
    (starRingEnd ℂ) (wholeSpectrum n X k) = wholeSpectrum n X (n - k) := by
  unfold wholeSpectrum
  by_cases h : 2 * k = n
  · rw [if_pos (Or.inr h), if_pos (Or.inr (by omega)), Complex.conj_ofReal, show n - k = k by omega]
  · rw [if_neg (show ¬ (k = 0 ∨ 2 * k = n) by omega), if_neg (show ¬ (n - k = 0 ∨ 2 * (n - k) = n) by omega)]
    by_cases h2 : 2 * k < n
    · rw [if_pos h2, if_neg (by omega), show n - (n - k) = k by omega]
    · rw [if_neg h2, if_pos (by omega), Complex.conj_conj]

/-- The inverse transform of a symmetric spectrum is real, so the contract of the transform to real numbers can be met. -/
theorem idft_whole_real (n : Nat) (X : Nat → ℂ) (j : Nat) :
    ((idft n (wholeSpectrum n X) j).re : ℂ) = idft n (wholeSpectrum n X) j := by
  rw [← Complex.conj_eq_iff_re]
  unfold idft
  rw [map_sum]
  refine Finset.sum_bij' (fun k _ => if k = 0 then 0 else n - k) (fun k _ => if k = 0 then 0 else n - k) ?_ ?_ ?_ ?_ ?_
  · intro k hk
    rw [Finset.mem_range] at hk ⊢
    split <;> omega
  · intro k hk
    rw [Finset.mem_range] at hk ⊢
    split <;> omega
  · intro k hk
    rw [Finset.mem_range] at hk
    by_cases h : k = 0
    · simp [h]
    · simp only [if_neg h, if_neg (show n - k ≠ 0 by omega)]; omega
  · intro k hk
    rw [Finset.mem_range] at hk
    by_cases h : k = 0
    · simp [h]
    · simp only [if_neg h, if_neg (show n - k ≠ 0 by omega)]; omega
  · intro k hk
    rw [Finset.mem_range] at hk
    by_cases h : k = 0
    · subst h
      simp [wholeSpectrum]
    · rw [if_neg h, map_mul, whole_conj (by omega) hk, conj_exp, exp_reflect (by omega) hk.le]

/-! ### running a plan -/

section
variable {A B : Type}

theorem Holds.getElem? {t : Strided A} {p : Nat} {x : List Nat → A} (h : Holds t [p] x) {j : Nat} (hj : j < p) :
    t.data[j]? = some (x [j]) := by
  have := (represents_iff h.tensor.wf).1 h.elems [j] (by rw [h.dims]; exact ⟨hj, trivial⟩)
  rw [h.tensor.off, h.tensor.strides, h.dims] at this
  simpa [dimsToStrides, dot] using this

theorem Holds.getD [Zero A] {t : Strided A} {p : Nat} {x : List Nat → A} (h : Holds t [p] x) {j : Nat} (hj : j < p) :
    t.data.getD j 0 = x [j] := by
  rw [List.getD_eq_getElem?_getD, h.getElem? hj]; rfl

theorem holds_of_data {t : Strided B} {m : Nat} {y : List Nat → B} (h : Holds t [m] y) {d : List B} {g : List Nat → B}
    (hl : d.length = m) (hd : ∀ j, j < m → d[j]? = some (g [j])) : Holds { t with data := d } [m] g := by
  have ht : ({ t with data := d } : Strided B).IsTensor :=
    ⟨h.tensor.off, h.tensor.strides, by simp only [h.dims]; simp [numel, hl]⟩
  refine ⟨ht, h.dims, (represents_iff ht.wf).2 ?_⟩
  intro i hi
  simp only [h.dims] at hi
  match i, hi with
  | [j], hi =>
    simp only [h.tensor.off, h.tensor.strides, h.dims]
    simpa [dimsToStrides, dot] using hd j hi.1

theorem runPlan_holds [Zero A] {n nin nout p m : Nat} (f : (Nat → A) → Nat → B) {a : Strided A} {r : Strided B}
    {x : List Nat → A} {y : List Nat → B} (hn : n ≠ 0) (ha : Holds a [p] x) (hr : Holds r [m] y) (h1 : nin ≤ p) (h2 : nout ≤ m) :
    ∃ d g, runPlan n nin nout f a.data r.data = .ok d ∧ Holds { r with data := d } [m] g ∧
      (∀ j, j < nout → g [j] = f (fun j => a.data.getD j 0) j) ∧ ∀ j, nout ≤ j → g [j] = y [j] := by
  have la : a.data.length = p := by rw [ha.length]; simp [numel]
  have lr : r.data.length = m := by rw [hr.length]; simp [numel]
  refine ⟨(List.range nout).map (f fun j => a.data.getD j 0) ++ r.data.drop nout,
    fun i => if i.headD 0 < nout then f (fun j => a.data.getD j 0) (i.headD 0) else y i, ?_, ?_, ?_, ?_⟩
  · unfold runPlan; rw [if_neg hn, if_neg (by omega), if_neg (by omega)]
  · refine holds_of_data hr (by simp; omega) ?_
    intro j hj
    show _ = some (if j < nout then _ else _)
    by_cases h : j < nout
    · rw [if_pos h, List.getElem?_append_left (by simpa using h), List.getElem?_map, List.getElem?_range h]
      rfl
    · rw [if_neg h, List.getElem?_append_right (by simp; omega), List.length_map, List.length_range, List.getElem?_drop,
        show nout + (j - nout) = j by omega, hr.getElem? hj]
  · intro j hj
    exact if_pos hj
  · intro j hj
    exact if_neg (Nat.not_lt.2 hj)

end

theorem dft_congr {n : Nat} {x y : Nat → ℂ} (h : ∀ j, j < n → x j = y j) (k : Nat) : dft n x k = dft n y k :=
  Finset.sum_congr rfl fun j hj => by rw [h j (Finset.mem_range.1 hj)]

theorem idft_congr {n : Nat} {x y : Nat → ℂ} (h : ∀ j, j < n → x j = y j) (k : Nat) : idft n x k = idft n y k :=
  Finset.sum_congr rfl fun j hj => by rw [h j (Finset.mem_range.1 hj)]

theorem whole_congr {n k : Nat} {x y : Nat → ℂ} (hk : k < n) (h : ∀ j, j ≤ n / 2 → x j = y j) :
    wholeSpectrum n x k = wholeSpectrum n y k := by
  unfold wholeSpectrum
  split
  · rw [h k (by omega)]
  · split
    · rw [h k (by omega)]
    · rw [h (n - k) (by omega)]

/-! ### fftfreq -/

/-- The integer `fftfreq` uses for component `k`. -/
def freqIdx (n k : Nat) : Int := if k < (n + 1) / 2 then (k : Int) else k - n

/-- The elements after the first assignment. -/
def halfFreq {K : Type} [NatCast K] (n : Nat) (f : List Nat → K) (k : Nat) : K := if k < (n + 1) / 2 then (k : K) else f [k]

section
variable {K : Type} [Field K] [LinearOrder K] [IsStrictOrderedRing K] [FloorRing K]

theorem arange_int (z : Nat → K) (a b : Int) (m : Nat) (h : b - a = m) (hm : m < 2 ^ 31) :
    ∃ t, arange (fieldArith K) z (a : K) (b : K) 1 = .ok t ∧ Holds t [m] fun i => (a : K) + (i.headD 0 : Nat) := by
  obtain ⟨t, k, h1, h2, h3, h4, h5⟩ := C40_field_partial z (a : K) (b : K) 1 one_pos m
    (by rw [mul_one, ← Int.cast_sub, h, Int.cast_natCast]) (by omega)
  have hk : k = m := by
    have key : ∀ j : Nat, j < k ↔ j < m := by
      intro j
      rw [h4 j, mul_one, ← Int.cast_natCast, ← Int.cast_add, Int.cast_lt]
      omega
    have h6 := key k
    have h7 := key m
    omega
  exact ⟨t, h1, h2, by rw [h3, hk], fun i hi => by rw [h5 i hi]; simp⟩

omit [Field K] [LinearOrder K] [IsStrictOrderedRing K] [FloorRing K] in
/-- The view `t(Range(a, b))` of a vector, also when it is empty at the end. -/
theorem ranges_vec {t : Strided K} {n : Nat} (ht : t.IsTensor) (hd : t.dims = [n]) {a b : Nat} (hab : a ≤ b) (hb : b ≤ n) :
    ∃ v, t.ranges [((a : Int), (b : Int))] = .ok v ∧ v.dims = [b - a] ∧
      t.ViewOf v (fun i => [a + i.headD 0]) := by
  have hl : t.data.length = n := by rw [ht.length, hd]; simp [numel]
  have hs : t.strides = [1] := by rw [ht.strides, hd]; rfl
  refine ⟨⟨t.data, a, [b - a], [1]⟩, ?_, rfl, ?_⟩
  · unfold Strided.ranges
    rw [hd, hs]
    simp only [List.length_cons, List.length_nil, ne_eq, not_true_eq_false, if_false, List.zip_cons_cons, List.zip_nil_right,
      List.map_cons, List.map_nil]
    unfold mkView
    rw [if_neg (by omega : ¬ (b : Int) < 0), ht.off, hs]
    simp only [innerProduct]
    rw [if_neg (by simp; omega)]
    have : ¬ ([(b : Int) - a].any (· < 0)) = true := by simp; omega
    simp
    omega
  · refine ⟨rfl, rfl, ?_, ?_⟩
    · intro i hi
      match i, hi with
      | [j], hi =>
        have hj : j < b - a := hi.1
        refine ⟨by rw [hd]; exact ⟨by simp only [List.headD_cons]; omega, trivial⟩, ?_⟩
        rw [ht.off, hs]
        simp [dot]
    · intro i j hi hj e
      match i, j, hi, hj with
      | [i], [j], _, _ => simp at e; simp [e]

end

end Einsums
