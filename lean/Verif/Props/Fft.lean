import Verif.Proofs.Fft
import Verif.Props.TensorAlgebra
import Mathlib.Tactic.NormNum
/-
C122 `fft`, C123 `ifft`, C124 `fftfreq`.
-/
namespace Einsums.Props
open Spec Model

/-! ### C122: fft -/

/-- **C122 (real input).** If `result` has room for `n/2+1` elements, `fft(a, &result)` of `n > 0` real numbers puts the
discrete Fourier transform of `a` into the elements `0 … n/2` of `result` and keeps the others. -/
theorem C122_real (W : Fftw) (a : Strided ℝ) (r : Strided ℂ) (n m : Nat) (x : List Nat → ℝ) (y : List Nat → ℂ)
    (hW : IsRealForward (W.r2c n) n) (ta : a.IsTensor) (da : a.dims = [n]) (ha : a.Represents x)
    (tr : r.IsTensor) (dr : r.dims = [m]) (hr : r.Represents y) (hn : 0 < n) (hm : n / 2 + 1 ≤ m) :
    ∃ r', fftReal W a r = .ok r' ∧ r'.IsTensor ∧ r'.dims = [m] ∧
      (∀ k, k ≤ n / 2 → r'.read [(k : Int)] = .ok (dft n (fun j => (x [j] : ℂ)) k)) ∧
      ∀ k, n / 2 < k → k < m → r'.read [(k : Int)] = .ok (y [k]) := by
  have hA : Holds a [n] x := ⟨ta, da, ha⟩
  have hR : Holds r [m] y := ⟨tr, dr, hr⟩
  have a0 : a.dim 0 = n := by simp [Strided.dim, da]
  have r0 : r.dim 0 = m := by simp [Strided.dim, dr]
  obtain ⟨d, g, e, h, hlo, hhi⟩ := runPlan_holds (n := n) (W.r2c n) (by omega) hA hR (le_refl n) hm
  refine ⟨{ r with data := d }, ?_, h.tensor, h.dims, ?_, ?_⟩
  · unfold fftReal
    simp only [a0, r0, ge_iff_le, if_pos hm, e]
    rfl
  · intro k hk
    rw [read_vec_nat h.dims h.elems (by omega : k < m)]
    rw [hlo k (by omega), hW _ _ hk]
    congr 1
    exact dft_congr (fun j hj => by rw [hA.getD hj]) k
  · intro k hk hkm
    rw [read_vec_nat h.dims h.elems hkm, hhi k (by omega)]

/-- **C122 (real input, rejections).** A `result` with fewer than `n/2+1` elements ends the program before anything is
written, and so does an empty input. -/
theorem C122_real_rejects (W : Fftw) (a : Strided ℝ) (r : Strided ℂ) (n m : Nat) (da : a.dims = [n]) (dr : r.dims = [m])
    (h : m < n / 2 + 1 ∨ n = 0) : (fftReal W a r).isError = true := by
  have a0 : a.dim 0 = n := by simp [Strided.dim, da]
  have r0 : r.dim 0 = m := by simp [Strided.dim, dr]
  unfold fftReal
  simp only [a0, r0, ge_iff_le]
  by_cases hm : n / 2 + 1 ≤ m
  · obtain rfl : n = 0 := by omega
    rw [if_pos hm, runPlan, if_pos rfl]
    rfl
  · rw [if_neg hm]
    rfl

/-- **C122 (complex input, partial).** `fft(a, &result)` of `n > 0` complex numbers when `result` has at least `n` elements.
Missing: a shorter `result`, which is not rejected, see `C122_short_refuted`. -/
theorem C122_complex_partial (W : Fftw) (a r : Strided ℂ) (n m : Nat) (x y : List Nat → ℂ)
    (hW : IsForward (W.forward n) n) (ta : a.IsTensor) (da : a.dims = [n]) (ha : a.Represents x)
    (tr : r.IsTensor) (dr : r.dims = [m]) (hr : r.Represents y) (hn : 0 < n) (hm : n ≤ m) :
    ∃ r', fftComplex W a r = .ok r' ∧ r'.IsTensor ∧ r'.dims = [m] ∧
      (∀ k, k < n → r'.read [(k : Int)] = .ok (dft n (fun j => x [j]) k)) ∧
      ∀ k, n ≤ k → k < m → r'.read [(k : Int)] = .ok (y [k]) := by
  have hA : Holds a [n] x := ⟨ta, da, ha⟩
  have hR : Holds r [m] y := ⟨tr, dr, hr⟩
  have a0 : a.dim 0 = n := by simp [Strided.dim, da]
  obtain ⟨d, g, e, h, hlo, hhi⟩ := runPlan_holds (n := n) (W.forward n) (by omega) hA hR (le_refl n) hm
  refine ⟨{ r with data := d }, ?_, h.tensor, h.dims, ?_, ?_⟩
  · unfold fftComplex
    simp only [a0, e]
    rfl
  · intro k hk
    rw [read_vec_nat h.dims h.elems (by omega : k < m)]
    rw [hlo k hk, hW _ _ hk]
    congr 1
    exact dft_congr (fun j hj => by rw [hA.getD hj]) k
  · intro k hk hkm
    rw [read_vec_nat h.dims h.elems hkm, hhi k (by omega)]

/-- **C122 (refuted: short result).** With a complex input the size of `result` is not checked: whenever `result` is shorter
than the (non-empty) input, FFTW writes past the end of its storage. -/
theorem C122_short_refuted (W : Fftw) (a r : Strided ℂ) (n m : Nat) (ta : a.IsTensor) (da : a.dims = [n])
    (tr : r.IsTensor) (dr : r.dims = [m]) (h : m < n) : (fftComplex W a r).isUb = true := by
  have a0 : a.dim 0 = n := by simp [Strided.dim, da]
  have la : a.data.length = n := by rw [ta.length, da]; simp [numel]
  have lr : r.data.length = m := by rw [tr.length, dr]; simp [numel]
  unfold fftComplex
  simp only [a0]
  rw [runPlan, if_neg (by omega), if_neg (by omega), if_pos (by omega)]
  rfl

/-- An ideal FFTW: what its manual describes.  It leaves its input array filled with zeros after a transform to real numbers. -/
noncomputable def idealFftw : Fftw where
  forward := dft
  backward := idft
  r2c n x := dft n fun j => (x j : ℂ)
  c2r n X j := (idft n (wholeSpectrum n X) j).re
  c2rInput _ _ _ := 0

/-- The contracts can be met, for every length. -/
theorem idealFftw_meets (n : Nat) : IsForward (idealFftw.forward n) n ∧ IsBackward (idealFftw.backward n) n ∧
    IsRealForward (idealFftw.r2c n) n ∧ IsRealBackward (idealFftw.c2r n) n :=
  ⟨fun _ _ _ => rfl, fun _ _ _ => rfl, fun _ _ _ => rfl, fun X j _ => idft_whole_real n X j⟩

/-- A vector of real numbers. -/
noncomputable def fftA : Strided ℝ := ⟨[1, 2], 0, [2], [1]⟩
/-- A vector of complex numbers. -/
noncomputable def fftC : Strided ℂ := ⟨[5, 6, 7], 0, [3], [1]⟩

theorem fftA_isTensor : fftA.IsTensor := ⟨rfl, rfl, rfl⟩
theorem fftC_isTensor : fftC.IsTensor := ⟨rfl, rfl, rfl⟩

example : ∃ r', fftReal idealFftw fftA fftC = .ok r' ∧ r'.read [0] = .ok 3 ∧ r'.read [1] = .ok (-1) ∧ r'.read [2] = .ok 7 := by
  obtain ⟨x, hx⟩ := exists_represents fftA_isTensor.wf
  obtain ⟨y, hy⟩ := exists_represents fftC_isTensor.wf
  have x0 : x [0] = 1 := by
    have e : fftA.read (toIdx [0]) = .ok 1 := rfl
    exact Outcome.ok.inj ((hx [0] (by decide)).symm.trans e)
  have x1 : x [1] = 2 := by
    have e : fftA.read (toIdx [1]) = .ok 2 := rfl
    exact Outcome.ok.inj ((hx [1] (by decide)).symm.trans e)
  have y2 : y [2] = 7 := by
    have e : fftC.read (toIdx [2]) = .ok 7 := rfl
    exact Outcome.ok.inj ((hy [2] (by decide)).symm.trans e)
  obtain ⟨r', h1, _, _, h2, h3⟩ := C122_real idealFftw fftA fftC 2 3 x y (idealFftw_meets 2).2.2.1 fftA_isTensor rfl hx
    fftC_isTensor rfl hy (by decide) (by decide)
  refine ⟨r', h1, ?_, ?_, ?_⟩
  · refine (h2 0 (by decide)).trans ?_
    simp [dft, Finset.sum_range_succ, x0, x1]
    norm_num
  · refine (h2 1 (by decide)).trans ?_
    have e : Complex.exp (-(2 * Real.pi * Complex.I / 2)) = -1 := by
      rw [show -(2 * (Real.pi : ℂ) * Complex.I / 2) = -(Real.pi * Complex.I) by ring, Complex.exp_neg, Complex.exp_pi_mul_I]
      norm_num
    simp [dft, Finset.sum_range_succ, x0, x1, e]
    norm_num
  · rw [← y2]; exact h3 2 (by decide) (by decide)

/-! ### C123: ifft -/

/-- **C123 (complex, partial).** `ifft(a, &result)` puts the unnormalised inverse transform of the first `n` elements of `a`
into `result`, where `n > 0` is the length of `result`.  Missing: `a` shorter than `result`, see `C123_short_refuted`. -/
theorem C123_complex_partial (W : Fftw) (a r : Strided ℂ) (n p : Nat) (x : List Nat → ℂ) (hW : IsBackward (W.backward n) n)
    (ta : a.IsTensor) (da : a.dims = [p]) (ha : a.Represents x) (tr : r.IsTensor) (dr : r.dims = [n]) (hn : 0 < n)
    (hp : n ≤ p) :
    ∃ r', ifftComplex W a r = .ok r' ∧ r'.IsTensor ∧ r'.dims = [n] ∧
      r'.Represents fun i => idft n (fun k => x [k]) (i.headD 0) := by
  have hA : Holds a [p] x := ⟨ta, da, ha⟩
  obtain ⟨y, hy⟩ := exists_represents tr.wf
  have hR : Holds r [n] y := ⟨tr, dr, hy⟩
  have r0 : r.dim 0 = n := by simp [Strided.dim, dr]
  obtain ⟨d, g, e, h, hlo, hhi⟩ := runPlan_holds (n := n) (W.backward n) (by omega) hA hR hp (le_refl n)
  refine ⟨{ r with data := d }, ?_, h.tensor, h.dims, ?_⟩
  · unfold ifftComplex
    simp only [r0, e]
    rfl
  · refine (h.congr fun i hi => ?_).elems
    match i, hi with
    | [j], hi =>
      have hj : j < n := hi.1
      rw [hlo j hj, hW _ _ hj]
      exact idft_congr (fun k hk => hA.getD (by omega)) j

/-- **C123 (refuted: short input).** The sizes are not checked for complex numbers: whenever `a` is shorter than `result`,
FFTW reads past the end of the storage of `a`. -/
theorem C123_short_refuted (W : Fftw) (a r : Strided ℂ) (n p : Nat) (ta : a.IsTensor) (da : a.dims = [p])
    (dr : r.dims = [n]) (h : p < n) : (ifftComplex W a r).isUb = true := by
  have r0 : r.dim 0 = n := by simp [Strided.dim, dr]
  have la : a.data.length = p := by rw [ta.length, da]; simp [numel]
  unfold ifftComplex
  simp only [r0]
  rw [runPlan, if_neg (by omega), if_pos (by omega)]
  rfl

/-- **C123 (real output, partial).** `ifft(a, &result)` to `n > 0` real numbers, when `a` has at least `n/2+1` elements: `result`
is the unnormalised inverse transform of the symmetric spectrum whose first half is `a`.  Missing: that `a` is unchanged, see
`C123_input_refuted`. -/
theorem C123_real_partial (W : Fftw) (a : Strided ℂ) (r : Strided ℝ) (n p : Nat) (x : List Nat → ℂ)
    (hW : IsRealBackward (W.c2r n) n) (ta : a.IsTensor) (da : a.dims = [p]) (ha : a.Represents x) (tr : r.IsTensor)
    (dr : r.dims = [n]) (hn : 0 < n) (hp : n / 2 + 1 ≤ p) :
    ∃ a' r' g, ifftReal W a r = .ok (a', r') ∧ a'.IsTensor ∧ a'.dims = [p] ∧
      (∀ k, n / 2 < k → k < p → a'.read [(k : Int)] = .ok (x [k])) ∧ r'.IsTensor ∧ r'.dims = [n] ∧ r'.Represents g ∧
      ∀ j, j < n → (g [j] : ℂ) = idft n (wholeSpectrum n fun k => x [k]) j := by
  have hA : Holds a [p] x := ⟨ta, da, ha⟩
  obtain ⟨y, hy⟩ := exists_represents tr.wf
  have hR : Holds r [n] y := ⟨tr, dr, hy⟩
  have r0 : r.dim 0 = n := by simp [Strided.dim, dr]
  have a0 : a.dim 0 = p := by simp [Strided.dim, da]
  obtain ⟨d, g, e, h, hlo, hhi⟩ := runPlan_holds (n := n) (W.c2r n) (by omega) hA hR hp (le_refl n)
  obtain ⟨d', g', e', h', _, hhi'⟩ := runPlan_holds (n := n) (W.c2rInput n) (by omega) hA hA hp hp
  refine ⟨{ a with data := d' }, { r with data := d }, _, ?_, h'.tensor, h'.dims, ?_, h.tensor, h.dims, h.elems, ?_⟩
  · unfold ifftReal
    simp only [r0, a0, ge_iff_le, if_pos hp, e, e', Outcome.ok_bind]
    rfl
  · intro k hk hkp
    rw [read_vec_nat h'.dims h'.elems hkp, hhi' k (by omega)]
  · intro j hj
    rw [hlo j hj, hW _ _ hj]
    exact idft_congr (fun k hk => whole_congr hk fun i hi => hA.getD (by omega)) j

/-- **C123 (real output, rejections).** If `a` has fewer than `n/2+1` elements, or `result` is empty, the program ends before
anything is written. -/
theorem C123_real_rejects (W : Fftw) (a : Strided ℂ) (r : Strided ℝ) (n p : Nat) (da : a.dims = [p]) (dr : r.dims = [n])
    (h : p < n / 2 + 1 ∨ n = 0) : (ifftReal W a r).isError = true := by
  have r0 : r.dim 0 = n := by simp [Strided.dim, dr]
  have a0 : a.dim 0 = p := by simp [Strided.dim, da]
  unfold ifftReal
  simp only [r0, a0, ge_iff_le]
  by_cases hp : n / 2 + 1 ≤ p
  · obtain rfl : n = 0 := by omega
    rw [if_pos hp, runPlan, if_pos rfl]
    rfl
  · rw [if_neg hp]
    rfl

/-- **C123 (refuted: the input).** Although `a` is passed as a constant, a library that keeps the contract may change it: here
the spectrum `5, 6` of a signal of two elements is overwritten. -/
theorem C123_input_refuted (r : Strided ℝ) (tr : r.IsTensor) (dr : r.dims = [2]) :
    fftC.read [0] = .ok 5 ∧ ∃ W : Fftw, (∀ n, IsRealBackward (W.c2r n) n) ∧
      ∃ a' r', ifftReal W fftC r = .ok (a', r') ∧ a'.read [0] = .ok 0 := by
  refine ⟨rfl, idealFftw, fun n => (idealFftw_meets n).2.2.2, ?_⟩
  have lr : r.data.length = 2 := by rw [tr.length, dr]; simp [numel]
  have r0 : r.dim 0 = 2 := by simp [Strided.dim, dr]
  have e1 : runPlan 2 (2 / 2 + 1) 2 (idealFftw.c2r 2) fftC.data r.data =
      .ok ((List.range 2).map (idealFftw.c2r 2 fun j => fftC.data.getD j 0) ++ r.data.drop 2) := by
    rw [runPlan, if_neg (by omega), if_neg (by simp [fftC]), if_neg (by omega)]
  have e2 : runPlan 2 (2 / 2 + 1) (2 / 2 + 1) (idealFftw.c2rInput 2) fftC.data fftC.data = .ok [0, 0, 7] := rfl
  refine ⟨⟨[0, 0, 7], 0, [3], [1]⟩,
    ⟨(List.range 2).map (idealFftw.c2r 2 fun j => fftC.data.getD j 0) ++ r.data.drop 2, r.off, r.dims, r.strides⟩, ?_, rfl⟩
  unfold ifftReal
  simp only [r0, ge_iff_le]
  rw [if_pos (by simp [fftC, Strided.dim]), e1, Outcome.ok_bind, e2]
  rfl

/-- **C123 (round trip, complex).** `ifft` after `fft` multiplies the signal by its length. -/
theorem C123_roundtrip_complex (W : Fftw) (a b r : Strided ℂ) (n : Nat) (x : List Nat → ℂ) (hF : IsForward (W.forward n) n)
    (hB : IsBackward (W.backward n) n) (ta : a.IsTensor) (da : a.dims = [n]) (ha : a.Represents x) (tb : b.IsTensor)
    (db : b.dims = [n]) (tr : r.IsTensor) (dr : r.dims = [n]) (hn : 0 < n) :
    ∃ b' r', fftComplex W a b = .ok b' ∧ ifftComplex W b' r = .ok r' ∧ r'.IsTensor ∧ r'.dims = [n] ∧
      r'.Represents fun i => n * x i := by
  obtain ⟨y, hy⟩ := exists_represents tb.wf
  obtain ⟨b', h1, h2, h3, h4, _⟩ := C122_complex_partial W a b n n x y hF ta da ha tb db hy hn (le_refl n)
  have hb : b'.Represents fun i => dft n (fun j => x [j]) (i.headD 0) := by
    intro i hi
    rw [h3] at hi
    match i, hi with
    | [k], hi => exact h4 k hi.1
  obtain ⟨r', g1, g2, g3, g4⟩ := C123_complex_partial W b' r n n _ hB h2 h3 hb tr dr hn (le_refl n)
  refine ⟨b', r', h1, g1, g2, g3, fun i hi => ?_⟩
  rw [g4 i hi]
  rw [g3] at hi
  match i, hi with
  | [j], hi => exact congrArg Outcome.ok (idft_dft _ hi.1)

/-- **C123 (round trip, real).** The same for real signals, through a half spectrum. -/
theorem C123_roundtrip_real (W : Fftw) (a r : Strided ℝ) (b : Strided ℂ) (n m : Nat) (x : List Nat → ℝ)
    (hF : IsRealForward (W.r2c n) n) (hB : IsRealBackward (W.c2r n) n) (ta : a.IsTensor) (da : a.dims = [n])
    (ha : a.Represents x) (tb : b.IsTensor) (db : b.dims = [m]) (hm : n / 2 + 1 ≤ m) (tr : r.IsTensor) (dr : r.dims = [n])
    (hn : 0 < n) :
    ∃ b' b'' r', fftReal W a b = .ok b' ∧ ifftReal W b' r = .ok (b'', r') ∧ r'.IsTensor ∧ r'.dims = [n] ∧
      r'.Represents fun i => n * x i := by
  obtain ⟨y, hy⟩ := exists_represents tb.wf
  obtain ⟨b', h1, h2, h3, h4, _⟩ := C122_real W a b n m x y hF ta da ha tb db hy hn hm
  obtain ⟨f, hf⟩ := exists_represents h2.wf
  have hfe : ∀ k, k ≤ n / 2 → f [k] = dft n (fun j => (x [j] : ℂ)) k := by
    intro k hk
    have e1 := h4 k hk
    have e2 := read_vec_nat h3 hf (show k < m by omega)
    rw [e2] at e1
    exact Outcome.ok.inj e1
  obtain ⟨b'', r', g, g1, _, _, _, g2, g3, g4, g5⟩ := C123_real_partial W b' r n m f hB h2 h3 hf tr dr hn hm
  refine ⟨b', b'', r', h1, g1, g2, g3, fun i hi => ?_⟩
  rw [g4 i hi]
  rw [g3] at hi
  match i, hi with
  | [j], hi =>
    congr 1
    have e := g5 j hi.1
    rw [idft_congr (fun k hk => whole_dft hk (fun j => x [j]) hfe), idft_dft _ hi.1] at e
    exact_mod_cast e

/-- The hypotheses are met: a complex and a real signal of two elements. -/
example : ∃ b' r', fftComplex idealFftw fftC fftC = .ok b' ∧ ifftComplex idealFftw b' fftC = .ok r' ∧ r'.read [1] = .ok 18 := by
  obtain ⟨x, hx⟩ := exists_represents fftC_isTensor.wf
  have x1 : x [1] = 6 := by
    have e : fftC.read (toIdx [1]) = .ok 6 := rfl
    exact Outcome.ok.inj ((hx [1] (by decide)).symm.trans e)
  obtain ⟨b', r', h1, h2, h3, h4, h5⟩ := C123_roundtrip_complex idealFftw fftC fftC fftC 3 x (idealFftw_meets 3).1
    (idealFftw_meets 3).2.1 fftC_isTensor rfl hx fftC_isTensor rfl fftC_isTensor rfl (by decide)
  refine ⟨b', r', h1, h2, (h5 [1] (by rw [h4]; decide)).trans ?_⟩
  beta_reduce
  rw [x1]
  norm_num
example : ∃ b' b'' r', fftReal idealFftw fftA fftC = .ok b' ∧ ifftReal idealFftw b' fftA = .ok (b'', r') ∧
    r'.read [1] = .ok 4 := by
  obtain ⟨x, hx⟩ := exists_represents fftA_isTensor.wf
  have x1 : x [1] = 2 := by
    have e : fftA.read (toIdx [1]) = .ok 2 := rfl
    exact Outcome.ok.inj ((hx [1] (by decide)).symm.trans e)
  obtain ⟨b', b'', r', h1, h2, h3, h4, h5⟩ := C123_roundtrip_real idealFftw fftA fftA fftC 2 3 x (idealFftw_meets 2).2.2.1
    (idealFftw_meets 2).2.2.2 fftA_isTensor rfl hx fftC_isTensor rfl (by decide) fftA_isTensor rfl (by decide)
  refine ⟨b', b'', r', h1, h2, (h5 [1] (by rw [h4]; decide)).trans ?_⟩
  beta_reduce
  rw [x1]
  norm_num

/-! ### C124: fftfreq -/

section
variable {K : Type} [Field K] [LinearOrder K] [IsStrictOrderedRing K] [FloorRing K]

/-- **C124 (partial).** For `0 < n` (within `int`) and a spacing `d ≠ 0`, `fftfreq(n, d)` has `n` elements, and element `k` is
`m / (n d)` for the integer `m` congruent to `k` modulo `n` with `-n/2 ≤ m < n/2`.  Missing: `n = 0`, see
`C124_zero_refuted`. -/
theorem C124_partial (z : Nat → K) (n : Nat) (d : K) (hn : 0 < n) (h31 : n < 2 ^ 31) (_hd : d ≠ 0) :
    ∃ t, fftfreq z n d = .ok t ∧ t.IsTensor ∧ t.dims = [n] ∧
      ∀ k : Nat, k < n → ∃ m : Int, -(n : Int) ≤ 2 * m ∧ 2 * m < n ∧ (n : Int) ∣ k - m ∧
        t.read [(k : Int)] = .ok ((m : K) / ((n : K) * d)) := by
  have : Inhabited K := ⟨0⟩
  have hN : ((n : Int) - 1).tdiv 2 + 1 = ((n + 1) / 2 : Nat) := by
    rw [Int.tdiv_eq_ediv_of_nonneg (by omega)]; omega
  have hT : ((n : Int)).tdiv 2 = (n / 2 : Nat) := by
    rw [Int.tdiv_eq_ediv_of_nonneg (by omega)]; omega
  obtain ⟨p1, e1, h1⟩ := arange_int z 0 ((n + 1) / 2 : Nat) ((n + 1) / 2) (by omega) (by omega)
  obtain ⟨p2, e2, h2⟩ := arange_int z (-((n / 2 : Nat) : Int)) 0 (n / 2) (by omega) (by omega)
  have t0 := isTensor_mk' z (show [n] ≠ [] by simp)
  obtain ⟨f0, r0⟩ := exists_represents t0.wf
  obtain ⟨v1, q1, s1, w1⟩ := ranges_vec t0 rfl (a := 0) (b := (n + 1) / 2) (by omega) (by omega)
  obtain ⟨v1', a1, l1, k1⟩ := viewAssign (F := fun i => halfFreq n f0 (i.headD 0))
    t0.wf r0 w1 h1.elems (by rw [s1, h1.dims]; exact fun j hj => hj) (by
      intro j hj
      rw [s1] at hj
      match j, hj with
      | [j], hj =>
        have : j < (n + 1) / 2 - 0 := hj.1
        simp only [List.headD_cons, Nat.zero_add]
        simp only [halfFreq]
        rw [if_pos (by omega)]
        simp) (by
      intro i hi hne
      match i, hi with
      | [i], hi =>
        simp only [List.headD_cons]
        simp only [halfFreq]
        rw [if_neg]
        intro h
        exact hne [i] (by rw [s1]; exact ⟨by omega, trivial⟩) (by simp))
  have t1 : ({ Strided.mk' z [n] with data := v1'.data } : Strided K).IsTensor :=
    ⟨t0.off, t0.strides, by simp only [l1]; exact t0.length⟩
  obtain ⟨v2, q2, s2, w2⟩ := ranges_vec t1 rfl (a := (n + 1) / 2) (b := n) (by omega) (by omega)
  obtain ⟨v2', a2, l2, k2⟩ := viewAssign
    (F := fun i => ((freqIdx n (i.headD 0) : Int) : K))
    t1.wf k1 w2 h2.elems (by rw [s2, h2.dims, show n - (n + 1) / 2 = n / 2 by omega]; exact fun j hj => hj) (by
      intro j hj
      rw [s2] at hj
      match j, hj with
      | [j], hj =>
        have : j < n - (n + 1) / 2 := hj.1
        simp only [List.headD_cons]
        simp only [freqIdx]
        rw [if_neg (by omega), ← Int.cast_natCast (R := K) j, ← Int.cast_add, Int.cast_inj]
        omega) (by
      intro i hi hne
      match i, hi with
      | [i], hi =>
        have hi' : i < n := hi.1
        simp only [List.headD_cons]
        simp only [freqIdx, halfFreq]
        by_cases h : i < (n + 1) / 2
        · rw [if_pos h, if_pos h, Int.cast_natCast]
        · exact absurd (by simp; omega) (hne [i - (n + 1) / 2] (by rw [s2]; exact ⟨by omega, trivial⟩)))
  simp only at a2 k2 l2
  have t2 : ({ Strided.mk' z [n] with data := v2'.data } : Strided K).IsTensor :=
    ⟨t0.off, t0.strides, by simp only [l2, l1]; exact t0.length⟩
  obtain ⟨t, e3, fr, h3⟩ := C52_scale_partial (1 / ((n : K) * d)) _ _ t2.rowMajor (by simp [Strided.mk']) k2
  have t3 := fr.isTensor t2
  have d3 : t.dims = [n] := fr.dims
  refine ⟨t, ?_, t3, d3, ?_⟩
  · unfold fftfreq
    rw [if_neg (by omega)]
    simp only [hN, hT, Int.toNat_natCast]
    simp only [Int.cast_zero] at e1 e2
    rw [e1]
    simp only [Outcome.ok_bind]
    rw [show (0 : Int) = ((0 : Nat) : Int) from rfl, q1]
    simp only [Outcome.ok_bind, a1]
    rw [e2]
    simp only [Outcome.ok_bind]
    rw [q2]
    simp only [Outcome.ok_bind, a2]
    rw [← e3]
    simp
  · intro k hk
    refine ⟨freqIdx n k, ?_, ?_, ?_, ?_⟩
    · unfold freqIdx; split <;> omega
    · unfold freqIdx; split <;> omega
    · unfold freqIdx; split
      · simp
      · exact ⟨1, by omega⟩
    · rw [read_vec_nat d3 h3 hk]
      simp only [List.headD_cons]
      congr 1
      rw [one_div, mul_comm, ← div_eq_mul_inv]

/-- **C124 (refuted: no elements).** `fftfreq(0, d)` does not return an empty vector: it writes an element past the end of
its storage. -/
theorem C124_zero_refuted (z : Nat → K) (d : K) : (fftfreq z 0 d).isUb = true := by
  obtain ⟨p1, e1, h1⟩ := arange_int z 0 1 1 rfl (by omega)
  unfold fftfreq
  rw [if_neg (by omega)]
  simp only [show ((0 : Int) - 1).tdiv 2 + 1 = 1 from rfl]
  simp only [Int.cast_zero] at e1
  rw [e1]
  simp only [Outcome.ok_bind]
  have e2 : p1.read [0] = .ok 0 := by
    have := h1.elems [0] (by rw [h1.dims]; exact ⟨by omega, trivial⟩)
    exact this.trans (by simp)
  have q : (Strided.mk' z [(0 : Int).toNat]).ranges [(0, 1)] = .ok ⟨[], 0, [1], [1]⟩ := rfl
  rw [q]
  simp only [Outcome.ok_bind]
  have a : (Strided.mk [] 0 [1] [1] : Strided K).assignView p1 = .ub "access outside the storage" := by
    simp only [Strided.assignView]
    show copyLoop p1 [[0]] _ = _
    simp only [copyLoop, toIdx, List.map_cons, List.map_nil]
    rw [show Int.ofNat 0 = 0 from rfl, e2]
    rfl
  rw [a]
  rfl

/-- **C124 (negative length).** A negative length is refused. -/
theorem C124_negative (z : Nat → K) (n : Int) (d : K) (h : n < 0) : (fftfreq z n d).isError = true := by
  unfold fftfreq
  rw [if_pos h]
  rfl

end

/-- Five frequencies, spacing 1/10: `0, 2, 4, -4, -2`. -/
example : ∃ t, fftfreq (fun _ => (7 : ℚ)) 5 (1 / 10) = .ok t ∧ t.read [2] = .ok 4 ∧ t.read [3] = .ok (-4) := by
  obtain ⟨t, h1, _, _, h2⟩ := C124_partial (fun _ => (7 : ℚ)) 5 (1 / 10) (by decide) (by decide) (by norm_num)
  refine ⟨t, h1, ?_, ?_⟩
  · obtain ⟨m, g1, g2, ⟨q, g3⟩, g4⟩ := h2 2 (by decide)
    obtain rfl : m = 2 := by omega
    exact g4.trans (by norm_num)
  · obtain ⟨m, g1, g2, ⟨q, g3⟩, g4⟩ := h2 3 (by decide)
    obtain rfl : m = -2 := by omega
    exact g4.trans (by norm_num)

end Einsums.Props
