import Verif.Proofs.Companion
import Verif.Model.Polynomial
/-
C45 (Laguerre series), C69 (views with a computed dimension), C70 (companion matrix), C71 (domain).
-/
namespace Einsums.Props
open Polynomial Spec Model

section
variable {K : Type} [Field K]

/-! ### C45: value and derivative -/

/-- **C45 (value).** For every shape of `x`, every non-empty vector of coefficients `c` (also a view), every thread count
and interleaving of every compound assignment: `value(x, c)` has the shape of `x`, and at each index the value of the
Laguerre series at the element of `x` there. -/
theorem C45_value [CharZero K] (z : Nat → K) (x c : Strided K) (hx : x.IsTensor) (hx0 : x.dims ≠ []) (X : List Nat → K)
    (hX : x.Represents X) (N : Nat) (hN : N ≠ 0) (w : c.WF) (hd : c.dims = [N]) (C : List Nat → K) (hC : c.Represents C)
    (sch : Nat → Nat → List Nat) (hs : ∀ i k, ∃ n, 0 < n ∧ Schedule (compoundThreads (numel x.dims) n) (sch i k)) :
    ∃ t, lagValue z x c sch = .ok t ∧ t.IsTensor ∧ t.dims = x.dims ∧
      t.Represents fun p => (laguerreSeries N (fun j => C [j])).eval (X p) := by
  obtain ⟨t, e, h⟩ := lagValue_eq z hx0 (⟨hx, rfl, hX⟩ : Holds x x.dims X) hN w hd hC hs
  exact ⟨t, e, h.tensor, h.dims, h.elems⟩

/-- **C45 (no coefficients).** An empty series is read outside its storage. -/
theorem C45_value_empty (z : Nat → K) (x c : Strided K) (hc : c.IsTensor) (hd : c.dims = [0]) (sch : Nat → Nat → List Nat) :
    (lagValue z x c sch).isUb = true := by
  have h1 : c.read [-2] = .ub "access outside the storage" := by
    unfold Strided.read Strided.addr
    rw [hd, hc.off, hc.strides, hd]
    simp [normIdx, innerProduct, dimsToStrides]
  unfold lagValue valueCoeffs
  have h2 : c.dim 0 = 0 := by simp [Strided.dim, hd]
  rw [h2, if_neg (by omega), if_neg (by omega), h1]
  rfl

/-- **C45 (derivative).** For every non-empty vector of coefficients, every order `m` and scale, every thread count and
interleaving: the series with the coefficients `derivative(c, m, scale)` is the m-th derivative of the series, times
`scale` to the m. -/
theorem C45_derivative [CharZero K] (z : Nat → K) (c : Strided K) (hc : c.IsTensor) (N : Nat) (hN : N ≠ 0)
    (hd : c.dims = [N]) (g : List Nat → K) (hg : c.Represents g) (m : Nat) (scale : K) (sch : Nat → List Nat)
    (hs : ∀ i, i < N → ∃ n, 0 < n ∧ Schedule (compoundThreads (N - i) n) (sch i)) :
    ∃ t d G, lagDerivative z sch c m scale = .ok t ∧ t.IsTensor ∧ t.dims = [d] ∧ t.Represents G ∧
      laguerreSeries d (fun k => G [k]) = Polynomial.C (scale ^ m) * derivative^[m] (laguerreSeries N fun k => g [k]) := by
  obtain ⟨t, d, G, e, h, hp⟩ := lagDerivative_eq z scale hN (⟨hc, hd, hg⟩ : Holds c [N] g) m hs
  exact ⟨t, d, G, e, h.tensor, h.dims, h.elems, hp⟩

/-- The order in which one thread performs its updates. -/
theorem schedule_one (len : Nat) : ∃ n, 0 < n ∧ Schedule (compoundThreads len n) (List.range len) := by
  refine ⟨1, one_pos, ?_⟩
  have : compoundThreads len 1 = [List.range len] := by
    simp [compoundThreads, chunkPositions, chunkEnd, chunkBegin]
  rw [this]
  generalize List.range len = l
  induction l with
  | nil => exact .done (by simp)
  | cons a l ih => exact .step (i := 0) (x := a) (xs := l) rfl ih

-- 1 + 2 L₁ + 3 L₂ at 0 and 2, and the coefficients of its derivative
example : lagValue (fun _ => (0 : ℚ)) ⟨[0, 2], 0, [2], [1]⟩ ⟨[1, 2, 3], 0, [3], [1]⟩ (fun _ _ => [0, 1]) =
    .ok ⟨[6, -4], 0, [2], [1]⟩ := by decide +kernel
example : lagDerivative (fun _ => (0 : ℚ)) (fun _ => [0, 1, 2]) ⟨[1, 2, 3], 0, [3], [1]⟩ 1 1 =
    .ok ⟨[-5, -3], 0, [2], [1]⟩ := by decide +kernel

end

/-! ### C69: views with a computed dimension -/

/-- **C69 (partial).** A rank 1 view with dimension −1, offset `o` and stride `s` of a contiguous vector of `N` elements has
an element `k` exactly if `o + k s < N`, and it is the element `o + k s` of the vector — if `N` and `s` are below 2^24.
`fl` is any rounding to a nearest `float`. -/
theorem C69_auto_dimension_partial {α : Type} (fl : ℚ → ℚ) (hfl : NearestFloat fl) (t : Strided α) (N : Nat)
    (hd : t.dims = [N]) (ht : t.RowMajor) (o s : Nat) (ho : o ≤ N) (hs : 0 < s) (hN24 : N < 2 ^ 24) (hs24 : s < 2 ^ 24) :
    ∃ v d, autoView fl t [o] (some s) = .ok v ∧ v.dims = [d] ∧ v.data = t.data ∧ (∀ k, k < d ↔ o + k * s < N) ∧
      ∀ k : Nat, k < d → v.read [(k : Int)] = t.read [((o + k * s : Nat) : Int)] := by
  have hst : t.strides = [1] := by rw [ht.strides, hd]; simp [dimsToStrides]
  have hfit : t.off + N ≤ t.data.length := by have := ht.fits; rw [hd] at this; simpa [numel] using this
  obtain ⟨d, h1, h2⟩ := ceil_div_spec (m := N - o) hs
  have hda : autoDim fl N o s = d := by rw [autoDim_eq hfl hN24 hs hs24, h1]
  have hk : ∀ k, k < d ↔ o + k * s < N := by intro k; rw [h2 k]; omega
  refine ⟨_, d, autoView_vec fl hst hd hfit (by omega) ho (by omega) hda, rfl, rfl, hk, fun k hkd => ?_⟩
  have hlt := (hk k).1 hkd
  have e1 : (⟨t.data, t.off + o, [d], [s]⟩ : Strided α).read (toIdx [k]) = .ok (t.data[t.off + o + k * s]'(by omega)) := by
    rw [read_eq (t := ⟨t.data, t.off + o, [d], [s]⟩) (js := [k]) (pyIndices_toIdx (ds := [d]) ⟨hkd, trivial⟩)
      (by simp only [dot]; omega)]
    simp [dot]
  have e2 : t.read (toIdx [o + k * s]) = .ok (t.data[t.off + o + k * s]'(by omega)) := by
    rw [read_eq (js := [o + k * s]) (pyIndices_toIdx (by rw [hd]; exact ⟨hlt, trivial⟩))
      (by rw [hst]; simp only [dot]; omega)]
    simp [hst, dot, Nat.add_assoc]
  exact e1.trans e2.symm

/-- **C69 (refuted).** Whatever way ties are rounded, the view with stride 4099 of a vector of 4098² elements has 4097
elements, although element 4097 · 4099 of the vector exists. -/
theorem C69_auto_dimension_refuted {α : Type} (fl : ℚ → ℚ) (hfl : NearestFloat fl) (t : Strided α)
    (hd : t.dims = [16793604]) (ht : t.RowMajor) :
    ∃ v, autoView fl t [0] (some 4099) = .ok v ∧ v.dims = [4097] ∧ 0 + 4097 * 4099 < 16793604 := by
  have hst : t.strides = [1] := by rw [ht.strides, hd]; simp [dimsToStrides]
  have hfit : t.off + 16793604 ≤ t.data.length := by have := ht.fits; rw [hd] at this; simpa [numel] using this
  have hda : autoDim fl 16793604 0 4099 = ((4097 : Nat) : Int) := by
    unfold autoDim
    rw [Nat.sub_zero, show (16793604 : Nat) = 2 * 8396802 by norm_num, hfl.exact (representable_even (by norm_num)),
      hfl.exact (representable_nat (m := 4099) (by norm_num))]
    have : fl (((2 * 8396802 : Nat) : ℚ) / ((4099 : Nat) : ℚ)) = ((4097 * 2048 : Int) : ℚ) / 2048 := by
      apply float_near hfl (by norm_num) (by norm_num) <;> norm_num
    rw [this, Int.ceil_eq_iff]
    constructor <;> norm_num
  exact ⟨_, autoView_vec fl hst hd hfit (by norm_num) (by norm_num) (by norm_num) hda, rfl, by norm_num⟩

/-! ### C70: the companion matrix -/

section
variable {K : Type} [Field K] [LinearOrder K] [IsStrictOrderedRing K] [FloorRing K]

/-- **C70 (partial).** The eigenvalues of `companion(c)` are exactly the roots of the series `c`, if the series has degree 1,
or if its degree is below 4096 and only the last coefficient is not zero. -/
theorem C70_companion_partial (fl : ℚ → ℚ) (hfl : NearestFloat fl) (z : Nat → K) (c : Strided K) (n : Nat)
    (hn : 0 < n) (hd : c.dims = [n + 1]) (C : List Nat → K) (hC : c.Represents C) (hlast : C [n] ≠ 0)
    (hcase : n = 1 ∨ n < 2 ^ 12 ∧ ∀ k, k < n → C [k] = 0) (sch : Nat → List Nat)
    (s0 : ∃ m, 0 < m ∧ Schedule (compoundThreads (n - 1) m) (sch 0))
    (s1 : ∃ m, 0 < m ∧ Schedule (compoundThreads n m) (sch 1))
    (s2 : ∃ m, 0 < m ∧ Schedule (compoundThreads n m) (sch 2)) :
    ∃ t M, companion fl z sch c = .ok t ∧ t.IsTensor ∧ t.dims = [n, n] ∧ t.Represents M ∧
      ∀ x, Eigenvalue n M x ↔ (laguerreSeries (n + 1) fun k => C [k]).eval x = 0 := by
  by_cases h1 : n = 1
  · subst h1
    have hdim : c.dim 0 = 2 := by simp [Strided.dim, hd]
    have ht := isTensor_mk' z (dims := [1, 1]) (by simp)
    have : Inhabited K := ⟨0⟩
    obtain ⟨f, hf⟩ := exists_represents ht.wf
    obtain ⟨t, e, fr, r⟩ := write_represents ht.wf hf (j := [0, 0]) ⟨by simp, by simp, trivial⟩ (1 + C [0] / C [1])
    refine ⟨t, _, ?_, fr.isTensor ht, fr.dims, r, ?_⟩
    · unfold companion
      rw [if_neg (by omega), if_pos hdim]
      have r0 := read_vec_nat hd hC (j := 0) (by omega)
      have r1 := read_vec_nat hd hC (j := 1) (by omega)
      simp only [Nat.cast_zero, Nat.cast_one] at r0 r1
      rw [r0, Outcome.ok_bind, r1, Outcome.ok_bind]
      exact e
    · intro x
      have hs : (laguerreSeries 2 fun k => C [k]).eval x = C [0] + C [1] * (1 - x) := by
        simp [laguerreSeries, laguerre_zero, laguerre_one, Finset.sum_range_succ]
      rw [hs]
      constructor
      · rintro ⟨v, ⟨k, hk, hvk⟩, hv⟩
        have h0 := hv 0 (by omega)
        obtain rfl : k = 0 := by omega
        simp only [Finset.sum_range_one, if_true] at h0
        have := mul_right_cancel₀ hvk h0
        field_simp at this
        linear_combination this
      · intro h
        refine ⟨fun _ => 1, ⟨0, by omega, one_ne_zero⟩, fun a ha => ?_⟩
        obtain rfl : a = 0 := by omega
        simp only [Finset.sum_range_one, if_true]
        field_simp
        linear_combination h
  · obtain ⟨h12, h0⟩ := hcase.resolve_left h1
    obtain ⟨M, e, hM⟩ := companion_small hfl z (by omega) h12 hd s0 s1 s2
    refine ⟨M, _, e, hM.tensor, hM.dims, hM.elems, fun x => ?_⟩
    have hs : (laguerreSeries (n + 1) fun k => C [k]).eval x = C [n] * (laguerre n).eval x := by
      unfold laguerreSeries
      rw [Finset.sum_range_succ, Finset.sum_eq_zero, zero_add, eval_mul, eval_C]
      intro k hk
      simp [h0 k (Finset.mem_range.1 hk)]
    rw [hs, mul_eq_zero, or_iff_right hlast]
    exact companion_eigen hn x

/-- **C70 (too few coefficients).** A series of degree 0, or an empty one, is refused. -/
theorem C70_companion_throws (fl : ℚ → ℚ) (z : Nat → K) (c : Strided K) (n : Nat) (hd : c.dims = [n]) (hn : n < 2)
    (sch : Nat → List Nat) : (companion fl z sch c).isError = true := by
  unfold companion
  rw [if_pos (by simpa [Strided.dim, hd] using hn)]
  rfl

/-- **C70 (refuted).** 0 is a root of −1 + L₂ but not an eigenvalue of its companion matrix: the coefficients below the
last are not used. -/
theorem C70_companion_refuted (fl : ℚ → ℚ) (hfl : NearestFloat fl) :
    ∃ t, companion fl (fun _ => (0 : ℚ)) (fun k => List.range (if k = 0 then 1 else 2)) ⟨[-1, 0, 1], 0, [3], [1]⟩ = .ok t ∧
      t.dims = [2, 2] ∧ (∀ M, t.Represents M → ¬ Eigenvalue 2 M 0) ∧
      (laguerreSeries 3 fun k => ([-1, 0, 1] : List ℚ).getD k 0).eval 0 = 0 := by
  obtain ⟨M, e, hM⟩ := companion_small (n := 2) hfl (fun _ => (0 : ℚ)) (sch := fun k => List.range (if k = 0 then 1 else 2))
    (c := ⟨[-1, 0, 1], 0, [3], [1]⟩) (by norm_num) (by norm_num) rfl (schedule_one 1) (schedule_one 2) (schedule_one 2)
  refine ⟨M, e, hM.dims, ?_, ?_⟩
  · rintro f hf ⟨v, ⟨k, hk, hvk⟩, hv⟩
    have hfe : ∀ a b, a < 2 → b < 2 → f [a, b] = companionElem 2 [a, b] := by
      intro a b ha hb
      have hi : InBox [a, b] M.dims := by rw [hM.dims]; exact ⟨ha, hb, trivial⟩
      have h1 := hf _ hi
      rw [hM.elems _ hi] at h1
      exact (Outcome.ok.inj h1).symm
    have h0 := hv 0 (by omega)
    have h1 := hv 1 (by omega)
    simp only [Finset.sum_range_succ, Finset.sum_range_zero, zero_add, zero_mul] at h0 h1
    rw [hfe 0 0 (by omega) (by omega), hfe 0 1 (by omega) (by omega)] at h0
    rw [hfe 1 0 (by omega) (by omega), hfe 1 1 (by omega) (by omega)] at h1
    simp [companionElem] at h0 h1
    have e1 : v 1 = 0 := by linarith
    have e0 : v 0 = 0 := by linarith
    match k, hk with
    | 0, _ => exact hvk e0
    | 1, _ => exact hvk e1
  · simp [laguerreSeries, Finset.sum_range_succ, laguerre, Nat.factorial]

/-- **C70 (large degrees, refuted).** For the series L₄₀₉₈ the last diagonal element is left 0 instead of 8195. -/
theorem C70_companion_large_refuted (fl : ℚ → ℚ) (hfl : NearestFloat fl) (z : Nat → K) (c : Strided K)
    (hd : c.dims = [4099]) (sch : Nat → List Nat)
    (s0 : ∃ m, 0 < m ∧ Schedule (compoundThreads 4097 m) (sch 0))
    (s1 : ∃ m, 0 < m ∧ Schedule (compoundThreads 4098 m) (sch 1))
    (s2 : ∃ m, 0 < m ∧ Schedule (compoundThreads 4098 m) (sch 2)) :
    ∃ t, companion fl z sch c = .ok t ∧ t.read [4096, 4096] = .ok 8193 ∧ t.read [4097, 4097] = .ok 0 := by
  obtain ⟨M, e, hM⟩ := companion_4098 hfl z hd s0 s1 s2
  refine ⟨M, e, ?_, ?_⟩
  · have := hM.elems [4096, 4096] (by rw [hM.dims]; exact ⟨by norm_num, by norm_num, trivial⟩)
    rw [companionElem_pair, if_neg (by norm_num), if_pos rfl, if_pos (by norm_num)] at this
    norm_num at this
    exact this
  · have := hM.elems [4097, 4097] (by rw [hM.dims]; exact ⟨by norm_num, by norm_num, trivial⟩)
    rw [companionElem_pair, if_neg (by norm_num), if_pos rfl, if_neg (by norm_num)] at this
    exact this

end

/-! ### C71: get_domain -/

section
variable {R : Type} [LinearOrder R]

theorem domain_fold {x : Strided R} {N : Nat} (hd : x.dims = [N]) {X : List Nat → R} (hX : x.Represents X) (is : List Nat)
    (his : ∀ i ∈ is, i < N) (s : R × R) :
    ∃ s', is.foldlM (fun (s : R × R) (i : Nat) => do
      let v ← x.read [(i : Int)]
      return (if decide (v < s.1) then v else s.1, if decide (s.2 < v) then v else s.2)) s = Outcome.ok s' ∧
      s'.1 ≤ s.1 ∧ s.2 ≤ s'.2 ∧ (∀ i ∈ is, s'.1 ≤ X [i] ∧ X [i] ≤ s'.2) ∧
      (s'.1 = s.1 ∨ ∃ i ∈ is, s'.1 = X [i]) ∧ (s'.2 = s.2 ∨ ∃ i ∈ is, s'.2 = X [i]) := by
  induction is generalizing s with
  | nil => exact ⟨s, rfl, le_refl _, le_refl _, by simp, Or.inl rfl, Or.inl rfl⟩
  | cons i is ih =>
    obtain ⟨s', e, h1, h2, h3, h4, h5⟩ := ih (fun j hj => his j (by simp [hj]))
      (if decide (X [i] < s.1) then X [i] else s.1, if decide (s.2 < X [i]) then X [i] else s.2)
    simp only [decide_eq_true_eq] at h1 h2 h3 h4 h5
    have a1 : (if X [i] < s.1 then X [i] else s.1) ≤ s.1 ∧ (if X [i] < s.1 then X [i] else s.1) ≤ X [i] := by
      split
      · next h => exact ⟨h.le, le_refl _⟩
      · next h => exact ⟨le_refl _, not_lt.1 h⟩
    have a2 : s.2 ≤ (if s.2 < X [i] then X [i] else s.2) ∧ X [i] ≤ (if s.2 < X [i] then X [i] else s.2) := by
      split
      · next h => exact ⟨h.le, le_refl _⟩
      · next h => exact ⟨le_refl _, not_lt.1 h⟩
    refine ⟨s', ?_, h1.trans a1.1, a2.1.trans h2, ?_, ?_, ?_⟩
    · rw [List.foldlM_cons, read_vec_nat hd hX (his i (by simp)), Outcome.ok_bind]
      exact e
    · intro j hj
      rcases List.mem_cons.1 hj with rfl | hj
      · exact ⟨h1.trans a1.2, a2.2.trans h2⟩
      · exact h3 j hj
    · rcases h4 with h4 | ⟨j, hj, h4⟩
      · by_cases h : X [i] < s.1
        · rw [if_pos h] at h4; exact Or.inr ⟨i, by simp, h4⟩
        · rw [if_neg h] at h4; exact Or.inl h4
      · exact Or.inr ⟨j, by simp [hj], h4⟩
    · rcases h5 with h5 | ⟨j, hj, h5⟩
      · by_cases h : s.2 < X [i]
        · rw [if_pos h] at h5; exact Or.inr ⟨i, by simp, h5⟩
        · rw [if_neg h] at h5; exact Or.inl h5
      · exact Or.inr ⟨j, by simp [hj], h5⟩

theorem domain_parts {x : Strided R} {N : Nat} (hN : 0 < N) (hd : x.dims = [N]) {X : List Nat → R} (hX : x.Represents X)
    (parts : List (List Nat)) (hp : ∀ is ∈ parts, ∀ i ∈ is, i < N) (s : R × R) (hs1 : ∃ i, i < N ∧ s.1 = X [i])
    (hs2 : ∃ i, i < N ∧ s.2 = X [i]) :
    ∃ s', parts.foldlM (fun (s : R × R) (is : List Nat) => do
      let l ← domainThread (fun a b => decide (a < b)) x is
      return (if decide (l.1 < s.1) then l.1 else s.1, if decide (s.2 < l.2) then l.2 else s.2)) s = Outcome.ok s' ∧
      s'.1 ≤ s.1 ∧ s.2 ≤ s'.2 ∧ (∀ i ∈ parts.flatten, s'.1 ≤ X [i] ∧ X [i] ≤ s'.2) ∧
      (∃ i, i < N ∧ s'.1 = X [i]) ∧ (∃ i, i < N ∧ s'.2 = X [i]) := by
  induction parts generalizing s with
  | nil => exact ⟨s, rfl, le_refl _, le_refl _, by simp, hs1, hs2⟩
  | cons is parts ih =>
    obtain ⟨l, el, l1, l2, l3, l4, l5⟩ := domain_fold hd hX is (hp is (by simp)) (X [0], X [0])
    have b1 : ∃ i, i < N ∧ l.1 = X [i] := by
      rcases l4 with h | ⟨i, hi, h⟩
      · exact ⟨0, hN, h⟩
      · exact ⟨i, hp is (by simp) i hi, h⟩
    have b2 : ∃ i, i < N ∧ l.2 = X [i] := by
      rcases l5 with h | ⟨i, hi, h⟩
      · exact ⟨0, hN, h⟩
      · exact ⟨i, hp is (by simp) i hi, h⟩
    obtain ⟨s', e, h1, h2, h3, h4, h5⟩ := ih (fun j hj => hp j (by simp [hj]))
      (if decide (l.1 < s.1) then l.1 else s.1, if decide (s.2 < l.2) then l.2 else s.2)
      (by simp only; split; exact b1; exact hs1) (by simp only; split; exact b2; exact hs2)
    simp only [decide_eq_true_eq] at h1 h2
    have a1 : (if l.1 < s.1 then l.1 else s.1) ≤ s.1 ∧ (if l.1 < s.1 then l.1 else s.1) ≤ l.1 := by
      split
      · next h => exact ⟨h.le, le_refl _⟩
      · next h => exact ⟨le_refl _, not_lt.1 h⟩
    have a2 : s.2 ≤ (if s.2 < l.2 then l.2 else s.2) ∧ l.2 ≤ (if s.2 < l.2 then l.2 else s.2) := by
      split
      · next h => exact ⟨h.le, le_refl _⟩
      · next h => exact ⟨le_refl _, not_lt.1 h⟩
    refine ⟨s', ?_, h1.trans a1.1, a2.1.trans h2, ?_, h4, h5⟩
    · have r0 := read_vec_nat hd hX hN
      simp only [Nat.cast_zero] at r0
      have ed : domainThread (fun a b => decide (a < b)) x is = .ok l := by
        unfold domainThread
        rw [r0, Outcome.ok_bind]
        exact el
      rw [List.foldlM_cons, ed, Outcome.ok_bind]
      exact e
    · intro j hj
      rw [List.flatten_cons, List.mem_append] at hj
      rcases hj with hj | hj
      · exact ⟨(h1.trans a1.2).trans (l3 j hj).1, (l3 j hj).2.trans (a2.2.trans h2)⟩
      · exact h3 j hj

/-- **C71.** For every non-empty vector, every distribution of the iterations over threads and every order of the critical
sections, `get_domain` is the least and the greatest element. -/
theorem C71_domain (z : Nat → R) (x : Strided R) (N : Nat) (hN : 0 < N) (hd : x.dims = [N]) (X : List Nat → R)
    (hX : x.Represents X) (parts : List (List Nat)) (hp : parts.flatten.Perm (List.range' 1 (N - 1))) :
    ∃ t lo hi, getDomain (fun a b => decide (a < b)) z x parts = .ok t ∧ t.IsTensor ∧ t.dims = [2] ∧
      t.read [0] = .ok lo ∧ t.read [1] = .ok hi ∧ (∃ i, i < N ∧ lo = X [i]) ∧ (∃ i, i < N ∧ hi = X [i]) ∧
      ∀ i, i < N → lo ≤ X [i] ∧ X [i] ≤ hi := by
  have : Inhabited R := ⟨X [0]⟩
  have r0 := read_vec_nat hd hX hN
  simp only [Nat.cast_zero] at r0
  have hlt : ∀ is ∈ parts, ∀ i ∈ is, i < N := by
    intro is his i hi
    have := hp.mem_iff.1 (List.mem_flatten.2 ⟨is, his, hi⟩)
    rw [List.mem_range'_1] at this
    omega
  obtain ⟨s, e, h1, h2, h3, h4, h5⟩ := domain_parts hN hd hX parts hlt (X [0], X [0]) ⟨0, hN, rfl⟩ ⟨0, hN, rfl⟩
  have ht := isTensor_mk' z (dims := [2]) (by simp)
  obtain ⟨f, hf⟩ := exists_represents ht.wf
  obtain ⟨t1, e1, k1⟩ := Holds.write (⟨ht, rfl, hf⟩ : Holds _ [2] f) (j := 0) (by omega) s.1
  obtain ⟨t2, e2, k2⟩ := k1.write (j := 1) (by omega) s.2
  refine ⟨t2, s.1, s.2, ?_, k2.tensor, k2.dims, ?_, ?_, h4, h5, ?_⟩
  · unfold getDomain
    rw [r0, Outcome.ok_bind, e, Outcome.ok_bind]
    simp only [Nat.cast_zero] at e1
    rw [e1, Outcome.ok_bind]
    exact e2
  · have := read_vec_nat k2.dims k2.elems (j := 0) (by omega)
    simpa using this
  · have := read_vec_nat k2.dims k2.elems (j := 1) (by omega)
    simpa using this
  · intro i hi
    by_cases h0 : i = 0
    · subst h0; exact ⟨h1, h2⟩
    · exact h3 i (hp.mem_iff.2 (by rw [List.mem_range'_1]; omega))

/-- **C71 (empty).** An empty vector is read outside its storage. -/
theorem C71_domain_empty (z : Nat → R) (x : Strided R) (hx : x.IsTensor) (hd : x.dims = [0]) (parts : List (List Nat)) :
    (getDomain (fun a b => decide (a < b)) z x parts).isUb = true := by
  have h1 : x.read [0] = .ub "access outside the storage" := by
    unfold Strided.read Strided.addr
    rw [hd, hx.off, hx.strides, hd, hx.length, hd]
    simp [normIdx, innerProduct, dimsToStrides, numel]
  unfold getDomain
  rw [h1]
  rfl

end

example : getDomain (fun a b => decide (a < b)) (fun _ => (0 : Int)) ⟨[3, -1, 4, 1, 5], 0, [5], [1]⟩ [[2, 4], [], [1, 3]] =
    .ok ⟨[-1, 5], 0, [2], [1]⟩ ∧ ([[2, 4], [], [1, 3]] : List (List Nat)).flatten.Perm (List.range' 1 4) := by
  decide

end Einsums.Props
