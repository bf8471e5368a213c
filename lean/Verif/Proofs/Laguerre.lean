import Verif.Model.Laguerre
import Verif.Proofs.LaguerrePoly
import Verif.Proofs.Utilities
import Verif.Props.View
import Mathlib.Tactic.Linarith
import Mathlib.Algebra.Polynomial.BigOperators
import Mathlib.Algebra.Polynomial.Degree.Lemmas
/-
Proofs about the Laguerre functions.
-/
namespace Einsums
open Polynomial Spec Model Props

section
variable {K : Type}

/-- A tensor of the given shape with the given elements. -/
structure Holds (t : Strided K) (d : List Nat) (f : List Nat → K) : Prop where
  tensor : t.IsTensor
  dims : t.dims = d
  elems : t.Represents f

/-- An interleaving of the updates of some number of threads on `len` elements. -/
def AnySchedule (len : Nat) (s : List Nat) : Prop := ∃ n, 0 < n ∧ Schedule (compoundThreads len n) s

theorem Holds.length {t : Strided K} {d : List Nat} {f : List Nat → K} (h : Holds t d f) : t.data.length = numel d := by
  rw [h.tensor.length, h.dims]

theorem Holds.congr {t : Strided K} {d : List Nat} {f g : List Nat → K} (h : Holds t d f) (e : ∀ i, InBox i d → f i = g i) :
    Holds t d g :=
  ⟨h.tensor, h.dims, fun i hi => by rw [h.elems i hi, e i (h.dims ▸ hi)]⟩

theorem holds_set (z : Nat → K) {d : List Nat} (hd : d ≠ []) (v : K) : Holds ((Strided.mk' z d).setAll v) d fun _ => v :=
  let h := setAll_mk' z hd v
  ⟨h.1, h.2.1, h.2.2⟩

theorem Holds.setAll {t : Strided K} {d : List Nat} {f : List Nat → K} (h : Holds t d f) (v : K) :
    Holds (t.setAll v) d fun _ => v :=
  let x := setAll_represents h.tensor v
  ⟨x.1.isTensor h.tensor, x.1.dims.trans h.dims, x.2⟩

theorem Holds.scalar {t : Strided K} {d : List Nat} {f : List Nat → K} (h : Holds t d f) (op : K → K → K) (b : K)
    {s : List Nat} (hs : AnySchedule (numel d) s) : Holds (t.compoundScalar op b s) d fun i => op (f i) b := by
  obtain ⟨n, hn, hs⟩ := hs
  rw [C13_scalar op t b n hn s (by rw [h.length]; exact hs)]
  have ht : ({ t with data := t.data.map fun x => op x b } : Strided K).IsTensor :=
    ⟨h.tensor.off, h.tensor.strides, by simpa using h.tensor.length⟩
  refine ⟨ht, h.dims, ht.represents_iff.2 ?_⟩
  simp only
  rw [h.tensor.represents_iff.1 h.elems, List.map_map]
  rfl

theorem Holds.tensorOp [Inhabited K] {t u : Strided K} {d : List Nat} {f g : List Nat → K} (h : Holds t d f) (hu : Holds u d g)
    (op : K → K → K) {s : List Nat} (hs : AnySchedule (numel d) s) :
    ∃ t', t.compoundTensor op u s = .ok t' ∧ Holds t' d fun i => op (f i) (g i) := by
  obtain ⟨n, hn, hs⟩ := hs
  have hd : t.dims = u.dims := by rw [h.dims, hu.dims]
  refine ⟨_, C13_tensor op t u h.tensor hu.tensor (by rw [hd]) n hn s (by rw [h.length]; exact hs), ?_⟩
  have ht : ({ t with data := t.data.zipWith op u.data } : Strided K).IsTensor :=
    ⟨h.tensor.off, h.tensor.strides, by simp [h.tensor.length, hu.tensor.length, hd]⟩
  refine ⟨ht, h.dims, ht.represents_iff.2 ?_⟩
  simp only
  rw [h.tensor.represents_iff.1 h.elems, hu.tensor.represents_iff.1 hu.elems, hd]
  simp [List.zipWith_map, List.zipWith_self]

theorem Holds.assign (z : Nat → K) {t u : Strided K} {d e : List Nat} {f g : List Nat → K} (h : Holds t d f)
    (hu : Holds u e g) (hl : d.length = e.length) (hne : e ≠ []) :
    ∃ t', t.assign z u = .ok t' ∧ Holds t' e g := by
  obtain ⟨t', h1, h2, h3, h4⟩ := C11_assign z t u h.tensor hu.tensor (by rw [h.dims, hu.dims, hl]) (by rw [hu.dims]; exact hne)
  refine ⟨t', h1, h2, h3.trans hu.dims, fun i hi => ?_⟩
  rw [h3] at hi
  rw [h4 i hi, hu.elems i hi]

/-- Reading a vector. -/
theorem read_vec {c : Strided K} {N : Nat} {C : List Nat → K} (w : c.WF) (hd : c.dims = [N]) (hC : c.Represents C)
    {i : Int} {j : Nat} (h : pyIndex N i = some j) (hj : j < N) : c.read [i] = .ok (C [j]) := by
  have hp : pyIndices c.dims [i] = some [j] := by
    rw [hd]; simp [pyIndices, h]
  rw [read_normalise w hp]
  exact hC [j] (by rw [hd]; exact ⟨hj, trivial⟩)

theorem read_vec_nat {c : Strided K} {N : Nat} {C : List Nat → K} (hd : c.dims = [N]) (hC : c.Represents C) {j : Nat}
    (hj : j < N) : c.read [(j : Int)] = .ok (C [j]) :=
  hC [j] (by rw [hd]; exact ⟨hj, trivial⟩)

theorem read_vec_neg {c : Strided K} {N : Nat} {C : List Nat → K} (w : c.WF) (hd : c.dims = [N]) (hC : c.Represents C) {i : Nat}
    (h0 : 0 < i) (h : i ≤ N) : c.read [-(i : Int)] = .ok (C [N - i]) := by
  refine read_vec w hd hC ?_ (by omega)
  unfold pyIndex
  rw [if_neg (by omega), if_pos (by omega)]
  congr 1
  omega

theorem Holds.write {t : Strided K} {N : Nat} {f : List Nat → K} (h : Holds t [N] f) {j : Nat} (hj : j < N) (v : K) :
    ∃ t', t.write [(j : Int)] v = .ok t' ∧ Holds t' [N] fun i => if i = [j] then v else f i := by
  obtain ⟨t', h1, fr, r⟩ := write_represents h.tensor.wf h.elems (j := [j]) (by rw [h.dims]; exact ⟨hj, trivial⟩) v
  exact ⟨t', h1, fr.isTensor h.tensor, fr.dims.trans h.dims, r⟩

end

section
variable {K : Type} [Field K]

/-! ### value -/

theorem valueStep_eq (z : Nat → K) {x c : Strided K} {d : List Nat} (hd0 : d ≠ []) {X : List Nat → K} (hx : Holds x d X)
    {N : Nat} {C : List Nat → K} (w : c.WF) (hd : c.dims = [N]) (hC : c.Represents C) {sch : Nat → List Nat}
    (hs : ∀ k, AnySchedule (numel d) (sch k)) {s : ValueState K} {f0 f1 : List Nat → K} (h0 : Holds s.c0 d f0)
    (h1 : Holds s.c1 d f1) {i : Nat} (hi : 0 < i) (hiN : i ≤ N) :
    ∃ s', valueStep z x c sch s i = .ok s' ∧ s'.nd = s.nd - 1 ∧
      Holds s'.c0 d (fun p => f1 p * ((s.nd - 1 - 1 : Nat) : K) / ((s.nd - 1 : Nat) : K) * (-1) + C [N - i]) ∧
      Holds s'.c1 d (fun p => f0 p + (((2 * (s.nd - 1) - 1 : Nat) : K) - X p) * f1 p / ((s.nd - 1 : Nat) : K)) := by
  have : Inhabited K := ⟨0⟩
  obtain rfl := hx.dims
  obtain ⟨f, hf⟩ := exists_represents (isTensor_mk' z hd0).wf
  have hmk : Holds (Strided.mk' z x.dims) x.dims f := ⟨isTensor_mk' z hd0, rfl, hf⟩
  obtain ⟨tmp, e1, ht⟩ := hmk.assign z h0 rfl hd0
  obtain ⟨c0, e2, hc0⟩ := h0.assign z h1 rfl hd0
  have k0 := (((hc0.scalar (· * ·) ((s.nd - 1 - 1 : Nat) : K) (hs 0)).scalar (· / ·) ((s.nd - 1 : Nat) : K) (hs 1)).scalar
    (· * ·) (-1) (hs 2)).scalar (· + ·) (C [N - i]) (hs 3)
  have hset := holds_set z hd0 ((2 * (s.nd - 1) - 1 : Nat) : K)
  obtain ⟨t1, e3, ht1⟩ := hset.tensorOp hx (· - ·) (hs 4)
  obtain ⟨t2, e4, ht2⟩ := ht1.tensorOp h1 (· * ·) (hs 5)
  have ht3 := ht2.scalar (· / ·) ((s.nd - 1 : Nat) : K) (hs 6)
  obtain ⟨c1, e5, hc1⟩ := h1.assign z ht rfl hd0
  obtain ⟨c1', e6, hc1'⟩ := hc1.tensorOp ht3 (· + ·) (hs 7)
  refine ⟨⟨_, c1', s.nd - 1⟩, ?_, rfl, k0, hc1'⟩
  unfold valueStep
  rw [e1, Outcome.ok_bind]
  simp only
  rw [e2, Outcome.ok_bind, read_vec_neg w hd hC hi hiN, Outcome.ok_bind, e3, Outcome.ok_bind, e4, Outcome.ok_bind, e5,
    Outcome.ok_bind, e6, Outcome.ok_bind]
  rfl

/-- Clenshaw's recurrence: the sum is unchanged by one step. -/
theorem clenshaw [CharZero K] (c : Nat → K) (x a b : K) (k : Nat) :
    (laguerreSeries (k + 1) c).eval x + a * (laguerre (k + 1)).eval x + b * (laguerre (k + 2)).eval x =
      (laguerreSeries k c).eval x + (b * ((k + 1 : Nat) : K) / ((k + 2 : Nat) : K) * (-1) + c k) * (laguerre k).eval x +
        (a + (((2 * (k + 2) - 1 : Nat) : K) - x) * b / ((k + 2 : Nat) : K)) * (laguerre (k + 1)).eval x := by
  have hr := congrArg (Polynomial.eval x) (laguerre_rec (K := K) k)
  simp only [eval_mul, eval_sub, eval_C, eval_X] at hr
  have hk : ((k : K) + 2) ≠ 0 := by exact_mod_cast Nat.succ_ne_zero (k + 1)
  have e : ((2 * (k + 2) - 1 : Nat) : K) = 2 * k + 3 := by
    rw [show 2 * (k + 2) - 1 = 2 * k + 3 by omega]; push_cast; ring
  have hs : (laguerreSeries (k + 1) c).eval x = (laguerreSeries k c).eval x + c k * (laguerre k).eval x := by
    unfold laguerreSeries
    rw [Finset.sum_range_succ, eval_add, eval_mul, eval_C]
  rw [hs, e]
  push_cast
  field_simp
  linear_combination b * hr

theorem value_loop [CharZero K] (z : Nat → K) {x c : Strided K} {d : List Nat} (hd0 : d ≠ []) {X : List Nat → K}
    (hx : Holds x d X) {N : Nat} {C : List Nat → K} (w : c.WF) (hd : c.dims = [N]) (hC : c.Represents C)
    {sch : Nat → Nat → List Nat} (hs : ∀ i k, AnySchedule (numel d) (sch i k)) (k : Nat) {s : ValueState K}
    {f0 f1 : List Nat → K} (h0 : Holds s.c0 d f0) (h1 : Holds s.c1 d f1) (hnd : s.nd = k + 2) (hk : k + 2 ≤ N) :
    ∃ s' g0 g1, (List.range' (N + 1 - k) k).foldlM
        (fun (s : ValueState K) (i : Nat) => valueStep z x c (sch i) s i) s = Outcome.ok s' ∧ Holds s'.c0 d g0 ∧
      Holds s'.c1 d g1 ∧
      ∀ p, g0 p + g1 p * (1 - X p) = (laguerreSeries k (fun j => C [j])).eval (X p) + f0 p * (laguerre k).eval (X p) +
        f1 p * (laguerre (k + 1)).eval (X p) := by
  induction k generalizing s f0 f1 with
  | zero =>
    refine ⟨s, f0, f1, rfl, h0, h1, fun p => ?_⟩
    simp [laguerreSeries, laguerre_zero, laguerre_one]
  | succ k ih =>
    obtain ⟨s1, e1, n1, k0, k1⟩ := valueStep_eq z hd0 hx w hd hC (hs (N + 1 - (k + 1))) h0 h1 (i := N + 1 - (k + 1))
      (by omega) (by omega)
    obtain ⟨s2, g0, g1, e2, r0, r1, hv⟩ := ih k0 k1 (by omega) (by omega)
    refine ⟨s2, g0, g1, ?_, r0, r1, fun p => ?_⟩
    · rw [List.range'_succ, List.foldlM_cons, e1]
      rw [show N + 1 - (k + 1) + 1 = N + 1 - k by omega]
      exact e2
    · rw [hv p, clenshaw]
      rw [hnd, show N - (N + 1 - (k + 1)) = k by omega]
      simp only [show k + 1 + 2 - 1 = k + 2 by omega, show k + 2 - 1 = k + 1 by omega]

theorem lagValue_eq [CharZero K] (z : Nat → K) {x c : Strided K} {d : List Nat} (hd0 : d ≠ []) {X : List Nat → K}
    (hx : Holds x d X) {N : Nat} (hN : N ≠ 0) {C : List Nat → K} (w : c.WF) (hd : c.dims = [N]) (hC : c.Represents C)
    {sch : Nat → Nat → List Nat} (hs : ∀ i k, AnySchedule (numel d) (sch i k)) :
    ∃ t, lagValue z x c sch = .ok t ∧ Holds t d fun p => (laguerreSeries N (fun j => C [j])).eval (X p) := by
  have : Inhabited K := ⟨0⟩
  have hdim : c.dim 0 = N := by simp [Strided.dim, hd]
  have hco : ∃ s g0 g1, valueCoeffs z x c sch = .ok s ∧ Holds s.1 d g0 ∧ Holds s.2 d g1 ∧
      ∀ p, g0 p + g1 p * (1 - X p) = (laguerreSeries N (fun j => C [j])).eval (X p) := by
    obtain rfl := hx.dims
    unfold valueCoeffs
    simp only [hdim]
    have h0 := holds_set z hd0 (0 : K)
    match N, hN with
    | 1, _ =>
      rw [if_pos rfl, show ([0] : List Int) = [((0 : Nat) : Int)] from rfl, read_vec_nat hd hC (by omega)]
      refine ⟨_, _, _, rfl, h0.setAll _, h0.setAll _, fun p => ?_⟩
      simp [laguerreSeries, laguerre_zero]
    | 2, _ =>
      rw [if_neg (by omega), if_pos rfl, show ([0] : List Int) = [((0 : Nat) : Int)] from rfl, read_vec_nat hd hC (by omega),
        show ([1] : List Int) = [((1 : Nat) : Int)] from rfl]
      rw [Outcome.ok_bind, read_vec_nat hd hC (by omega)]
      refine ⟨_, _, _, rfl, h0.setAll _, h0.setAll _, fun p => ?_⟩
      simp [laguerreSeries, laguerre_zero, laguerre_one, Finset.sum_range_succ]
    | N + 3, _ =>
      rw [if_neg (by omega), if_neg (by omega), show ([-2] : List Int) = [-((2 : Nat) : Int)] from rfl,
        read_vec_neg w hd hC (by omega) (by omega), Outcome.ok_bind, show ([-1] : List Int) = [-((1 : Nat) : Int)] from rfl,
        read_vec_neg w hd hC (by omega) (by omega), Outcome.ok_bind]
      obtain ⟨s, g0, g1, e, r0, r1, hv⟩ := value_loop z hd0 hx w hd hC hs (N + 1) 
        (s := ⟨((Strided.mk' z x.dims).setAll 0).setAll (C [N + 3 - 2]), ((Strided.mk' z x.dims).setAll 0).setAll (C [N + 3 - 1]), N + 3⟩)
        (h0.setAll (C [N + 3 - 2])) (h0.setAll (C [N + 3 - 1])) rfl (by omega)
      rw [show N + 3 + 1 - (N + 1) = 3 by omega] at e
      rw [show N + 3 - 2 = N + 1 by omega] at e ⊢
      rw [e]
      refine ⟨_, g0, g1, rfl, r0, r1, fun p => ?_⟩
      rw [hv p]
      unfold laguerreSeries
      rw [Finset.sum_range_succ _ (N + 2), Finset.sum_range_succ _ (N + 1)]
      simp only [eval_add, eval_mul, eval_C]
      rfl
  obtain ⟨s, g0, g1, e, r0, r1, hv⟩ := hco
  have hset := holds_set z hd0 (1 : K)
  obtain ⟨t1, e1, h1⟩ := hset.tensorOp hx (· - ·) (hs 0 0)
  obtain ⟨t2, e2, h2⟩ := h1.tensorOp r1 (· * ·) (hs 0 1)
  obtain ⟨t3, e3, h3⟩ := h2.tensorOp r0 (· + ·) (hs 0 2)
  refine ⟨t3, ?_, h3.congr fun p _ => ?_⟩
  · unfold lagValue
    rw [e, Outcome.ok_bind, hx.dims]
    simp only
    rw [e1, Outcome.ok_bind, e2, Outcome.ok_bind, e3]
  · rw [← hv p]; ring

/-! ### derivative -/

/-- `c j + … + c n`. -/
def tailSum (c : Nat → K) (n j : Nat) : K := ∑ l ∈ Finset.Ico j (n + 1), c l

theorem tailSum_step (c : Nat → K) {n j : Nat} (h : j ≤ n) : tailSum c n j = c j + tailSum c n (j + 1) := by
  unfold tailSum
  rw [Finset.sum_eq_sum_Ico_succ_bot (by omega)]

theorem tailSum_last (c : Nat → K) (n : Nat) : tailSum c n n = c n := by
  simp [tailSum]

omit [Field K] in
theorem inBox_head {i : List Nat} {n : Nat} (h : InBox i [n]) : ∃ a, i.headD 0 = a ∧ i = [a] ∧ a < n := by
  match i, h with
  | [a], h => exact ⟨a, rfl, rfl, h.1⟩

theorem derInner_loop {n : Nat} {der c : Strided K} {C : List Nat → K} (hd : Holds der [n] fun _ => 0) (hc : Holds c [n + 1] C)
    (k : Nat) (hk : k ≤ n) :
    ∃ s, (List.range k).foldlM (derInner n) (der, c) = Outcome.ok s ∧
      Holds s.1 [n] (fun i => if n - k ≤ i.headD 0 then -tailSum (fun l => C [l]) n (i.headD 0 + 1) else 0) ∧
      Holds s.2 [n + 1] (fun i => if n - k ≤ i.headD 0 then tailSum (fun l => C [l]) n (i.headD 0) else C i) := by
  induction k with
  | zero =>
    refine ⟨(der, c), rfl, hd.congr fun i hi => ?_, hc.congr fun i hi => ?_⟩
    · match i, hi with
      | [a], hi => have : a < n := hi.1; simp; omega
    · match i, hi with
      | [a], hi =>
        have ha : a < n + 1 := hi.1
        by_cases h : n ≤ a
        · rw [if_pos (by simpa using h), show a = n by omega, List.headD_cons, tailSum_last]
        · rw [if_neg (by simpa using h)]
  | succ k ih =>
    obtain ⟨s, e, h1, h2⟩ := ih (by omega)
    have hr := read_vec_nat h2.dims h2.elems (j := n - k) (by omega)
    simp only [List.headD_cons, le_refl, if_true] at hr
    obtain ⟨der', w1, k1⟩ := h1.write (j := n - k - 1) (by omega) (-tailSum (fun l => C [l]) n (n - k))
    have hr2 := read_vec_nat h2.dims h2.elems (j := n - k - 1) (by omega)
    rw [if_neg (by simp only [List.headD_cons]; omega)] at hr2
    obtain ⟨c', w2, k2⟩ := h2.write (j := n - k - 1) (by omega) (C [n - k - 1] + tailSum (fun l => C [l]) n (n - k))
    refine ⟨(der', c'), ?_, k1.congr fun i hi => ?_, k2.congr fun i hi => ?_⟩
    · rw [List.range_succ, List.foldlM_append, e, Outcome.ok_bind, List.foldlM_cons]
      unfold derInner
      simp only
      rw [hr, Outcome.ok_bind, w1, Outcome.ok_bind, hr2, Outcome.ok_bind, w2]
      rfl
    · obtain ⟨a, e1, e2, ha⟩ := inBox_head hi
      rw [e1]
      by_cases h : a = n - k - 1
      · rw [if_pos (by rw [e2, h]), if_pos (by omega), h, show n - k - 1 + 1 = n - k by omega]
      · rw [if_neg (by rw [e2]; simpa using h)]
        by_cases h' : n - k ≤ a
        · rw [if_pos h', if_pos (by omega)]
        · rw [if_neg h', if_neg (by omega)]
    · obtain ⟨a, e1, e2, ha⟩ := inBox_head hi
      rw [e1]
      by_cases h : a = n - k - 1
      · rw [if_pos (by rw [e2, h]), if_pos (by omega), h, tailSum_step (fun l => C [l]) (by omega : n - k - 1 ≤ n),
          show n - k - 1 + 1 = n - k by omega]
      · rw [if_neg (by rw [e2]; simpa using h)]
        by_cases h' : n - k ≤ a
        · rw [if_pos h', if_pos (by omega)]
        · rw [if_neg h', if_neg (by omega)]

theorem derStep_eq (z : Nat → K) (scale : K) {n : Nat} (hn : 0 < n) {c : Strided K} {C : List Nat → K} (hc : Holds c [n + 1] C)
    {sch : List Nat} (hs : AnySchedule (n + 1) sch) :
    ∃ t, derStep z scale sch c n = .ok t ∧
      Holds t [n] fun i => -tailSum (fun l => C [l] * scale) n (i.headD 0 + 1) := by
  have h1 := hc.scalar (· * ·) scale (s := sch) (by simpa [numel] using hs)
  obtain ⟨s, e, k1, k2⟩ := derInner_loop (holds_set z (d := [n]) (by simp) (0 : K)) h1 n (le_refl n)
  have hr := read_vec_nat k2.dims k2.elems (j := 1) (by omega)
  simp only [List.headD_cons, Nat.sub_self, Nat.zero_le, if_true] at hr
  obtain ⟨der, w, k3⟩ := k1.write (j := 0) hn (-tailSum (fun l => C [l] * scale) n 1)
  obtain ⟨t, e2, k4⟩ := k2.assign z k3 rfl (by simp)
  refine ⟨t, ?_, k4.congr fun i hi => ?_⟩
  · unfold derStep
    simp only
    rw [e, Outcome.ok_bind]
    change ((s.2.read [((1 : Nat) : Int)]).bind _) = _
    rw [hr]
    change ((s.1.write [((0 : Nat) : Int)] _).bind _) = _
    rw [w]
    exact e2
  · match i, hi with
    | [a], hi =>
      simp only [List.cons.injEq, and_true, List.headD_cons, Nat.sub_self, Nat.zero_le, if_true]
      split
      · next h => rw [h]
      · rfl

theorem series_derivative [CharZero K] (c : Nat → K) (n : Nat) :
    laguerreSeries n (fun j => -tailSum c n (j + 1)) = derivative (laguerreSeries (n + 1) c) := by
  induction n with
  | zero => simp [laguerreSeries, laguerre_zero]
  | succ n ih =>
    have hs : laguerreSeries (n + 1 + 1) c = laguerreSeries (n + 1) c + C (c (n + 1)) * laguerre (n + 1) := by
      unfold laguerreSeries
      rw [Finset.sum_range_succ _ (n + 1)]
    rw [hs, derivative_add, ← ih, derivative_mul, derivative_C, laguerre_derivative_sum]
    have ht : ∀ j, j ≤ n → tailSum c (n + 1) (j + 1) = tailSum c n (j + 1) + c (n + 1) := by
      intro j hj
      unfold tailSum
      rw [Finset.sum_Ico_succ_top (by omega)]
    unfold laguerreSeries
    rw [Finset.sum_congr rfl (g := fun j => C (-tailSum c n (j + 1)) * laguerre j - C (c (n + 1)) * laguerre j) (by
      intro j hj
      beta_reduce
      rw [ht j (by have := Finset.mem_range.1 hj; omega), neg_add, C_add, C_neg, C_neg]; ring)]
    rw [Finset.sum_sub_distrib, Finset.sum_range_succ, ← Finset.mul_sum]
    have : tailSum c n (n + 1) = 0 := by simp [tailSum]
    rw [this]
    simp
    ring

theorem laguerreSeries_scale (n : Nat) (c : Nat → K) (s : K) :
    laguerreSeries n (fun k => c k * s) = C s * laguerreSeries n c := by
  unfold laguerreSeries
  rw [Finset.mul_sum]
  apply Finset.sum_congr rfl
  intro k _
  rw [C_mul]; ring

theorem natDegree_laguerre (k : Nat) : (laguerre k : K[X]).natDegree ≤ k := by
  rw [natDegree_le_iff_coeff_eq_zero]
  intro i hi
  rw [laguerre_coeff, Nat.choose_eq_zero_of_lt hi]
  simp

theorem natDegree_series (n : Nat) (c : Nat → K) : (laguerreSeries (n + 1) c).natDegree ≤ n := by
  unfold laguerreSeries
  apply natDegree_sum_le_of_forall_le
  intro k hk
  exact (natDegree_C_mul_le _ _).trans ((natDegree_laguerre k).trans (by have := Finset.mem_range.1 hk; omega))

theorem derivative_loop [CharZero K] (z : Nat → K) (scale : K) {N : Nat} {c : Strided K} {g : List Nat → K}
    (hc : Holds c [N] g) {sch : Nat → List Nat} (m : Nat) (hm : m < N) (hs : ∀ i, i < m → AnySchedule (N - i) (sch i)) :
    ∃ t G, (List.range m).foldlM (fun (c : Strided K) (i : Nat) => derStep z scale (sch i) c (N - (i + 1))) c = Outcome.ok t ∧
      Holds t [N - m] G ∧ laguerreSeries (N - m) (fun k => G [k]) =
        C (scale ^ m) * derivative^[m] (laguerreSeries N fun k => g [k]) := by
  induction m with
  | zero => exact ⟨c, g, rfl, hc, by simp⟩
  | succ m ih =>
    obtain ⟨t, G, e, h, hp⟩ := ih (by omega) (fun i hi => hs i (by omega))
    have hN : N - m = N - (m + 1) + 1 := by omega
    obtain ⟨t', e', h'⟩ := derStep_eq z scale (n := N - (m + 1)) (by omega) (hN ▸ h) (sch := sch m) (hN ▸ hs m (by omega))
    refine ⟨t', _, ?_, h', ?_⟩
    · rw [List.range_succ, List.foldlM_append, e, Outcome.ok_bind, List.foldlM_cons, e']
      rfl
    · simp only [List.headD_cons]
      rw [series_derivative (fun l => G [l] * scale), laguerreSeries_scale, ← hN, hp, Function.iterate_succ_apply']
      rw [derivative_C_mul, derivative_C_mul, pow_succ, C_mul]
      ring

theorem lagDerivative_eq [CharZero K] (z : Nat → K) (scale : K) {N : Nat} (hN : N ≠ 0) {c : Strided K} {g : List Nat → K}
    (hc : Holds c [N] g) {sch : Nat → List Nat} (m : Nat) (hs : ∀ i, i < N → AnySchedule (N - i) (sch i)) :
    ∃ t d G, lagDerivative z sch c m scale = .ok t ∧ Holds t [d] G ∧ laguerreSeries d (fun k => G [k]) =
        C (scale ^ m) * derivative^[m] (laguerreSeries N fun k => g [k]) := by
  unfold lagDerivative
  have hdim : c.dim 0 = N := by simp [Strided.dim, hc.dims]
  by_cases h0 : m = 0
  · rw [if_pos h0]
    exact ⟨c, N, g, rfl, hc, by simp [h0]⟩
  · rw [if_neg h0]
    simp only [hdim]
    by_cases h1 : N ≤ m
    · rw [if_pos h1, if_neg hN]
      refine ⟨_, N - 1, _, rfl, holds_set z (by simp) 0, ?_⟩
      obtain ⟨n, rfl⟩ := Nat.exists_eq_succ_of_ne_zero hN
      rw [iterate_derivative_eq_zero (lt_of_le_of_lt (natDegree_series n _) (by omega))]
      simp [laguerreSeries]
    · rw [if_neg h1]
      obtain ⟨t, G, e, h, hp⟩ := derivative_loop z scale hc m (by omega) (fun i hi => hs i (by omega))
      exact ⟨t, _, G, e, h, hp⟩

end
end Einsums
