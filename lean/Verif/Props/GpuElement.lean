import Verif.Proofs.GpuElement
import Verif.Props.Gpu
import Mathlib.Algebra.BigOperators.Group.List.Basic
import Mathlib.Algebra.Order.Group.Int
/-
C131: element functions of device tensors.  C132: sum, max and min of device tensors.
-/
namespace Einsums.Props
open Spec Model

variable {K : Type}

/-! ### C131 -/

/-- **C131 (partial).** `abs`, `invert`, `exp`, `scale` of a device tensor or view all of whose elements lie within the first
size() places of its memory (every tensor; transposed views): whatever the interleavings of the copy and of the kernel, the result is
a new tensor with the function applied to every element.  Missing: other views (refuted below), 2^31 and more elements. -/
theorem C131_map_partial (op : K → K) (z : Nat → K) (t : Strided K) (w : t.WF) (hd : t.dims ≠ []) (hn : numel t.dims < 2 ^ 31)
    (hb : ∀ i, InBox i t.dims → dot i t.strides < numel t.dims) (f : List Nat → K) (hf : t.Represents f) (r : Nat → K)
    (s1 s2 : List (Nat × RmwOp)) (h1 : Schedule (assignThreads (Strided.mk' z t.dims) t) s1) (h2 : Schedule (mapThreads t) s2) :
    ∃ t', deviceMap op z t r s1 s2 = .ok t' ∧ t'.IsTensor ∧ t'.dims = t.dims ∧ t'.Represents fun i => op (f i) := by
  have h0 := isTensor_mk' z hd
  unfold assignThreads copyThreads at h1
  rw [show linearSize (Strided.mk' z t.dims).strides (Strided.mk' z t.dims).dims = numel t.dims from
    IsTensor_linearSize h0 hd] at h1
  obtain ⟨c, e, fr, hr⟩ := deviceCopy_all (t := Strided.mk' z t.dims) h0.wf w rfl hf (launchSwapped_pos _) r h1
  have hc : c.IsTensor :=
    ⟨fr.off.trans h0.off, by rw [fr.strides, fr.dims]; exact h0.strides, by rw [fr.length, fr.dims]; exact h0.length⟩
  have dc : c.dims = t.dims := fr.dims
  unfold mapThreads at h2
  rw [sizeMethod_small hn, ← dc] at h2
  obtain ⟨t', e', ht', dt', hr'⟩ := update_permuted (op := op) (launchStraight_pos _) hc hr
    (addr := counterAddr c.off t.dims t.strides) (pos := fun q => dot (decode t.dims q) t.strides)
    (by
      intro q hq
      rw [dc] at hq
      rw [counterAddr_eq w.len hq, hc.off, Nat.zero_add])
    (by
      intro q hq
      rw [dc] at hq ⊢
      exact hb _ (decode_inBox hq))
    (by
      intro p q hp hq e
      rw [dc] at hp hq
      exact decode_inj hp hq (w.inj _ _ (decode_inBox hp) (decode_inBox hq) e)) r h2
  refine ⟨t', ?_, ht', dt'.trans dc, hr'⟩
  unfold deviceMap
  rw [e]; exact e'

/-- **C131 (tensors).** -/
theorem C131_tensor (op : K → K) (z : Nat → K) (t : Strided K) (ht : t.IsTensor) (hd : t.dims ≠ []) (hn : numel t.dims < 2 ^ 31)
    (f : List Nat → K) (hf : t.Represents f) (r : Nat → K) (s1 s2 : List (Nat × RmwOp))
    (h1 : Schedule (assignThreads (Strided.mk' z t.dims) t) s1) (h2 : Schedule (mapThreads t) s2) :
    ∃ t', deviceMap op z t r s1 s2 = .ok t' ∧ t'.IsTensor ∧ t'.dims = t.dims ∧ t'.Represents fun i => op (f i) := by
  refine C131_map_partial op z t ht.wf hd hn ?_ f hf r s1 s2 h1 h2
  intro i hi
  have := ht.wf.bound i hi
  rwa [ht.off, Nat.zero_add, ht.length] at this

/-- **C131 (views, refuted).** The strides of the argument are used on the new, densely stored tensor: for a view with an element
beyond the first size() places, every execution writes outside the new tensor. -/
theorem C131_view_refuted (op : K → K) (z : Nat → K) (t : Strided K) (w : t.WF) (hd : t.dims ≠ []) (hn : numel t.dims < 2 ^ 31)
    (i : List Nat) (hi : InBox i t.dims) (hb : numel t.dims ≤ dot i t.strides) (f : List Nat → K) (hf : t.Represents f)
    (r : Nat → K) (s1 s2 : List (Nat × RmwOp)) (h1 : Schedule (assignThreads (Strided.mk' z t.dims) t) s1)
    (h2 : Schedule (mapThreads t) s2) : (deviceMap op z t r s1 s2).isUb = true := by
  have h0 := isTensor_mk' z hd
  unfold assignThreads copyThreads at h1
  rw [show linearSize (Strided.mk' z t.dims).strides (Strided.mk' z t.dims).dims = numel t.dims from
    IsTensor_linearSize h0 hd] at h1
  obtain ⟨c, e, fr, hr⟩ := deviceCopy_all (t := Strided.mk' z t.dims) h0.wf w rfl hf (launchSwapped_pos _) r h1
  unfold mapThreads at h2
  rw [sizeMethod_small hn] at h2
  obtain ⟨q, hq, eq⟩ := exists_decode hi
  unfold deviceMap
  rw [e]
  simp only [Outcome.ok_bind]
  refine runKernel_addr_ub (c := q) (p := c.off + dot i t.strides)
    (fun c' => bind_noError (counterOffset_noError _ _ _) fun _ => rfl) (fun _ _ => rfl)
    (mem_update_load (launchStraight_pos _) h2 hq) ?_ ?_
  · rw [counterAddr_eq w.len hq, eq]
  · rw [fr.length, h0.length]
    exact Nat.le_trans hb (Nat.le_add_left _ _)

/-- The 2×2 view of a 2×3 tensor is such a view; a transposed view is not. -/
example : InBox [1, 1] [2, 2] ∧ numel [2, 2] ≤ dot [1, 1] [3, 1] ∧ ∀ i ∈ box [3, 2], dot i [1, 3] < numel [3, 2] := by decide

/-! ### C132 -/

theorem reduce_fetch {t : Strided K} (w : t.WF) {f : List Nat → K} (hf : t.Represents f) (hn : numel t.dims < 2 ^ 31) (i : Nat)
    (hi : i < sizeMethod t.dims) :
    (do let p ← counterAddr t.off t.dims t.strides i; memGet t.data p) = .ok (f (decode t.dims i)) := by
  rw [sizeMethod_small hn] at hi
  rw [counterAddr_eq w.len hi]
  simp only [Outcome.ok_bind, memGet]
  rw [(represents_iff w).1 hf _ (decode_inBox hi)]

/-- The number of workers of the launch for `n` elements. -/
def workers (n : Nat) : Nat := (launchStraight n).size

/-- The number of workers whose share reaches the result. -/
def reduced (n : Nat) : Nat := 2 ^ redSteps (workers n)

theorem gpuBlocks_le {n : Nat} (h : n < 1024) : (gpuBlocks n).x ≤ 3 := by
  unfold gpuBlocks dim3
  split
  · simp
  · split
    · simp only; omega
    · omega

theorem reduced_le {n : Nat} (h : n < 1024) : reduced n ≤ (blockSize n).x := by
  obtain ⟨h1, h2⟩ := redSteps_pow (n := n)
  have hsz := launchStraight_size n
  unfold reduced workers
  have hg := gpuBlocks_le h
  have hgp := (gpuBlocks_pos n).1
  have hb := (blockSize_pos n)
  by_cases h5 : n < 512
  · have : (gpuBlocks n).x = 1 := by
      unfold gpuBlocks dim3
      split
      · rfl
      · rw [if_pos (by omega)]; simp only; omega
    rw [this, Nat.mul_one] at hsz
    omega
  · have hb2 : (blockSize n).x = 256 := by
      unfold blockSize dim3
      rw [if_neg (by omega), if_neg (by omega)]
    rw [hb2] at hsz ⊢
    have hk : redSteps (launchStraight n).size ≤ 8 := by
      by_contra hc
      have : 2 ^ 9 ≤ 2 ^ redSteps (launchStraight n).size := Nat.pow_le_pow_right (by omega) (by omega)
      omega
    have : 2 ^ redSteps (launchStraight n).size ≤ 2 ^ 8 := Nat.pow_le_pow_right (by omega) hk
    omega

theorem flatten_filter {n size m : Nat} (hm : m ≤ size) (hs : 0 < size) :
    ((List.range m).map (countersOf n size)).flatten.Perm ((List.range n).filter fun i => decide (i % size < m)) := by
  have hp := counters_perm (size := n) hs
  have e : List.range size = List.range m ++ List.range' m (size - m) := by
    rw [List.range_eq_range', List.range_eq_range']
    have := List.range'_append_1 (s := 0) (m := m) (n := size - m)
    rw [Nat.zero_add, Nat.add_sub_cancel' hm] at this
    exact this.symm
  have := (hp.filter fun i => decide (i % size < m)).symm
  refine List.Perm.trans ?_ this.symm
  rw [e, List.map_append, List.flatten_append, List.filter_append, List.filter_eq_self.2, List.filter_eq_nil_iff.2,
    List.append_nil]
  · intro i hi
    obtain ⟨l, hl, hil⟩ := List.mem_flatten.1 hi
    obtain ⟨w, hw, rfl⟩ := List.mem_map.1 hl
    have hw2 := List.mem_range'_1.1 hw
    have := (mem_countersOf (by omega)).1 hil
    simp only [decide_eq_true_eq]; omega
  · intro i hi
    obtain ⟨l, hl, hil⟩ := List.mem_flatten.1 hi
    obtain ⟨w, hw, rfl⟩ := List.mem_map.1 hl
    have hw2 := List.mem_range.1 hw
    have := (mem_countersOf (by omega)).1 hil
    simp only [decide_eq_true_eq]; omega

/-- Fewer than 1024 elements: the elements that reach the result. -/
theorem reduce_small {R : Reduction K} (hR : R.Lawful) {t : Strided K} (w : t.WF) {f : List Nat → K} (hf : t.Represents f)
    (hn : numel t.dims < 1024) (z r r' : Nat → K) {sched : List (Nat × RedOp)} (h : BlockRun (reducePhases t) sched) :
    deviceReduce R t z r r' sched = .ok (R.all (((List.range (numel t.dims)).filter fun i =>
      decide (i % workers (numel t.dims) < reduced (numel t.dims))).map fun i => f (decode t.dims i))) := by
  have hsm : sizeMethod t.dims = numel t.dims := sizeMethod_small (by omega)
  rw [deviceReduce_eq z r r' (reduce_fetch w hf (by omega)) h, hsm]
  generalize numel t.dims = n at *
  obtain ⟨p1, p2⟩ := redSteps_pow (n := n)
  have hred := reduced_le hn
  have hpow : 0 < 2 ^ redSteps (launchStraight n).size := Nat.pow_pos (by omega)
  unfold reduced workers at hred ⊢
  have hms : (blockSize n).x ≤ (launchStraight n).size := by
    rw [launchStraight_size]; exact Nat.le_mul_of_pos_right _ (gpuBlocks_pos n).1
  rw [tree_eq hR _ _ 0 (Nat.zero_mod _) (by omega) (by omega), ← List.range_eq_range']
  have e1 : (List.range (2 ^ redSteps (launchStraight n).size)).map
      (accumulated R (fun i => f (decode t.dims i)) (blockSize n).x n (launchStraight n).size z) =
      ((List.range (2 ^ redSteps (launchStraight n).size)).map fun p =>
        (countersOf n (launchStraight n).size p).map fun i => f (decode t.dims i)).map R.all := by
    rw [List.map_map]
    apply List.map_congr_left
    intro p hp
    have hp := List.mem_range.1 hp
    unfold accumulated
    rw [if_pos (by omega), hR.foldl_acc, hR.unit]; rfl
  rw [e1, hR.all_flatten]
  congr 1
  have e2 := (flatten_filter (n := n) (m := 2 ^ redSteps (launchStraight n).size) (size := (launchStraight n).size) (by omega)
    (launchStraight_pos n)).map fun i => f (decode t.dims i)
  rw [← hR.all_perm e2, List.map_flatten, List.map_map]; rfl

theorem sumReduction_lawful [AddCommMonoid K] : (sumReduction : Reduction K).Lawful :=
  ⟨fun _ _ => rfl, add_comm, add_assoc, zero_add⟩

theorem sum_all [AddCommMonoid K] (xs : List K) : (sumReduction : Reduction K).all xs = xs.sum := rfl

theorem maxReduction_lawful [LinearOrder K] (ninf : K) (h : ∀ x, ninf ≤ x) :
    (maxReduction (fun a b => decide (a < b)) ninf).Lawful := by
  have e : ∀ a b : K, (if decide (b < a) = true then a else b) = max a b := by
    intro a b
    by_cases hb : b < a
    · simp [hb, max_eq_left hb.le]
    · simp [hb, max_eq_right (not_lt.1 hb)]
  have e' : ∀ a b : K, (if decide (a < b) = true then b else a) = max a b := by
    intro a b
    by_cases hb : a < b
    · simp [hb, max_eq_right hb.le]
    · simp [hb, max_eq_left (not_lt.1 hb)]
  refine ⟨fun a b => ?_, fun a b => ?_, fun a b c => ?_, fun a => ?_⟩
  · exact (e' a b).trans (e a b).symm
  · simp only [maxReduction, e, max_comm]
  · simp only [maxReduction, e, max_assoc]
  · simp only [maxReduction, e]; exact max_eq_right (h a)

theorem minReduction_lawful [LinearOrder K] (inf : K) (h : ∀ x, x ≤ inf) :
    (minReduction (fun a b => decide (a < b)) inf).Lawful := by
  have e : ∀ a b : K, (if decide (a < b) = true then a else b) = min a b := by
    intro a b
    by_cases hb : a < b
    · simp [hb, min_eq_left hb.le]
    · simp [hb, min_eq_right (not_lt.1 hb)]
  have e' : ∀ a b : K, (if decide (b < a) = true then b else a) = min a b := by
    intro a b
    by_cases hb : b < a
    · simp [hb, min_eq_right hb.le]
    · simp [hb, min_eq_left (not_lt.1 hb)]
  refine ⟨fun a b => ?_, fun a b => ?_, fun a b c => ?_, fun a => ?_⟩
  · exact (e' a b).trans (e a b).symm
  · simp only [minReduction, e, min_comm]
  · simp only [minReduction, e, min_assoc]
  · simp only [minReduction, e]; exact min_eq_right (h a)

theorem reduce_sixteen {R : Reduction K} (hR : R.Lawful) {t : Strided K} (w : t.WF) {f : List Nat → K} (hf : t.Represents f)
    (hn : numel t.dims ≤ 16) (z r r' : Nat → K) {sched : List (Nat × RedOp)} (h : BlockRun (reducePhases t) sched) :
    deviceReduce R t z r r' sched = .ok (R.all ((box t.dims).map f)) := by
  rw [reduce_small hR w hf (by omega) z r r' h]
  have : ∀ n, n ≤ 16 → n ≤ reduced n ∧ n ≤ workers n := by decide +kernel
  obtain ⟨h1, h2⟩ := this _ hn
  rw [List.filter_eq_self.2]
  · have e := (decode_perm t.dims).map f
    rw [List.map_map] at e
    exact congrArg _ (hR.all_perm e)
  · intro i hi
    have := List.mem_range.1 hi
    rw [Nat.mod_eq_of_lt (by omega)]
    simp only [decide_eq_true_eq]; omega

/-- **C132 (sum, partial).** `sum(t)` of a device tensor or view of at most 16 elements is the sum of its elements, whatever the
interleaving and whatever the shared memory held before.  Missing: more elements (refuted below). -/
theorem C132_sum_partial [AddCommMonoid K] (t : Strided K) (w : t.WF) (f : List Nat → K) (hf : t.Represents f)
    (hn : numel t.dims ≤ 16) (z r r' : Nat → K) (sched : List (Nat × RedOp)) (h : BlockRun (reducePhases t) sched) :
    deviceReduce sumReduction t z r r' sched = .ok ((box t.dims).map f).sum := by
  rw [reduce_sixteen sumReduction_lawful w hf hn z r r' h, sum_all]

/-- **C132 (max and min, partial).** `max(t)` and `min(t)` of a device tensor or view of at most 16 elements, whose type has a least
and a greatest value (−∞ and ∞): the result is an upper (lower) bound of the elements and, unless there are none, one of them. -/
theorem C132_max_partial [LinearOrder K] (ninf inf : K) (h1 : ∀ x, ninf ≤ x) (h2 : ∀ x, x ≤ inf) (t : Strided K) (w : t.WF)
    (f : List Nat → K) (hf : t.Represents f) (hn : numel t.dims ≤ 16) (z r r' : Nat → K) (sched : List (Nat × RedOp))
    (h : BlockRun (reducePhases t) sched) :
    (∃ m, deviceReduce (maxReduction (fun a b => decide (a < b)) ninf) t z r r' sched = .ok m ∧
      (∀ i, InBox i t.dims → f i ≤ m) ∧ (0 < numel t.dims → ∃ i, InBox i t.dims ∧ f i = m)) ∧
    ∃ m, deviceReduce (minReduction (fun a b => decide (a < b)) inf) t z r r' sched = .ok m ∧
      (∀ i, InBox i t.dims → m ≤ f i) ∧ (0 < numel t.dims → ∃ i, InBox i t.dims ∧ f i = m) := by
  have hb : 0 < numel t.dims → ∃ i, InBox i t.dims := fun h => ⟨_, decode_inBox h⟩
  constructor
  · refine ⟨_, reduce_sixteen (maxReduction_lawful ninf h1) w hf hn z r r' h, ?_⟩
    have key : ∀ xs : List (List Nat), (∀ i ∈ xs, f i ≤ (maxReduction (fun a b => decide (a < b)) ninf).all (xs.map f)) ∧
        (xs ≠ [] → ∃ i ∈ xs, f i = (maxReduction (fun a b => decide (a < b)) ninf).all (xs.map f)) := by
      intro xs
      induction xs with
      | nil => simp
      | cons x xs ih =>
        have e : (maxReduction (fun a b => decide (a < b)) ninf).all ((x :: xs).map f) =
            max (f x) ((maxReduction (fun a b => decide (a < b)) ninf).all (xs.map f)) := by
          show (if decide (_ < f x) = true then f x else _) = _
          by_cases hx : (maxReduction (fun a b => decide (a < b)) ninf).all (xs.map f) < f x
          · rw [max_eq_left hx.le]; exact if_pos (decide_eq_true hx)
          · rw [max_eq_right (not_lt.1 hx)]; exact if_neg (by rw [decide_eq_true_eq]; exact hx)
        rw [e]
        refine ⟨?_, ?_⟩
        · intro i hi
          rcases List.mem_cons.1 hi with rfl | hi
          · exact le_max_left _ _
          · exact le_trans (ih.1 i hi) (le_max_right _ _)
        · intro _
          rcases le_total ((maxReduction (fun a b => decide (a < b)) ninf).all (xs.map f)) (f x) with hle | hle
          · exact ⟨x, by simp, (max_eq_left hle).symm⟩
          · rw [max_eq_right hle]
            cases xs with
            | nil => exact ⟨x, by simp, le_antisymm hle (h1 _)⟩
            | cons y ys =>
              obtain ⟨i, hi, e⟩ := ih.2 (by simp)
              exact ⟨i, by simp [List.mem_cons.1 hi], e⟩
    refine ⟨fun i hi => (key _).1 i (mem_box.2 hi), fun hp => ?_⟩
    obtain ⟨i0, hi0⟩ := hb hp
    obtain ⟨i, hi, e⟩ := (key (box t.dims)).2 (List.ne_nil_of_mem (mem_box.2 hi0))
    exact ⟨i, mem_box.1 hi, e⟩
  · refine ⟨_, reduce_sixteen (minReduction_lawful inf h2) w hf hn z r r' h, ?_⟩
    have key : ∀ xs : List (List Nat), (∀ i ∈ xs, (minReduction (fun a b => decide (a < b)) inf).all (xs.map f) ≤ f i) ∧
        (xs ≠ [] → ∃ i ∈ xs, f i = (minReduction (fun a b => decide (a < b)) inf).all (xs.map f)) := by
      intro xs
      induction xs with
      | nil => simp
      | cons x xs ih =>
        have e : (minReduction (fun a b => decide (a < b)) inf).all ((x :: xs).map f) =
            min (f x) ((minReduction (fun a b => decide (a < b)) inf).all (xs.map f)) := by
          show (if decide (f x < _) = true then f x else _) = _
          by_cases hx : f x < (minReduction (fun a b => decide (a < b)) inf).all (xs.map f)
          · rw [min_eq_left hx.le]; exact if_pos (decide_eq_true hx)
          · rw [min_eq_right (not_lt.1 hx)]; exact if_neg (by rw [decide_eq_true_eq]; exact hx)
        rw [e]
        refine ⟨?_, ?_⟩
        · intro i hi
          rcases List.mem_cons.1 hi with rfl | hi
          · exact min_le_left _ _
          · exact le_trans (min_le_right _ _) (ih.1 i hi)
        · intro _
          rcases le_total (f x) ((minReduction (fun a b => decide (a < b)) inf).all (xs.map f)) with hle | hle
          · exact ⟨x, by simp, (min_eq_left hle).symm⟩
          · rw [min_eq_right hle]
            cases xs with
            | nil => exact ⟨x, by simp, le_antisymm (h2 _) hle⟩
            | cons y ys =>
              obtain ⟨i, hi, e⟩ := ih.2 (by simp)
              exact ⟨i, by simp [List.mem_cons.1 hi], e⟩
    refine ⟨fun i hi => (key _).1 i (mem_box.2 hi), fun hp => ?_⟩
    obtain ⟨i0, hi0⟩ := hb hp
    obtain ⟨i, hi, e⟩ := (key (box t.dims)).2 (List.ne_nil_of_mem (mem_box.2 hi0))
    exact ⟨i, mem_box.1 hi, e⟩

theorem reduced_lt {n : Nat} (h : 17 ≤ n) : reduced n < n ∧ reduced n < workers n := by
  obtain ⟨p1, p2⟩ := redSteps_pow (n := n)
  have hpow : 0 < 2 ^ redSteps (launchStraight n).size := Nat.pow_pos (by omega)
  unfold reduced workers
  refine ⟨?_, by omega⟩
  by_cases h32 : n < 32
  · have : ∀ n, n < 32 → 2 ^ redSteps (launchStraight n).size = 16 := by decide +kernel
    rw [this n h32]; omega
  · have hs : (launchStraight n).size ≤ n := by
      rw [launchStraight_size]
      unfold blockSize gpuBlocks dim3
      rw [if_neg h32]
      split
      · exact Nat.le_trans (Nat.le_of_eq (Nat.mul_one _)) Nat.and_le_left
      · split
        · simp only; omega
        · simp only; omega
    omega

/-- **C132 (17 to 1023 elements, refuted).** There is an element that `sum`, `max` and `min` of a device tensor never look at:
whatever the interleavings, two tensors that differ only there have the same result. -/
theorem C132_ignored_refuted (R : Reduction K) (hR : R.Lawful) (dims : List Nat) (h1 : 17 ≤ numel dims) (h2 : numel dims < 1024) :
    ∃ i, InBox i dims ∧ ∀ (t u : Strided K) (f g : List Nat → K) (z r r' z' s s' : Nat → K) (sched sched' : List (Nat × RedOp)),
      t.WF → u.WF → t.dims = dims → u.dims = dims → t.Represents f → u.Represents g → (∀ j, j ≠ i → f j = g j) →
      BlockRun (reducePhases t) sched → BlockRun (reducePhases u) sched' →
      deviceReduce R t z r r' sched = deviceReduce R u z' s s' sched' ∧ (deviceReduce R t z r r' sched).isOk = true := by
  obtain ⟨l1, l2⟩ := reduced_lt h1
  refine ⟨decode dims (reduced (numel dims)), decode_inBox l1, ?_⟩
  intro t u f g z r r' z' s s' sched sched' wt wu dt du hf hg hfg ht hu
  rw [reduce_small hR wt hf (by rw [dt]; exact h2) z r r' ht, reduce_small hR wu hg (by rw [du]; exact h2) z' s s' hu]
  refine ⟨?_, rfl⟩
  rw [dt, du]
  congr 2
  apply List.map_congr_left
  intro i hi
  obtain ⟨hi1, hi2⟩ := List.mem_filter.1 hi
  apply hfg
  intro e
  have := decode_inj (List.mem_range.1 hi1) l1 e
  rw [this, Nat.mod_eq_of_lt l2] at hi2
  simp at hi2

/-- **C132 (sum of 17 ones, refuted).** The sum of a device tensor of 17 to 1023 ones is too small, whatever the interleaving. -/
theorem C132_sum_refuted (t : Strided Int) (w : t.WF) (hf : t.Represents fun _ => 1) (h1 : 17 ≤ numel t.dims)
    (h2 : numel t.dims < 1024) (z r r' : Nat → Int) (sched : List (Nat × RedOp)) (h : BlockRun (reducePhases t) sched) :
    ∃ x, deviceReduce sumReduction t z r r' sched = .ok x ∧ x < numel t.dims := by
  obtain ⟨l1, l2⟩ := reduced_lt h1
  refine ⟨_, reduce_small sumReduction_lawful w hf h2 z r r' h, ?_⟩
  rw [sum_all]
  generalize hp : (fun i => decide (i % workers (numel t.dims) < reduced (numel t.dims))) = p
  have hlen : ((List.range (numel t.dims)).filter p).length < numel t.dims := by
    conv_rhs => rw [← List.length_range (n := numel t.dims)]
    apply List.length_filter_lt_length_iff_exists.2
    refine ⟨reduced (numel t.dims), by simpa using l1, ?_⟩
    rw [← hp]
    simp only [Nat.mod_eq_of_lt l2, Nat.lt_irrefl, decide_false, Bool.false_eq_true, not_false_eq_true]
  have : ∀ l : List Nat, (l.map fun _ => (1 : Int)).sum = l.length := by
    intro l; induction l with
    | nil => rfl
    | cons x xs ih => rw [List.map_cons, List.sum_cons, ih, List.length_cons]; push_cast; ring
  rw [this]
  exact_mod_cast hlen

theorem tree_dep {comb : K → K → K} {m size : Nat} (a b : Nat → K) (k i : Nat) (h : ∀ j, i ≤ j → a j = b j) :
    tree comb m size k a i = tree comb m size k b i := by
  induction k generalizing i with
  | zero => exact h i (Nat.le_refl i)
  | succ k ih =>
    simp only [tree, combined]
    rw [ih i h, ih (i + 2 ^ k) (fun j hj => h j (Nat.le_trans (Nat.le_add_right _ _) hj))]

theorem large_launch {n : Nat} (h : 1024 ≤ n) : (blockSize n).x = 256 ∧ 1024 ≤ (launchStraight n).size ∧
    9 ≤ redSteps (launchStraight n).size := by
  have hb : (blockSize n).x = 256 := by
    unfold blockSize dim3
    rw [if_neg (by omega), if_neg (by omega)]
  have hg : 4 ≤ (gpuBlocks n).x := by
    unfold gpuBlocks dim3
    rw [if_neg (by omega)]
    split
    · simp only; omega
    · simp
  have hs : 1024 ≤ (launchStraight n).size := by
    rw [launchStraight_size, hb]; omega
  refine ⟨hb, hs, ?_⟩
  obtain ⟨p1, p2⟩ := redSteps_pow (n := n)
  by_contra hc
  have : 2 ^ redSteps (launchStraight n).size ≤ 2 ^ 8 := Nat.pow_le_pow_right (by omega) (by omega)
  omega

/-- **C132 (1024 and more elements, refuted).** Every block has shared memory of its own, but the first block adds up places that
only other blocks initialise: the sum of a device tensor of 1024 elements or more changes by `d` when a place of the shared memory
held `d` more before the kernel started, whatever the interleavings. -/
theorem C132_garbage_refuted [AddCommMonoid K] (t : Strided K) (w : t.WF) (f : List Nat → K) (hf : t.Represents f)
    (h1 : 1024 ≤ numel t.dims) (h2 : numel t.dims < 2 ^ 31) (z r r' : Nat → K) (d : K) (sched sched' : List (Nat × RedOp))
    (h : BlockRun (reducePhases t) sched) (h' : BlockRun (reducePhases t) sched') :
    ∃ x, deviceReduce sumReduction t z r r' sched = .ok x ∧
      deviceReduce sumReduction t (fun p => if p = 256 then z p + d else z p) r r' sched' = .ok (x + d) := by
  refine ⟨_, deviceReduce_eq z r r' (reduce_fetch w hf h2) h, ?_⟩
  rw [deviceReduce_eq _ r r' (reduce_fetch w hf h2) h', sizeMethod_small h2]
  generalize numel t.dims = n at *
  obtain ⟨hb, hs, hk⟩ := large_launch h1
  rw [hb]
  congr 1
  generalize ha : accumulated sumReduction (fun i => f (decode t.dims i)) 256 n (launchStraight n).size z = a
  generalize ha' : accumulated sumReduction (fun i => f (decode t.dims i)) 256 n (launchStraight n).size
    (fun p => if p = 256 then z p + d else z p) = a'
  have hd : ∀ p, p ≠ 256 → a' p = a p := by
    intro p hp
    rw [← ha, ← ha']
    simp [accumulated, hp]
  have hd2 : a' 256 = a 256 + d := by
    rw [← ha, ← ha']
    simp [accumulated]
  clear ha ha'
  generalize (launchStraight n).size = size at *
  obtain ⟨k, hk⟩ := Nat.exists_eq_add_of_le hk
  rw [hk]
  clear hk
  induction k with
  | zero =>
    rw [tree_eq sumReduction_lawful a 9 0 (by simp) (by simp) (by omega),
      tree_eq sumReduction_lawful a' 9 0 (by simp) (by simp) (by omega), sum_all, sum_all]
    have e : List.range' 0 (2 ^ 9) = List.range' 0 256 ++ 256 :: List.range' 257 255 := by decide +kernel
    rw [e, List.map_append, List.map_append, List.map_cons, List.map_cons, List.sum_append, List.sum_append,
      List.sum_cons, List.sum_cons, hd2]
    rw [List.map_congr_left (f := a') (g := a) (l := List.range' 0 256), List.map_congr_left (f := a') (g := a) (l := List.range' 257 255)]
    · simp only [add_assoc, add_comm, add_left_comm]
    · intro p hp
      exact hd p (by have := List.mem_range'_1.1 hp; omega)
    · intro p hp
      exact hd p (by have := List.mem_range'_1.1 hp; omega)
  | succ k ih =>
    have hp : 512 ≤ 2 ^ (9 + k) := by
      calc 512 = 2 ^ 9 := rfl
        _ ≤ 2 ^ (9 + k) := Nat.pow_le_pow_right (by omega) (by omega)
    have e := tree_dep (comb := sumReduction.comb) (m := 256) (size := size) a' a (9 + k) (0 + 2 ^ (9 + k))
      (fun j hj => hd j (by omega))
    rw [← Nat.add_assoc]
    simp only [tree, combined]
    rw [ih, e]
    split
    · show tree _ _ _ _ a 0 + d + _ = tree _ _ _ _ a 0 + _ + d
      simp only [add_comm, add_left_comm]
    · rfl

/-- The phases can be executed one worker after the other. -/
theorem blockRun_exists {α : Type} (ps : List (List (List α))) : ∃ sched, BlockRun ps sched := by
  induction ps with
  | nil => exact ⟨_, .done⟩
  | cons p ps ih =>
    obtain ⟨s, hs⟩ := ih
    exact ⟨_, .phase (Schedule.sequential p) hs⟩

/-- A device tensor of 17 ones: its computed sum is 16. -/
example : ∃ sched, BlockRun (reducePhases (⟨List.replicate 17 1, 0, [17], [1]⟩ : Strided Int)) sched ∧
    deviceReduce sumReduction (⟨List.replicate 17 1, 0, [17], [1]⟩ : Strided Int) (fun _ => 5) (fun _ => 0) (fun _ => 0) sched =
      .ok 16 := by
  obtain ⟨sched, h⟩ := blockRun_exists (reducePhases (⟨List.replicate 17 1, 0, [17], [1]⟩ : Strided Int))
  refine ⟨sched, h, ?_⟩
  have ht : (⟨List.replicate 17 1, 0, [17], [1]⟩ : Strided Int).IsTensor := ⟨rfl, rfl, rfl⟩
  rw [reduce_small sumReduction_lawful ht.wf (f := fun _ => 1) (ht.represents_iff.2 (by decide)) (by decide) _ _ _ h]
  decide +kernel

end Einsums.Props
