import Verif.Proofs.ElementOps
import Verif.Props.Block
/-
C48 sum, max and min; C63 the same on block tensors; C64 element-wise functions that return a new tensor.
-/
namespace Einsums.Props
open Spec Model

section
variable {R : Type}

/-! ### C48: sum, max and min of a tensor or view -/

/-- **C48 (sum, partial).** For every tensor or view with fewer than 2^31 elements, every distribution of the iterations
over the threads and every order in which the partial sums are added, `sum` is the sum of all elements.
Missing: larger tensors, see `C48_sum_refuted`. -/
theorem C48_sum_partial [AddCommMonoid R] (t : Strided R) (w : t.WF) (f : List Nat → R) (hf : t.Represents f)
    (hs : numel t.dims < 2 ^ 31) (parts : List (List Nat))
    (hp : parts.flatten.Perm (List.range (sizeMethod t.dims))) :
    sumTensor t parts = .ok ((box t.dims).map f).sum :=
  sumTensor_eq w hf (by rwa [sizeMethod_small hs] at hp)

/-- **C48 (sum, refuted).** A vector of 2^32 ones, however the iterations are distributed: `size()` is zero, so is the
sum. -/
theorem C48_sum_refuted (N : Nat) (hN : N = 2 ^ 32) (parts : List (List Nat))
    (hp : parts.flatten.Perm (List.range (sizeMethod [N]))) :
    (tensorOf [N] fun _ => (1 : Int)).WF ∧ (tensorOf [N] fun _ => (1 : Int)).Represents (fun _ => 1) ∧
    ((box [N]).map fun _ => (1 : Int)).sum = N ∧
    sumTensor (tensorOf [N] fun _ => (1 : Int)) parts = .ok 0 := by
  have hz : sizeMethod [N] = 0 := by
    rw [sizeMethod_eq, numel_cons, hN]; rfl
  rw [hz] at hp
  clear hN
  refine ⟨(tensorOf_ok _ _).1.wf, (tensorOf_ok _ _).2.2, ?_, ?_⟩
  · simp [length_box, numel]
  · have hnil : ∀ p ∈ parts, p = [] := by
      simpa using hp
    unfold sumTensor
    clear hp
    generalize tensorOf [N] (fun _ => (1 : Int)) = t
    induction parts with
    | nil => rfl
    | cons p ps ih =>
      rw [List.foldlM_cons, hnil p (by simp)]
      exact ih fun q hq => hnil q (by simp [hq])

/-- A strided view (the left 2×2 part of a 2×3 matrix), three threads, one idle. -/
example : sumTensor (Strided.mk [1, 2, 9, 3, 4, 9] 0 [2, 2] [3, 1] : Strided Int) [[3, 0], [], [1, 2]] = .ok 10 := by decide
example : ([[3, 0], [], [1, 2]] : List (List Nat)).flatten.Perm (List.range (sizeMethod [2, 2])) := by decide

/-- **C48 (max, partial).** For every tensor or view over a linear order, every number `n` of threads and every size
limit of the thread team, `max` is the largest element; for an empty tensor it is minus infinity.  Missing: sizes at
which the `int` counter overflows, and elements that do not compare (`C48_nan_refuted`). -/
theorem C48_max_partial [LinearOrder R] (t : Strided R) (w : t.WF) (f : List Nat → R) (hf : t.Represents f)
    (ninf : R) (hi : ∀ x, ninf ≤ x) (maxThreads n : Nat) (hn : 0 < n) (hm : n ≤ maxThreads)
    (hs : numel t.dims + n ≤ 2 ^ 31) :
    ∃ r, maxTensor (fun a b => decide (a < b)) ninf maxThreads n t = .ok r ∧
      (∀ i, InBox i t.dims → f i ≤ r) ∧
      (numel t.dims ≠ 0 → ∃ i, InBox i t.dims ∧ f i = r) ∧ (numel t.dims = 0 → r = ninf) := by
  obtain ⟨r, h1, h2, h3⟩ := maxTensor_eq w hf ninf hn hm hs
  refine ⟨r, h1, fun i hb => h3 _ (List.mem_cons_of_mem _ (List.mem_map_of_mem (mem_box.2 hb))), ?_, ?_⟩
  · intro h0
    rcases List.mem_cons.1 h2 with e | e
    · have hp : 0 < numel t.dims := Nat.pos_of_ne_zero h0
      have hb := decode_inBox hp
      refine ⟨_, hb, le_antisymm (h3 _ (List.mem_cons_of_mem _ (List.mem_map_of_mem (mem_box.2 hb)))) (e ▸ hi _)⟩
    · obtain ⟨i, hb, e⟩ := List.mem_map.1 e
      exact ⟨i, mem_box.1 hb, e⟩
  · intro h0
    have : box t.dims = [] := List.length_eq_zero_iff.1 (by rw [length_box, h0])
    rw [this] at h2
    simpa using h2

/-- **C48 (min, partial).** The mirror image. -/
theorem C48_min_partial [LinearOrder R] (t : Strided R) (w : t.WF) (f : List Nat → R) (hf : t.Represents f)
    (pinf : R) (hi : ∀ x, x ≤ pinf) (maxThreads n : Nat) (hn : 0 < n) (hm : n ≤ maxThreads)
    (hs : numel t.dims + n ≤ 2 ^ 31) :
    ∃ r, minTensor (fun a b => decide (a < b)) pinf maxThreads n t = .ok r ∧
      (∀ i, InBox i t.dims → r ≤ f i) ∧
      (numel t.dims ≠ 0 → ∃ i, InBox i t.dims ∧ f i = r) ∧ (numel t.dims = 0 → r = pinf) :=
  C48_max_partial (R := Rᵒᵈ) t w f hf pinf hi maxThreads n hn hm hs

/-- Floating-point comparison on integers with a NaN (`none`): a NaN is not less than anything, and nothing is less than
a NaN. -/
def ltNaN : Option Int → Option Int → Bool
  | some a, some b => decide (a < b)
  | _, _ => false

/-- **C48 (max, refuted for NaN).** For the vector (5, NaN, 1), `max` on one thread is 1: neither NaN nor the largest
number; on two threads it is 5. -/
theorem C48_nan_refuted :
    maxTensor ltNaN (some (-100)) 1 1 ⟨[some 5, none, some 1], 0, [3], [1]⟩ = .ok (some 1) ∧
    maxTensor ltNaN (some (-100)) 2 2 ⟨[some 5, none, some 1], 0, [3], [1]⟩ = .ok (some 5) := by decide

/-- Two threads, a team limit of three. -/
example : maxTensor (fun a b => decide (a < b)) (-100) 3 2 (Strided.mk [1, 7, 9, 3, -4, 9] 0 [2, 2] [3, 1] : Strided Int)
    = .ok 7 := by decide
example : minTensor (fun a b => decide (a < b)) 100 3 2 (Strided.mk [1, 7, 9, 3, -4, 9] 0 [2, 2] [3, 1] : Strided Int)
    = .ok (-4) := by decide
example : (Strided.mk [1, 7, 9, 3, -4, 9] 0 [2, 2] [3, 1] : Strided Int).WF := by
  refine ⟨rfl, ?_, ?_⟩
  · intro idx h
    match idx, h with
    | [a, b], h => obtain ⟨h1, h2, _⟩ := h; simp [dot]; omega
  · intro i j hi hj h
    match i, j, hi, hj with
    | [a, b], [c, d], hi, hj =>
      obtain ⟨h1, h2, _⟩ := hi
      obtain ⟨h3, h4, _⟩ := hj
      simp [dot] at h
      simp; omega

/-! ### C63: block tensors -/

/-- **C63 (sum).** `sum` of a block tensor is the sum of all its elements, those outside the blocks being zero. -/
theorem C63_sum [AddCommMonoid R] (T : Block R) (r : Nat) (hr : 0 < r) (bs : Blocks R) (h : T.Models r bs)
    (inner : Nat → List (List Nat))
    (hin : ∀ b, b < bs.length → (inner b).flatten.Perm (List.range (bs.sizes.getD b 0 ^ r)))
    (parts : List (List Nat)) (hp : parts.flatten.Perm (List.range bs.length)) :
    sumBlock T inner parts = .ok ((box (List.replicate r bs.sizes.sum)).map bs.elem).sum :=
  sumBlock_eq hr h hin hp

/-- **C63 (max, partial).** If some stored element is not negative, `max` of a block tensor is its largest element.
Missing: tensors whose stored elements are all negative, see `C63_max_refuted`. -/
theorem C63_max_partial [LinearOrder R] [Zero R] (T : Block R) (r : Nat) (hr : 0 < r) (bs : Blocks R) (h : T.Models r bs)
    (ninf : R) (hi : ∀ x, ninf ≤ x) (maxThreads : Nat) (n : Nat → Nat)
    (hn : ∀ b, b < bs.length → 0 < n b ∧ n b ≤ maxThreads ∧ bs.sizes.getD b 0 ^ r + n b ≤ 2 ^ 31)
    (b0 : Nat) (hb0 : b0 < bs.length) (l0 : List Nat) (hl0 : InBox l0 (List.replicate r bs[b0].1)) (hpos : 0 ≤ bs[b0].2 l0) :
    ∃ v, maxBlock (fun a b => decide (a < b)) ninf maxThreads n T = .ok v ∧
      (∀ j, InBox j (List.replicate r bs.sizes.sum) → bs.elem j ≤ v) ∧
      ∃ j, InBox j (List.replicate r bs.sizes.sum) ∧ bs.elem j = v := by
  have hsz : ∀ (b : Nat) (hb : b < bs.length), bs.sizes.getD b 0 = bs[b].1 := fun b hb =>
    getD_sizes (List.getElem?_eq_getElem hb)
  obtain ⟨v, h1, h2, h3⟩ := maxBlock_eq hr h (by rintro rfl; simp at hb0) ninf hn
  have hstored : ∀ (b : Nat) (hb : b < bs.length) (l : List Nat), InBox l (List.replicate r bs[b].1) → bs[b].2 l ≤ v := by
    intro b hb l hl
    exact h3 _ (List.mem_cons_of_mem _ (List.mem_flatMap.2 ⟨bs[b], List.getElem_mem hb,
      List.mem_map_of_mem (mem_box.2 hl)⟩))
  have hin : ∀ (b : Nat) (hb : b < bs.length) (l : List Nat), InBox l (List.replicate r bs[b].1) →
      InBox (l.map (tileStart bs.sizes b + ·)) (List.replicate r bs.sizes.sum) ∧
        bs.elem (l.map (tileStart bs.sizes b + ·)) = bs[b].2 l := by
    intro b hb l hl
    rw [← hsz b hb] at hl
    refine ⟨?_, elem_shift hr hb hl⟩
    have hl' := inBox_replicate.1 hl
    refine inBox_replicate.2 ⟨by simpa using hl'.1, ?_⟩
    intro x hx
    exact interval_sum (inBlock_shift hl x hx)
  refine ⟨v, h1, ?_, ?_⟩
  · intro j hj
    rcases elem_cases bs hr hj with ⟨b, hb, l, hl, _, he⟩ | ⟨_, he⟩
    · rw [he bs rfl hb]
      exact hstored b hb l (hsz b hb ▸ hl)
    · rw [he bs rfl]
      exact le_trans hpos (hstored b0 hb0 l0 hl0)
  · rcases List.mem_cons.1 h2 with e | e
    · obtain ⟨g1, g2⟩ := hin b0 hb0 l0 hl0
      refine ⟨_, g1, le_antisymm ?_ (by rw [e]; exact hi _)⟩
      rw [g2]; exact hstored b0 hb0 l0 hl0
    · obtain ⟨p, hp, hm⟩ := List.mem_flatMap.1 e
      obtain ⟨b, hb, rfl⟩ := List.getElem_of_mem hp
      obtain ⟨l, hl, e⟩ := List.mem_map.1 hm
      obtain ⟨g1, g2⟩ := hin b hb l (mem_box.1 hl)
      exact ⟨_, g1, g2.trans e⟩

/-- **C63 (min, partial).** If some stored element is not positive, `min` of a block tensor is its smallest element. -/
theorem C63_min_partial [LinearOrder R] [Zero R] (T : Block R) (r : Nat) (hr : 0 < r) (bs : Blocks R) (h : T.Models r bs)
    (pinf : R) (hi : ∀ x, x ≤ pinf) (maxThreads : Nat) (n : Nat → Nat)
    (hn : ∀ b, b < bs.length → 0 < n b ∧ n b ≤ maxThreads ∧ bs.sizes.getD b 0 ^ r + n b ≤ 2 ^ 31)
    (b0 : Nat) (hb0 : b0 < bs.length) (l0 : List Nat) (hl0 : InBox l0 (List.replicate r bs[b0].1)) (hneg : bs[b0].2 l0 ≤ 0) :
    ∃ v, minBlock (fun a b => decide (a < b)) pinf maxThreads n T = .ok v ∧
      (∀ j, InBox j (List.replicate r bs.sizes.sum) → v ≤ bs.elem j) ∧
      ∃ j, InBox j (List.replicate r bs.sizes.sum) ∧ bs.elem j = v :=
  C63_max_partial (R := Rᵒᵈ) T r hr bs h pinf hi maxThreads n hn b0 hb0 l0 hl0 hneg

/-- The block tensor with the 1×1 blocks −3 and −2. -/
def twoNegative : Block Int := blockOf' 2 [(1, fun _ => -3), (1, fun _ => -2)]

theorem twoNegative_models : twoNegative.Models 2 [(1, fun _ => -3), (1, fun _ => -2)] := blockOf'_ok 2 (by decide) _

/-- **C63 (max, refuted).** `max` of diag(−3, −2) is −2, although `T(0, 1)` is 0. -/
theorem C63_max_refuted :
    maxBlock (fun a b => decide (a < b)) (-100) 1 (fun _ => 1) twoNegative = .ok (-2) ∧
    twoNegative.getMut [0, 1] = .ok (twoNegative, 0) := by decide

/-- A block tensor without blocks: `max` dereferences the end iterator. -/
theorem C63_no_blocks_refuted :
    (maxBlock (fun a b => decide (a < b)) (-100) 1 (fun _ => 1) (Block.empty 2 : Block Int)).isUb = true := by decide

example : sumBlock twoNegative (fun _ => [[0]]) [[1], [0]] = .ok (-5) := by decide
example : minBlock (fun a b => decide (a < b)) 100 2 (fun _ => 2) twoNegative = .ok (-3) := by decide

/-! ### C64: functions that return a new tensor -/

/-- **C64 (tensors and views).** `abs`, `invert`, `exp` and `scale` (namespace `new_tensor`; `op` is the function of one
element) return a new tensor of the same shape whose elements are `op` of the argument's, for every number of threads,
every interleaving of their iterations and whatever the fresh memory held.  (`int` counters must not overflow.) -/
theorem C64_new_tensor (op : R → R) (z : Nat → R) (t : Strided R) (w : t.WF) (h0 : t.dims ≠ []) (f : List Nat → R)
    (hf : t.Represents f) (n : Nat) (hn : 0 < n) (hs : numel t.dims + n ≤ 2 ^ 31) (sched : List Nat)
    (hp : Schedule ((List.range n).map (countersOf (sizeMethod t.dims) n)) sched) :
    ∃ t', mapTensor op z t n sched = .ok t' ∧ t'.IsTensor ∧ t'.dims = t.dims ∧ t'.Represents fun i => op (f i) :=
  mapTensor_eq op z w h0 hf hn hs (by
    have := hp.perm.trans (counters_perm hn)
    rwa [sizeMethod_small (by omega)] at this)

/-- **C64 (block tensors, partial).** If the function maps zero to zero (abs, scale), the result on a block tensor has
`op` of every element.  Missing: exp and invert, see `C64_block_refuted`. -/
theorem C64_block_partial [Zero R] (op : R → R) (hop : op 0 = 0) (z0 : Nat → Nat → R) (z z' : Nat → R) (T : Block R)
    (r : Nat) (hr : 0 < r) (bs : Blocks R) (h : T.Models r bs) (n : Nat → Nat) (inner : Nat → List Nat)
    (hn : ∀ b, b < bs.length → 0 < n b ∧ bs.sizes.getD b 0 ^ r + n b ≤ 2 ^ 31 ∧
      Schedule ((List.range (n b)).map (countersOf (bs.sizes.getD b 0 ^ r) (n b))) (inner b))
    (sched : List Nat) (hp : sched.Perm (List.range bs.length)) :
    ∃ T' bs', mapBlock op z0 z z' T n inner sched = .ok T' ∧ T'.Models r bs' ∧ bs'.sizes = bs.sizes ∧
      ∀ j, InBox j (List.replicate r bs.sizes.sum) → bs'.elem j = op (bs.elem j) := by
  have hsz : T.blocks.map (·.dim 0) = bs.sizes := by
    have hb := h.blocks
    unfold Blocks.sizes
    generalize T.blocks = l at hb
    clear hn hp h
    induction hb with
    | nil => rfl
    | cons h1 _ ih =>
      rw [List.map_cons, List.map_cons, ih, HoldsBlock.dim hr h1]
  obtain ⟨us, hU, hus⟩ := (C34_construct z0 T.rank (h.rank ▸ hr) (T.blocks.map (·.dim 0))).2
  rw [h.rank] at hU
  obtain ⟨T', h1, h2⟩ := mapBlockLoop op z z' hr h hU (by rw [hus, hsz]) (n := n) (inner := inner)
    (fun b hb => ⟨(hn b hb).1, (hn b hb).2.1, (hn b hb).2.2.perm.trans (counters_perm (hn b hb).1)⟩) hp
  refine ⟨T', _, ?_, h2, mapBlocks_sizes _ _, fun j hj => elem_map op hop hr hj⟩
  unfold mapBlock
  rw [h.rank]
  exact h1

/-- **C64 (block tensors, refuted).** A function with `op 0 = 1`, as `exp`: on diag(−3, −2) the element (0, 1) of the
result is 0, while `op` of the argument's element is 1. -/
theorem C64_block_refuted :
    ∃ T, mapBlock (fun x => x + 1) (fun _ _ => 7) (fun _ => 8) (fun _ => 9) twoNegative (fun _ => 1) (fun _ => [0]) [0, 1]
      = .ok T ∧ T.getMut [0, 1] = .ok (T, 0) ∧ T.getMut [1, 1] = .ok (T, -1) ∧
      twoNegative.getMut [0, 1] = .ok (twoNegative, 0) := ⟨_, rfl, by decide⟩

/-- Absolute values of a strided view on two threads. -/
example : mapTensor (fun x : Int => x.natAbs) (fun k => 100 + k) (Strided.mk [-1, 2, 9, 3, -4, 9] 0 [2, 2] [3, 1] : Strided Int) 2
    [1, 0, 2, 3] = .ok ⟨[1, 2, 3, 4], 0, [2, 2], [2, 1]⟩ := by decide
example : Schedule ((List.range 2).map (countersOf (sizeMethod [2, 2]) 2)) [1, 0, 2, 3] := by
  have e : (List.range 2).map (countersOf (sizeMethod [2, 2]) 2) = [[0, 2], [1, 3]] := by decide
  rw [e]
  exact .step (i := 1) rfl (.step (i := 0) rfl (.step (i := 0) rfl (.step (i := 1) rfl (.done (by decide)))))

end
end Einsums.Props
