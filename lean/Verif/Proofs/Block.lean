import Verif.Spec.Block
import Verif.Proofs.TiledDot
/-
Block tensors: the object tracks the list of blocks.
-/
namespace Einsums
open Spec Model

variable {R : Type}

/-! ### The bookkeeping -/

theorem blockRanges_eq (ds : List Nat) (s : Nat) :
    (blockRanges ds s).1 = (List.range ds.length).map (fun b =>
      (((s + tileStart ds b : Nat) : Int), ((s + tileStart ds b + ds.getD b 0 : Nat) : Int))) ∧
    (blockRanges ds s).2 = s + ds.sum := by
  induction ds generalizing s with
  | nil => simp [blockRanges]
  | cons d ds ih =>
    obtain ⟨h1, h2⟩ := ih (s + d)
    refine ⟨?_, by simp only [blockRanges, h2, List.sum_cons]; omega⟩
    simp only [blockRanges, h1, List.length_cons, List.range_succ_eq_map, List.map_cons, List.map_map]
    congr 1
    apply List.map_congr_left
    intro b _
    simp [tileStart, List.take_succ_cons]
    omega

theorem forall₂_of_getElem? {α β : Type} {P : α → β → Prop} {l : List α} {m : List β} (hl : l.length = m.length)
    (h : ∀ (b : Nat) t p, l[b]? = some t → m[b]? = some p → P t p) : List.Forall₂ P l m := by
  induction l generalizing m with
  | nil => cases m <;> simp_all
  | cons t l ih => cases m with
    | nil => simp at hl
    | cons p m =>
      exact .cons (h 0 t p rfl rfl) (ih (by simpa using hl) fun b t' p' h1 h2 => h (b + 1) t' p' h1 h2)

theorem forall₂_getElem? {α β : Type} {P : α → β → Prop} {l : List α} {m : List β} (h : List.Forall₂ P l m) {b : Nat} {p : β}
    (hp : m[b]? = some p) : ∃ t, l[b]? = some t ∧ P t p := by
  induction h generalizing b with
  | nil => simp at hp
  | cons h1 _ ih => cases b with
    | zero => exact ⟨_, rfl, by simp at hp; exact hp ▸ h1⟩
    | succ b => exact ih (by simpa using hp)

/-- What the relation says of one block. -/
def HoldsBlock (r : Nat) (t : Strided R) (p : Nat × (List Nat → R)) : Prop :=
  t.IsTensor ∧ t.dims = List.replicate r p.1 ∧ t.Represents p.2

theorem HoldsBlock.dim {r : Nat} (hr : 0 < r) {t : Strided R} {p : Nat × (List Nat → R)} (h : HoldsBlock r t p) :
    t.dim 0 = p.1 := by
  unfold Strided.dim
  rw [h.2.1]
  cases r with
  | zero => omega
  | succ r => simp [List.replicate_succ]

theorem updateDims_models {T : Block R} {r : Nat} (hr : 0 < r) (hT : T.rank = r) {bs : Blocks R}
    (h : List.Forall₂ (HoldsBlock r) T.blocks bs) : T.updateDims.Models r bs := by
  have hd : T.blocks.map (·.dim 0) = bs.sizes := by
    unfold Blocks.sizes
    clear hT
    generalize T.blocks = l at h
    induction h with
    | nil => rfl
    | cons h1 _ ih => simp [h1.dim hr, ih]
  have hl : bs.sizes.length = bs.length := by simp [Blocks.sizes]
  refine ⟨hT, h, hd, ?_, ?_⟩
  · simp [Block.updateDims, hd, (blockRanges_eq _ _).2]
  · simp [Block.updateDims, hd, (blockRanges_eq _ _).1, hl]

theorem sizes_getD (bs : Blocks R) (b : Nat) : bs.sizes.getD b 0 = ((bs[b]?).map (·.1)).getD 0 := by
  simp [Blocks.sizes, List.getD_eq_getElem?_getD]

theorem Model.Block.Models.length {T : Block R} {r : Nat} {bs : Blocks R} (h : T.Models r bs) :
    T.blocks.length = bs.length := h.blocks.length_eq

theorem Model.Block.Models.at {T : Block R} {r : Nat} {bs : Blocks R} (h : T.Models r bs) {b : Nat}
    {p : Nat × (List Nat → R)} (hb : bs[b]? = some p) : ∃ t, T.blocks[b]? = some t ∧ T.at b = .ok t ∧ HoldsBlock r t p := by
  obtain ⟨t, h1, h2⟩ := forall₂_getElem? h.blocks hb
  exact ⟨t, h1, by simp [Block.at, h1], h2⟩

theorem Model.Block.Models.at_none {T : Block R} {r : Nat} {bs : Blocks R} (h : T.Models r bs) {b : Nat}
    (hb : bs.length ≤ b) : T.at b = .error "out_of_range" := by
  have : T.blocks[b]? = none := by simp [h.length, hb]
  simp [Block.at, this]

theorem Model.Block.Models.range {T : Block R} {r : Nat} {bs : Blocks R} (h : T.Models r bs) {b : Nat}
    (hb : b < bs.length) : T.ranges[b]? = some
      (((tileStart bs.sizes b : Nat) : Int), ((tileStart bs.sizes b + bs.sizes.getD b 0 : Nat) : Int)) := by
  rw [h.ranges]
  simp [hb]

/-- Replace the elements of one block. -/
theorem Model.Block.Models.setBlock {T : Block R} {r : Nat} {bs : Blocks R} (h : T.Models r bs) {b n : Nat}
    {f g : List Nat → R} {t : Strided R} (hb : bs[b]? = some (n, f)) (ht : HoldsBlock r t (n, g)) :
    ({ T with blocks := T.blocks.set b t } : Block R).Models r (bs.set b (n, g)) := by
  have hs : Blocks.sizes (bs.set b (n, g)) = bs.sizes := by
    unfold Blocks.sizes
    apply List.ext_getElem?
    intro i
    simp only [List.getElem?_map, List.getElem?_set]
    by_cases e : b = i
    · subst e
      rw [if_pos rfl]
      split <;> simp_all
    · rw [if_neg e]
  refine ⟨h.rank, ?_, by rw [hs]; exact h.dims, by rw [hs]; exact h.dim, ?_⟩
  · apply forall₂_of_getElem?
    · simp [h.length]
    · intro i t' p' h1 h2
      simp only [List.getElem?_set] at h1 h2
      by_cases e : b = i
      · rw [if_pos e] at h1 h2
        split at h1 <;> split at h2 <;> simp_all
        exact ht
      · rw [if_neg e] at h1 h2
        obtain ⟨t'', h3, h4⟩ := forall₂_getElem? h.blocks h2
        rw [h1] at h3
        exact (Option.some.inj h3) ▸ h4
  · rw [hs, List.length_set]; exact h.ranges

/-! ### Locating an index -/

theorem interval_lt {ss : List Nat} {b x : Nat} (h : InInterval ss b x) : b < ss.length := by
  unfold InInterval at h
  by_contra c
  have : ss.getD b 0 = 0 := by simp at c; simp [c]
  omega

theorem interval_unique {ss : List Nat} {b c x : Nat} (h : InInterval ss b x) (g : InInterval ss c x) : b = c :=
  tile_unique (ss := ss) (s := ss.getD b 0) (s' := ss.getD c 0) (by simp [interval_lt h]) (by simp [interval_lt g])
    h.1 h.2 g.1 g.2

theorem interval_exists {ss : List Nat} {x : Nat} (h : x < ss.sum) : ∃ b, InInterval ss b x := by
  obtain ⟨t, s, h1, h2, h3⟩ := exists_tile h
  exact ⟨t, h2, by simp [h1]; exact h3⟩

theorem interval_sum {ss : List Nat} {b x : Nat} (h : InInterval ss b x) : x < ss.sum := by
  have := tileStart_end (interval_lt h)
  unfold InInterval at h
  omega

theorem findIdx_interval {ss : List Nat} {n : Nat} (hn : n = ss.length) {x b : Nat} (h : InInterval ss b x) :
    ((List.range n).map fun b => (((tileStart ss b : Nat) : Int), ((tileStart ss b + ss.getD b 0 : Nat) : Int))).findIdx?
      (fun (q : Int × Int) => decide (q.1 ≤ (x : Int) ∧ (x : Int) < q.2)) = some b := by
  subst hn
  rw [List.findIdx?_eq_some_iff_getElem]
  refine ⟨by simpa using interval_lt h, ?_, ?_⟩
  · simp only [List.getElem_map, List.getElem_range, decide_eq_true_eq]
    unfold InInterval at h
    omega
  · intro j hj
    simp only [List.getElem_map, List.getElem_range, decide_eq_true_eq]
    intro hc
    have : InInterval ss j x := by unfold InInterval; omega
    exact absurd (interval_unique h this) (by omega)

theorem findIdx_none {ss : List Nat} {n : Nat} (hn : n = ss.length) {i : Int} (h : i < 0 ∨ (ss.sum : Int) ≤ i) :
    ((List.range n).map fun b => (((tileStart ss b : Nat) : Int), ((tileStart ss b + ss.getD b 0 : Nat) : Int))).findIdx?
      (fun (q : Int × Int) => decide (q.1 ≤ i ∧ i < q.2)) = none := by
  subst hn
  rw [List.findIdx?_eq_none_iff]
  intro q hq
  simp only [List.mem_map, List.mem_range] at hq
  obtain ⟨b, hb, rfl⟩ := hq
  have := tileStart_end hb
  simp only [decide_eq_false_iff_not]
  omega

/-- The normalised value of an index. -/
def normInt (d : Nat) (i : Int) : Int := if i < 0 then (d : Int) + i else i

theorem pyIndex_normInt {d : Nat} {i : Int} {j : Nat} (h : pyIndex d i = some j) : normInt d i = j ∧ j < d := by
  have := pyIndex_eq_some.1 h
  unfold normInt
  split <;> omega

theorem pyIndex_none_normInt {d : Nat} {i : Int} (h : pyIndex d i = none) : normInt d i < 0 ∨ (d : Int) ≤ normInt d i := by
  unfold pyIndex at h
  unfold normInt
  split at h
  · simp at h
  · split at h
    · simp at h
    · split <;> omega

/-- The loop once the block is known. -/
theorem locate_some {T : Block R} {r : Nat} {bs : Blocks R} (h : T.Models r bs) {b : Nat} (hb : b < bs.length)
    (is : List Int) (acc : List Int) :
    T.locate is (some b) acc =
      if ∀ i ∈ is, (tileStart bs.sizes b : Int) ≤ normInt T.dim i ∧
          normInt T.dim i < (tileStart bs.sizes b + bs.sizes.getD b 0 : Nat)
      then .inside b (acc ++ is.map fun i => normInt T.dim i - tileStart bs.sizes b) else .outside := by
  induction is generalizing acc with
  | nil => simp [Block.locate]
  | cons i is ih =>
    simp only [Block.locate, h.range hb, List.forall_mem_cons]
    change (if _ ≤ normInt T.dim i ∧ normInt T.dim i < _ then _ else _) = _
    by_cases c : (tileStart bs.sizes b : Int) ≤ normInt T.dim i ∧
        normInt T.dim i < (tileStart bs.sizes b + bs.sizes.getD b 0 : Nat)
    · rw [if_pos c]
      change T.locate is (some b) (acc ++ [normInt T.dim i - _]) = _
      rw [ih]
      simp only [c, and_self, true_and, List.map_cons, List.append_assoc, List.singleton_append]
    · rw [if_neg c, if_neg (fun hc => c hc.1)]

theorem locate_cons {T : Block R} {r : Nat} {bs : Blocks R} (h : T.Models r bs) (i : Int) (is : List Int) :
    (pyIndex bs.sizes.sum i = none → T.locate (i :: is) none [] = .noBlock) ∧
    (∀ x, pyIndex bs.sizes.sum i = some x → ∃ b, InInterval bs.sizes b x ∧
      T.locate (i :: is) none [] = T.locate (i :: is) (some b) []) := by
  have hl : bs.length = bs.sizes.length := by simp [Blocks.sizes]
  constructor
  · intro hi
    have := pyIndex_none_normInt hi
    simp only [Block.locate]
    have e : T.ranges.findIdx? (fun (q : Int × Int) => decide (q.1 ≤ normInt T.dim i ∧ normInt T.dim i < q.2)) = none := by
      rw [h.ranges, h.dim]
      exact findIdx_none hl this
    unfold normInt at e
    rw [e]
  · intro x hx
    obtain ⟨h1, h2⟩ := pyIndex_normInt hx
    obtain ⟨b, hb⟩ := interval_exists h2
    refine ⟨b, hb, ?_⟩
    have e : T.ranges.findIdx? (fun (q : Int × Int) => decide (q.1 ≤ normInt T.dim i ∧ normInt T.dim i < q.2)) = some b := by
      rw [h.ranges, h.dim, h1]
      exact findIdx_interval hl hb
    unfold normInt at e
    simp only [Block.locate]
    rw [e]

theorem pyIndices_replicate_cons {d r : Nat} {i : Int} {is : List Int} :
    pyIndices (List.replicate (r + 1) d) (i :: is) =
      (pyIndex d i).bind fun j => (pyIndices (List.replicate r d) is).map (j :: ·) := by
  simp only [List.replicate_succ, pyIndices]
  cases pyIndex d i <;> simp
  cases pyIndices (List.replicate r d) is <;> simp

theorem pyIndices_replicate {d r : Nat} {is : List Int} {js : List Nat}
    (h : pyIndices (List.replicate r d) is = some js) :
    is.map (normInt d) = js.map Int.ofNat ∧ ∀ x ∈ js, x < d := by
  induction r generalizing is js with
  | zero => cases is <;> simp_all [pyIndices]
  | succ r ih => cases is with
    | nil => simp [List.replicate_succ, pyIndices] at h
    | cons i is =>
      rw [List.replicate_succ] at h
      obtain ⟨j, js', rfl, h1, h2⟩ := pyIndices_cons.1 h
      obtain ⟨h3, h4⟩ := pyIndex_normInt h1
      obtain ⟨h5, h6⟩ := ih h2
      refine ⟨by simp [h3, h5], ?_⟩
      simp only [List.forall_mem_cons]
      exact ⟨h4, h6⟩

theorem pyIndices_replicate_none {d r : Nat} {is : List Int} (hl : is.length = r)
    (h : pyIndices (List.replicate r d) is = none) : ∃ i ∈ is, pyIndex d i = none := by
  induction r generalizing is with
  | zero => cases is <;> simp_all [pyIndices]
  | succ r ih => cases is with
    | nil => simp at hl
    | cons i is =>
      rw [pyIndices_replicate_cons] at h
      cases e : pyIndex d i with
      | none => exact ⟨i, by simp, e⟩
      | some j =>
        rw [e] at h
        simp only [Option.bind_some, Option.map_eq_none_iff] at h
        obtain ⟨k, h1, h2⟩ := ih (by simpa using hl) h
        exact ⟨k, by simp [h1], h2⟩

theorem find_eq {bs : Blocks R} {j : List Nat} (hj : j ≠ []) {b : Nat} (h : InBlock bs.sizes b j) : bs.find j = some b := by
  have hl : bs.length = bs.sizes.length := by simp [Blocks.sizes]
  obtain ⟨x, hx⟩ := List.exists_mem_of_ne_nil j hj
  unfold Blocks.find
  rw [List.find?_eq_some_iff_getElem]
  refine ⟨by simpa using h, b, by rw [List.length_range, hl]; exact interval_lt (h x hx), by simp, ?_⟩
  intro k hk
  simp only [List.getElem_range, Bool.not_eq_true', decide_eq_false_iff_not]
  intro hc
  exact absurd (interval_unique (hc x hx) (h x hx)) (by omega)

theorem find_none {bs : Blocks R} {j : List Nat} (h : bs.find j = none) {b : Nat} (hb : b < bs.length) :
    ¬ InBlock bs.sizes b j := by
  unfold Blocks.find at h
  rw [List.find?_eq_none] at h
  simpa using h b (by simpa using hb)

theorem find_some {bs : Blocks R} {j : List Nat} {b : Nat} (h : bs.find j = some b) :
    b < bs.length ∧ InBlock bs.sizes b j := by
  unfold Blocks.find at h
  exact ⟨by simpa using List.mem_of_find?_eq_some h, by simpa using List.find?_some h⟩

/-- Where an in-range multi-index is found. -/
theorem locate_ok {T : Block R} {r : Nat} (hr : 0 < r) {bs : Blocks R} (h : T.Models r bs) {idx : List Int} {j : List Nat}
    (hi : pyIndices (List.replicate r bs.sizes.sum) idx = some j) :
    T.locate idx none [] = match bs.find j with
      | some b => .inside b (toIdx (j.map (· - tileStart bs.sizes b)))
      | none => .outside := by
  have hl : bs.length = bs.sizes.length := by simp [Blocks.sizes]
  obtain ⟨n1, n2⟩ := pyIndices_replicate hi
  cases r with
  | zero => omega
  | succ r => cases idx with
    | nil => simp [List.replicate_succ, pyIndices] at hi
    | cons i is =>
      have hi' := hi
      rw [List.replicate_succ] at hi'
      obtain ⟨x, xs, rfl, h1, h2⟩ := pyIndices_cons.1 hi'
      obtain ⟨b, hb, e⟩ := (locate_cons h i is).2 x h1
      have hbl : b < bs.length := by rw [hl]; exact interval_lt hb
      rw [e, locate_some h hbl]
      have mem : (∀ k ∈ i :: is, (tileStart bs.sizes b : Int) ≤ normInt T.dim k ∧
          normInt T.dim k < (tileStart bs.sizes b + bs.sizes.getD b 0 : Nat)) ↔ InBlock bs.sizes b (x :: xs) := by
        rw [h.dim]
        have : ∀ (P : Int → Prop), (∀ k ∈ i :: is, P (normInt bs.sizes.sum k)) ↔ ∀ y ∈ x :: xs, P (Int.ofNat y) := by
          intro P
          rw [← List.forall_mem_map (f := normInt bs.sizes.sum) (P := P), n1, List.forall_mem_map]
        rw [this fun z => (tileStart bs.sizes b : Int) ≤ z ∧ z < (tileStart bs.sizes b + bs.sizes.getD b 0 : Nat)]
        unfold InBlock InInterval
        apply forall₂_congr
        intro y _
        simp only [Int.ofNat_eq_natCast]
        omega
      by_cases c : InBlock bs.sizes b (x :: xs)
      · rw [if_pos (mem.2 c), find_eq (by simp) c]
        simp only [List.nil_append, Located.inside.injEq, true_and]
        have : (i :: is).map (fun i => normInt T.dim i - (tileStart bs.sizes b : Int)) =
            ((i :: is).map (normInt bs.sizes.sum)).map (fun z => z - (tileStart bs.sizes b : Int)) := by
          rw [List.map_map, h.dim]; rfl
        rw [this, n1, toIdx, List.map_map, List.map_map]
        apply List.map_congr_left
        intro y hy
        have := (c y hy).1
        simp only [Function.comp, Int.ofNat_eq_natCast]
        omega
      · rw [if_neg (fun hc => c (mem.1 hc))]
        cases e2 : bs.find (x :: xs) with
        | none => rfl
        | some b' =>
          obtain ⟨h3, h4⟩ := find_some e2
          have := interval_unique (h4 x (by simp)) hb
          subst this
          exact absurd h4 c

/-- An index out of range: an exception if it is the first one, otherwise outside the blocks. -/
theorem locate_out {T : Block R} {r : Nat} {bs : Blocks R} (h : T.Models r bs) {i : Int} {is : List Int}
    (hl : (i :: is).length = r) (hi : pyIndices (List.replicate r bs.sizes.sum) (i :: is) = none) :
    T.locate (i :: is) none [] = if pyIndex bs.sizes.sum i = none then .noBlock else .outside := by
  have hlen : bs.length = bs.sizes.length := by simp [Blocks.sizes]
  cases e : pyIndex bs.sizes.sum i with
  | none => rw [if_pos rfl]; exact (locate_cons h i is).1 e
  | some x =>
    rw [if_neg (by simp)]
    obtain ⟨b, hb, e2⟩ := (locate_cons h i is).2 x e
    have hbl := interval_lt hb
    rw [e2, locate_some h (by omega), if_neg]
    intro hc
    obtain ⟨k, hk, hk2⟩ := pyIndices_replicate_none hl hi
    have h1 := hc k hk
    have h2 := pyIndex_none_normInt hk2
    have h3 := tileStart_end hbl
    rw [h.dim] at h1
    omega

theorem local_inBox {bs : Blocks R} {b r : Nat} {j : List Nat} (hj : j.length = r) (h : InBlock bs.sizes b j) :
    InBox (j.map (· - tileStart bs.sizes b)) (List.replicate r (bs.sizes.getD b 0)) := by
  induction j generalizing r with
  | nil => simp at hj; subst hj; exact trivial
  | cons x j ih => cases r with
    | zero => simp at hj
    | succ r =>
      have := h x (by simp)
      unfold InInterval at this
      exact ⟨by simp only; omega, ih (by simpa using hj) fun y hy => h y (by simp [hy])⟩

theorem getD_sizes {bs : Blocks R} {b : Nat} {p : Nat × (List Nat → R)} (h : bs[b]? = some p) : bs.sizes.getD b 0 = p.1 := by
  rw [sizes_getD, h]; rfl

theorem update_eq {bs : Blocks R} {b n : Nat} {f : List Nat → R} (h : bs[b]? = some (n, f)) (l : List Nat) (v : R) :
    bs.update b l v = bs.set b (n, fun i => if i = l then v else f i) := by
  unfold Blocks.update
  apply List.ext_getElem?
  intro i
  rw [List.getElem?_modify, List.getElem?_set]
  by_cases e : b = i
  · subst e
    have : b < bs.length := by by_contra c; simp at c; simp [c] at h
    rw [h, if_pos rfl, if_pos this]
    simp
  · simp [e]

end Einsums
