import Verif.Spec.BlockNames
/-
C178: blocks by name.
-/
namespace Einsums
open Spec Model

theorem find_first (bs : List (NamedBlock α)) (name : String) (i : Nat) :
    bs.findIdx? (fun b => b.name == name) = some i ↔ FirstNamed bs name i := by
  rw [List.findIdx?_eq_some_iff_getElem]
  constructor
  · rintro ⟨h, hp, hq⟩
    refine ⟨bs[i], List.getElem?_eq_getElem h, by simpa using hp, ?_⟩
    intro j hj b' hb'
    have hl : j < bs.length := by omega
    rw [List.getElem?_eq_getElem hl] at hb'
    have := hq j hj
    rw [Option.some.inj hb'] at this
    simpa using this
  · rintro ⟨b, hb, hn, hq⟩
    obtain ⟨h, e⟩ := List.getElem?_eq_some_iff.mp hb
    refine ⟨h, by simp [e, hn], ?_⟩
    intro j hj
    have := hq j hj bs[j] (List.getElem?_eq_getElem (by omega))
    simpa using this

theorem shiftStep_length (bs : List (NamedBlock α)) (i : Nat) : (shiftStep bs i).length = bs.length := by
  unfold shiftStep
  split <;> simp

theorem shifts_length (L : List Nat) (bs : List (NamedBlock α)) : (L.foldl shiftStep bs).length = bs.length := by
  induction L generalizing bs with
  | nil => rfl
  | cons i L ih => rw [List.foldl_cons, ih, shiftStep_length]

theorem shiftStep_get (bs : List (NamedBlock α)) (i : Nat) (j : Nat) :
    (shiftStep bs i)[j]? = if j = i then
        (match bs[i]?, bs[i - 1]? with
          | some d, some s => some (assignBlock d s)
          | d, _ => d)
      else bs[j]? := by
  unfold shiftStep
  rcases hd : bs[i]? with _ | d
  · simp only
    split
    · next e => rw [e, hd]
    · rfl
  · rcases hs : bs[i - 1]? with _ | s
    · simp only
      split
      · next e => rw [e, hd]
      · rfl
    · simp only
      obtain ⟨hi, _⟩ := List.getElem?_eq_some_iff.mp hd
      rw [List.getElem?_set]
      by_cases e : i = j
      · simp [e, e ▸ hi]
      · rw [if_neg e, if_neg (fun h => e h.symm)]

/-- After `k` of the backward assignments. -/
theorem shift_get (bs : List (NamedBlock α)) (n k : Nat) (hk : k < n) (hn : n < bs.length) (j : Nat) (b : NamedBlock α)
    (hb : bs[j]? = some b) :
    (((List.range k).map fun k => n - 1 - k).foldl shiftStep bs)[j]? =
      some ⟨b.name, if n - k ≤ j ∧ j < n then (bs[j - 1]?.getD b).content else b.content⟩ := by
  induction k generalizing j b with
  | zero =>
    have : ¬(n - 0 ≤ j ∧ j < n) := by omega
    simp only [List.range_zero, List.map_nil, List.foldl_nil, hb, if_neg this]
  | succ k ih =>
    rw [List.range_succ, List.map_append, List.foldl_append]
    simp only [List.map_cons, List.map_nil, List.foldl_cons, List.foldl_nil]
    rw [shiftStep_get]
    by_cases e : j = n - 1 - k
    · rw [if_pos e, ← e, ih (by omega) j b hb]
      have hj : j - 1 < bs.length := by omega
      have hs : bs[j - 1]? = some bs[j - 1] := List.getElem?_eq_getElem hj
      rw [ih (by omega) (j - 1) _ hs]
      have h1 : ¬(n - k ≤ j - 1 ∧ j - 1 < n) := by omega
      have h2 : n - (k + 1) ≤ j ∧ j < n := by omega
      simp only [assignBlock, if_neg h1, if_pos h2, hs, Option.getD_some]
    · rw [if_neg e, ih (by omega) j b hb]
      by_cases h : n - k ≤ j ∧ j < n
      · rw [if_pos h, if_pos (by omega)]
      · rw [if_neg h, if_neg (by omega)]

theorem vecInsert_copies (v : NamedBlocks α) (pos : Int) (x : NamedBlock α) (h0 : 0 ≤ pos)
    (h1 : pos ≤ v.blocks.length) (h : v.blocks.length = v.capacity ∨ pos = v.blocks.length) :
    ∃ w, vecInsert v pos x = .ok w ∧ w.blocks = added v.blocks (.insert pos x) := by
  unfold vecInsert
  rw [if_neg (by omega)]
  dsimp only
  by_cases hc : v.blocks.length = v.capacity
  · rw [if_pos hc]
    exact ⟨_, rfl, rfl⟩
  · have hp : pos.toNat = v.blocks.length := by omega
    rw [if_neg hc, if_pos hp]
    refine ⟨_, rfl, ?_⟩
    simp [added, hp]

/-- The blocks after an insertion into spare capacity: names of the old ones, and the last one again. -/
theorem vecInsert_spare (v : NamedBlocks α) (pos : Int) (x : NamedBlock α) (h0 : 0 ≤ pos)
    (h1 : pos < v.blocks.length) (h : v.blocks.length ≠ v.capacity) :
    ∃ w, vecInsert v pos x = .ok w ∧ w.capacity = v.capacity ∧
      namesOf w.blocks = namesOf v.blocks ++ (namesOf v.blocks).getLast?.toList ∧
      contentsOf w.blocks = contentAdded (contentsOf v.blocks) (.insert pos x) := by
  obtain ⟨p, rfl⟩ : ∃ p : Nat, pos = p := ⟨pos.toNat, by omega⟩
  have hp : p < v.blocks.length := by omega
  have hne : v.blocks ≠ [] := by
    intro e
    rw [e] at hp
    exact absurd hp (by simp)
  obtain ⟨l, hl⟩ : ∃ l, v.blocks.getLast? = some l := ⟨_, List.getLast?_eq_some_getLast hne⟩
  have hlast : v.blocks[v.blocks.length - 1]? = some l := by rw [← List.getLast?_eq_getElem?]; exact hl
  generalize hg : v.blocks ++ [l] = grown
  have hgl : grown.length = v.blocks.length + 1 := by rw [← hg]; simp
  have get := fun j b => shift_get grown v.blocks.length (v.blocks.length - 1 - p) (by omega) (by omega) j b
  generalize hs : ((List.range (v.blocks.length - 1 - p)).map fun k => v.blocks.length - 1 - k).foldl shiftStep grown
    = shifted at get
  have hpg : grown[p]? = some grown[p] := List.getElem?_eq_getElem (by omega)
  have hsp := get p _ hpg
  have hlen : shifted.length = grown.length := by
    rw [← hs, shifts_length]
  have key : vecInsert v p x = .ok { v with blocks := shifted.set p ⟨grown[p].name, x.content⟩ } := by
    unfold vecInsert
    rw [if_neg (by omega)]
    dsimp only
    rw [if_neg h, if_neg (by omega), hl]
    simp only [Option.toList_some, Int.toNat_natCast, hg, hs, hsp, assignBlock]
  refine ⟨_, key, rfl, ?_, ?_⟩
  · have : namesOf v.blocks ++ (namesOf v.blocks).getLast?.toList = namesOf grown := by
      simp [namesOf, ← hg, hl]
    rw [this]
    apply List.ext_getElem?
    intro j
    simp only [namesOf, List.getElem?_map, List.getElem?_set]
    by_cases e : p = j
    · subst e
      rw [if_pos rfl, if_pos (by omega), hpg]
      rfl
    · rw [if_neg e]
      by_cases hj : j < grown.length
      · rw [get j _ (List.getElem?_eq_getElem hj), List.getElem?_eq_getElem hj]
        rfl
      · rw [List.getElem?_eq_none (by omega), List.getElem?_eq_none (by omega)]
  · apply List.ext_getElem?
    intro j
    simp only [contentsOf, contentAdded, Int.toNat_natCast, List.getElem?_map, List.getElem?_set]
    have tl : ((v.blocks.map (·.content)).take p).length = p := by simp; omega
    by_cases e : p = j
    · subst e
      rw [if_pos rfl, if_pos (by omega), List.getElem?_append_right (by omega), tl]
      simp
    · rw [if_neg e]
      by_cases hj : j < grown.length
      · rw [get j _ (List.getElem?_eq_getElem hj)]
        by_cases hjp : j < p
        · rw [if_neg (by omega), List.getElem?_append_left (by omega), List.getElem?_take_of_lt hjp]
          have : grown[j] = v.blocks[j]'(by omega) := by
            simp only [← hg]
            exact List.getElem_append_left (by omega)
          simp only [Option.map_some, this, List.getElem?_map]
          rw [List.getElem?_eq_getElem (by omega)]
          rfl
        · rw [List.getElem?_append_right (by omega), tl]
          obtain ⟨i, rfl⟩ : ∃ i, j = i + 1 := ⟨j - 1, by omega⟩
          have e2 : i + 1 - p = (i - p) + 1 := by omega
          rw [e2, List.getElem?_cons_succ, List.getElem?_drop, List.getElem?_map]
          have e3 : p + (i - p) = i := by omega
          rw [e3, List.getElem?_eq_getElem (show i < v.blocks.length by omega)]
          by_cases hl' : i + 1 < v.blocks.length
          · rw [if_pos (by omega)]
            have hi' : i < v.blocks.length := by omega
            have : grown[i + 1 - 1]? = some v.blocks[i] := by
              rw [Nat.add_sub_cancel]
              simp only [← hg]
              rw [List.getElem?_append_left hi', List.getElem?_eq_getElem]
            rw [this]
            rfl
          · have hi : i + 1 = v.blocks.length := by omega
            rw [if_neg (by omega)]
            have e4 : grown[i + 1] = l := by
              simp only [← hg]
              rw [List.getElem_append_right (by omega)]
              simp
            have e5 : v.blocks[i]'(by omega) = l := by
              have := hlast
              rw [show v.blocks.length - 1 = i by omega, List.getElem?_eq_getElem (by omega)] at this
              exact Option.some.inj this
            simp only [Option.map_some, e4, e5]
      · rw [List.getElem?_eq_none (by omega), List.getElem?_eq_none]
        · rfl
        · simp
          omega

theorem vecPush_blocks (v : NamedBlocks α) (x : NamedBlock α) : (vecPush v x).blocks = v.blocks ++ [x] := by
  unfold vecPush
  split <;> rfl

theorem added_contents (bs : List (NamedBlock α)) (op : BlockAdd α) :
    contentsOf (added bs op) = contentAdded (contentsOf bs) op := by
  cases op <;> simp [added, contentAdded, contentsOf, List.map_take, List.map_drop]

theorem insert_contents (v : NamedBlocks α) (pos : Int) (x : NamedBlock α) (h : Allowed v.blocks.length (.insert pos x)) :
    ∃ w, v.insert pos x = .ok w ∧ contentsOf w.blocks = contentAdded (contentsOf v.blocks) (.insert pos x) := by
  obtain ⟨hs, h0, h1⟩ := h
  unfold NamedBlocks.insert
  rw [if_pos hs]
  by_cases hc : v.blocks.length = v.capacity ∨ pos = v.blocks.length
  · obtain ⟨w, e, hw⟩ := vecInsert_copies v pos x h0 h1 hc
    exact ⟨w, e, by rw [hw, added_contents]⟩
  · obtain ⟨w, e, -, -, hw⟩ := vecInsert_spare v pos x h0 (by omega) (by omega)
    exact ⟨w, e, hw⟩

namespace Props

/-- C178, a name stands for the first block that has it; if none has, that is an error. -/
theorem C178_lookup (v : NamedBlocks α) (name : String) :
    (∀ i, v.find name = .ok i ↔ FirstNamed v.blocks name i) ∧
    (∀ c, v.get name = .ok c ↔ ∃ i b, FirstNamed v.blocks name i ∧ v.blocks[i]? = some b ∧ c = b.content) ∧
    ((v.get name).isError ↔ ∀ b ∈ v.blocks, b.name ≠ name) ∧ ¬(v.get name).isUb := by
  rcases hf : v.blocks.findIdx? (fun b => b.name == name) with _ | i
  · have none : ∀ i, ¬FirstNamed v.blocks name i := by
      intro i hi
      rw [← find_first, hf] at hi
      cases hi
    have all : ∀ b ∈ v.blocks, b.name ≠ name := by
      simpa using List.findIdx?_eq_none_iff.mp hf
    have he : ∃ m, v.find name = .error m := by
      unfold NamedBlocks.find
      rw [hf]
      dsimp only
      split
      · exact ⟨_, rfl⟩
      · exact ⟨_, rfl⟩
    obtain ⟨m, hm⟩ := he
    have hg : v.get name = .error m := by
      unfold NamedBlocks.get
      rw [hm]
      rfl
    rw [hm, hg]
    refine ⟨fun i => ⟨(fun h => nomatch h), fun h => (none i h).elim⟩,
      fun c => ⟨(fun h => nomatch h), ?_⟩, ⟨fun _ => all, fun _ => rfl⟩, nofun⟩
    rintro ⟨i, b, h, -⟩
    exact (none i h).elim
  · have hi := (find_first _ _ _).mp hf
    have hm : v.find name = .ok i := by
      unfold NamedBlocks.find
      rw [hf]
    obtain ⟨b, hb, hn, -⟩ := hi
    have hg : v.get name = .ok b.content := by
      unfold NamedBlocks.get
      rw [hm, Outcome.ok_bind]
      simp only [hb]
      rfl
    have uniq : ∀ j, FirstNamed v.blocks name j → j = i := by
      intro j hj
      rw [← find_first, hf] at hj
      exact (Option.some.inj hj).symm
    have hi := (find_first _ _ _).mp hf
    rw [hm, hg]
    refine ⟨fun j => ⟨fun h => ?_, fun h => by rw [uniq j h]⟩,
      fun c => ⟨fun h => ⟨i, b, hi, hb, (Outcome.ok.inj h).symm⟩, ?_⟩, ⟨(fun h => nomatch h), fun h => ?_⟩, nofun⟩
    · rw [← Outcome.ok.inj h]
      exact hi
    · rintro ⟨j, b', hj, hb', rfl⟩
      rw [uniq j hj, hb] at hb'
      rw [Option.some.inj hb']
    · exact (h b (List.mem_of_getElem? hb) hn).elim

/-- C178, blocks that are not square are refused, and blocks inserted outside are undefined. -/
theorem C178_refused (v : NamedBlocks α) (x : NamedBlock α) (h : isSquare x.content = false) (pos : Int) :
    (v.push x).isError ∧ (v.insert pos x).isError := by
  simp [NamedBlocks.push, NamedBlocks.insert, h, Outcome.isError]

/-- C178, the contents are where they were put, whatever the history of pushes and insertions and the capacity. -/
theorem C178_contents (v : NamedBlocks α) (ops : List (BlockAdd α)) (h : AllAllowed v.blocks.length ops) :
    ∃ w, v.run ops = .ok w ∧ contentsOf w.blocks = ops.foldl contentAdded (contentsOf v.blocks) := by
  induction ops generalizing v with
  | nil => exact ⟨v, rfl, rfl⟩
  | cons op ops ih =>
    obtain ⟨ha, hr⟩ := h
    have step : ∃ w, v.add op = .ok w ∧ contentsOf w.blocks = contentAdded (contentsOf v.blocks) op := by
      cases op with
      | push x =>
        refine ⟨vecPush v x, ?_, ?_⟩
        · exact if_pos ha
        · rw [vecPush_blocks]
          simp [contentsOf, contentAdded]
      | insert pos x => exact insert_contents v pos x ha
    obtain ⟨w, e, hw⟩ := step
    have hl : w.blocks.length = v.blocks.length + 1 := by
      have := congrArg List.length hw
      cases op with
      | push x => simpa [contentsOf, contentAdded] using this
      | insert pos x =>
        obtain ⟨-, h0, h1⟩ := ha
        simp [contentsOf, contentAdded] at this
        omega
    obtain ⟨w', e', hw'⟩ := ih w (by rw [hl]; exact hr)
    refine ⟨w', ?_, by rw [hw', List.foldl_cons, hw]⟩
    unfold NamedBlocks.run at e' ⊢
    rw [List.foldlM_cons, e]
    exact e'

/-- C178, pushed blocks keep their names: after any number of pushes the blocks are those there were and the pushed ones, so
that each whose name no earlier block has is found by it. -/
theorem C178_push (v : NamedBlocks α) (xs : List (NamedBlock α)) (h : ∀ x ∈ xs, isSquare x.content = true) :
    ∃ w, v.run (xs.map .push) = .ok w ∧ w.blocks = v.blocks ++ xs ∧
      ((namesOf (v.blocks ++ xs)).Nodup → ∀ b ∈ v.blocks ++ xs, w.get b.name = .ok b.content) := by
  have run : ∃ w, v.run (xs.map .push) = .ok w ∧ w.blocks = v.blocks ++ xs := by
    induction xs generalizing v with
    | nil => exact ⟨v, rfl, by simp⟩
    | cons x xs ih =>
      obtain ⟨w, e, hw⟩ := ih (vecPush v x) (fun y hy => h y (List.mem_cons_of_mem _ hy))
      refine ⟨w, ?_, by rw [hw, vecPush_blocks]; simp⟩
      unfold NamedBlocks.run at e ⊢
      rw [List.map_cons, List.foldlM_cons]
      simp only [NamedBlocks.add, NamedBlocks.push, h x (List.mem_cons_self ..), if_true, Outcome.ok_bind]
      exact e
  obtain ⟨w, e, hw⟩ := run
  refine ⟨w, e, hw, ?_⟩
  intro nd b hb
  rw [← hw] at nd hb
  obtain ⟨i, hi, e⟩ := List.mem_iff_getElem.mp hb
  refine ((C178_lookup w b.name).2.1 b.content).mpr ⟨i, b, ⟨b, ?_, rfl, ?_⟩, ?_, rfl⟩
  · rw [List.getElem?_eq_getElem hi, e]
  · intro j hj b' hb' hn
    obtain ⟨hj', e'⟩ := List.getElem?_eq_some_iff.mp hb'
    exact (List.pairwise_iff_getElem.mp nd) j i (by simpa [namesOf] using hj') (by simpa [namesOf] using hi) hj
      (by simp [namesOf, e, e', hn])
  · rw [List.getElem?_eq_getElem hi, e]

/-- C178, insertions: into a full vector, or at its end, the new block comes with its name and the others keep theirs.
Missing: the other insertions (`C178_insert_refuted`). -/
theorem C178_insert_partial (v : NamedBlocks α) (pos : Int) (x : NamedBlock α)
    (ha : Allowed v.blocks.length (.insert pos x)) (h : v.blocks.length = v.capacity ∨ pos = v.blocks.length) :
    ∃ w, v.insert pos x = .ok w ∧ w.blocks = added v.blocks (.insert pos x) := by
  unfold NamedBlocks.insert
  rw [if_pos ha.1]
  exact vecInsert_copies v pos x ha.2.1 ha.2.2 h

/-- C178 is refuted for every insertion before the end of a vector with spare capacity: the names stay where they were, and the
last one is there twice.  The name of the new block is lost: looked up, it is an error (unless another block had it); and the
name of the block that was at the position now stands for the new block. -/
theorem C178_insert_refuted (v : NamedBlocks α) (pos : Int) (x : NamedBlock α) (hs : isSquare x.content = true)
    (h0 : 0 ≤ pos) (h1 : pos < v.blocks.length) (hc : v.blocks.length < v.capacity) :
    ∃ w, v.insert pos x = .ok w ∧ namesOf w.blocks = namesOf v.blocks ++ (namesOf v.blocks).getLast?.toList ∧
      (x.name ∉ namesOf v.blocks → (w.get x.name).isError) ∧
      ((namesOf v.blocks).Nodup → ∀ b, v.blocks[pos.toNat]? = some b → w.get b.name = .ok x.content) := by
  obtain ⟨w, e, -, hn, hcs⟩ := vecInsert_spare v pos x h0 h1 (by omega)
  refine ⟨w, ?_, hn, ?_, ?_⟩
  · unfold NamedBlocks.insert
    rw [if_pos hs, e]
  · intro hx
    refine (C178_lookup w x.name).2.2.1.mpr fun b hb he => ?_
    have hm : b.name ∈ namesOf w.blocks := List.mem_map_of_mem hb
    rw [hn, he, List.mem_append] at hm
    rcases hm with hm | hm
    · exact hx hm
    · rw [Option.mem_toList] at hm
      exact hx (List.mem_of_getLast? hm)
  · intro nd b hb
    generalize hp : pos.toNat = p at hb
    have hpl : p < v.blocks.length := by omega
    have names : ∀ j, j < v.blocks.length → (w.blocks[j]?).map (·.name) = (v.blocks[j]?).map (·.name) := by
      intro j hj
      have : (namesOf w.blocks)[j]? = (namesOf v.blocks ++ (namesOf v.blocks).getLast?.toList)[j]? := by rw [hn]
      rw [List.getElem?_append_left (by simpa [namesOf] using hj)] at this
      simpa [namesOf] using this
    have hcp : (w.blocks[p]?).map (·.content) = some x.content := by
      have := congrArg (fun l : List (Strided α) => l[p]?) hcs
      simp only [contentsOf, contentAdded, hp] at this
      have tl : ((v.blocks.map (·.content)).take p).length = p := by simp; omega
      rw [List.getElem?_append_right (by omega), tl, List.getElem?_map] at this
      simpa using this
    obtain ⟨d, hd, hdc⟩ := Option.map_eq_some_iff.mp hcp
    have hdn : d.name = b.name := by
      have := names p hpl
      rw [hd, hb] at this
      exact Option.some.inj this
    refine ((C178_lookup w b.name).2.1 x.content).mpr ⟨p, d, ⟨d, hd, hdn, ?_⟩, hd, hdc.symm⟩
    intro j hj b' hb' hn'
    have := names j (by omega)
    rw [hb', List.getElem?_eq_getElem (show j < v.blocks.length by omega)] at this
    simp only [Option.map_some] at this
    have this := Option.some.inj this
    obtain ⟨hl, eb⟩ := List.getElem?_eq_some_iff.mp hb
    exact (List.pairwise_iff_getElem.mp nd) j p (by simp [namesOf]; omega) (by simpa [namesOf] using hpl) hj
      (by simp [namesOf, eb, ← this, hn'])

/-- C178 is refuted for assignments: the blocks get the contents of the other's, and keep their own names; those that come new
are unnamed. -/
theorem C178_assign_refuted (fresh : Strided α) (v other : NamedBlocks α) :
    contentsOf (v.assign fresh other).blocks = contentsOf other.blocks ∧
    namesOf (v.assign fresh other).blocks =
      (namesOf v.blocks).take other.blocks.length ++
        List.replicate (other.blocks.length - v.blocks.length) "(unnamed)" := by
  have gen : ∀ (as bs : List (NamedBlock α)), as.length = bs.length →
      contentsOf (List.zipWith assignBlock as bs) = contentsOf bs ∧
      namesOf (List.zipWith assignBlock as bs) = namesOf as := by
    intro as
    induction as with
    | nil =>
      intro bs h
      cases bs with
      | nil => exact ⟨rfl, rfl⟩
      | cons b bs => cases h
    | cons a as ih =>
      intro bs h
      cases bs with
      | nil => cases h
      | cons b bs =>
        obtain ⟨h1, h2⟩ := ih bs (by simpa using h)
        constructor
        · simp only [contentsOf] at h1
          simp [contentsOf, assignBlock, h1]
        · simp only [namesOf] at h2
          simp [namesOf, assignBlock, h2]
  obtain ⟨h1, h2⟩ := gen (v.blocks.take other.blocks.length ++
    List.replicate (other.blocks.length - v.blocks.length) ⟨"(unnamed)", fresh⟩) other.blocks (by simp; omega)
  exact ⟨h1, h2.trans (by simp [namesOf, List.map_take])⟩

/-- The examples: one by one blocks. -/
def namedEx (name : String) (z : Int) : NamedBlock Int := ⟨name, ⟨[z], 0, [1, 1], [1, 1]⟩⟩

/-- `C178_push`: three blocks are pushed, the capacity grows to four. -/
example : (NamedBlocks.run ⟨0, []⟩ (["a", "b", "c"].map fun s => .push (namedEx s 7))) =
    .ok (⟨4, [namedEx "a" 7, namedEx "b" 7, namedEx "c" 7]⟩ : NamedBlocks Int) := by decide

/-- `C178_insert_refuted`: a fourth is inserted before the second: its name "d" is nowhere, and "b" stands for it. -/
example : (NamedBlocks.insert ⟨4, [namedEx "a" 1, namedEx "b" 2, namedEx "c" 3]⟩ 1 (namedEx "d" 9)) =
    .ok (⟨4, [namedEx "a" 1, namedEx "b" 9, namedEx "c" 2, namedEx "c" 3]⟩ : NamedBlocks Int) := by decide

/-- `C178_insert_partial`: the same with a full vector. -/
example : (NamedBlocks.insert ⟨3, [namedEx "a" 1, namedEx "b" 2, namedEx "c" 3]⟩ 1 (namedEx "d" 9)) =
    .ok (⟨6, [namedEx "a" 1, namedEx "d" 9, namedEx "b" 2, namedEx "c" 3]⟩ : NamedBlocks Int) := by decide

/-- `C178_contents`: the calls are allowed. -/
example : AllAllowed (α := Int) 0 [.push (namedEx "a" 1), .insert 0 (namedEx "b" 2), .insert 1 (namedEx "c" 3)] := by
  simp [AllAllowed, Allowed, isSquare, namedEx, Strided.dim]

/-- `C178_lookup`: of two blocks of the name, the first. -/
example : (NamedBlocks.get ⟨2, [namedEx "a" 1, namedEx "b" 2, namedEx "b" 3]⟩ "b") = .ok (namedEx "b" 2).content := by decide

end Props
end Einsums
