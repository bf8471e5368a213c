import Verif.Spec.HostMemory
import Verif.Proofs.Tensor

namespace Einsums
open Spec Model

namespace HostMem

variable {α : Type}

/-- What holds between the statements. -/
structure Accounts (P : HostProgram α) : Prop where
  owned : ∀ x o b, P.at' x = some o → o.owner = true → o.block = some b →
    ∃ k, P.blocks[b]? = some k ∧ k.live = true ∧ k.data.length ≤ k.cap ∧ k.data.length = linearSize o.strides o.dims
  once : ∀ x y o p b, P.at' x = some o → P.at' y = some p → o.owner = true → p.owner = true → o.block = some b → p.block = some b → x = y
  held : ∀ b k, P.blocks[b]? = some k → k.live = true → ∃ x o, P.at' x = some o ∧ o.owner = true ∧ o.block = some b
  shape : ∀ x o, P.at' x = some o → o.owner = true → o.off = 0 ∧ o.strides = transformStrides o.dims
  refs : ∀ x o b, P.at' x = some o → o.block = some b → b < P.blocks.length

theorem at_declare (P : HostProgram α) (o : Option HostObj) (x : Nat) :
    (P.declare o).at' x = if x = P.objs.length then o else P.at' x := by
  unfold HostProgram.at' HostProgram.declare
  by_cases h : x = P.objs.length
  · subst h; simp
  · rw [if_neg h]
    by_cases h2 : x < P.objs.length
    · simp only
      rw [List.getElem?_append_left h2]
    · simp only
      rw [List.getElem?_eq_none (by simp; omega), List.getElem?_eq_none (by omega)]

theorem at_lt {P : HostProgram α} {x : Nat} {o : HostObj} (h : P.at' x = some o) : x < P.objs.length := by
  unfold HostProgram.at' at h
  by_contra hc
  rw [List.getElem?_eq_none (by omega)] at h
  cases h

theorem at_setObj {P : HostProgram α} {y : Nat} {p : HostObj} (hy : P.at' y = some p) (o : Option HostObj) (x : Nat) :
    (P.setObj y o).at' x = if x = y then o else P.at' x := by
  have hl := at_lt hy
  unfold HostProgram.at' HostProgram.setObj
  simp only [List.getElem?_set]
  by_cases h : x = y
  · subst h; simp [hl]
  · rw [if_neg (fun e => h e.symm), if_neg h]

theorem blocks_declare (P : HostProgram α) (o : Option HostObj) : (P.declare o).blocks = P.blocks := rfl
theorem blocks_setObj (P : HostProgram α) (x : Nat) (o : Option HostObj) : (P.setObj x o).blocks = P.blocks := rfl

/-- The same objects on other blocks. -/
theorem at_blocks (P : HostProgram α) (bs : List (HostBlock α)) (x : Nat) : HostProgram.at' { P with blocks := bs } x = P.at' x := rfl

/-- Objects without memory of their own. -/
theorem accounts_declare {P : HostProgram α} (h : Accounts P) (o : Option HostObj) (ho : ∀ p, o = some p → p.owner = false)
    (hr : ∀ p b, o = some p → p.block = some b → b < P.blocks.length) : Accounts (P.declare o) := by
  have key : ∀ x p, (P.declare o).at' x = some p → p.owner = true → P.at' x = some p := by
    intro x p hp hpo
    rw [at_declare] at hp
    split at hp
    · rw [ho p hp] at hpo; cases hpo
    · exact hp
  refine ⟨?_, ?_, ?_, ?_, ?_⟩
  · intro x p b hp hpo hb
    exact h.owned x p b (key x p hp hpo) hpo hb
  · intro x y p q b hp hq hpo hqo hb hb'
    exact h.once x y p q b (key x p hp hpo) (key y q hq hqo) hpo hqo hb hb'
  · intro b k hk hl
    obtain ⟨x, p, hp, hpo, hb⟩ := h.held b k hk hl
    refine ⟨x, p, ?_, hpo, hb⟩
    rw [at_declare, if_neg (Nat.ne_of_lt (at_lt hp))]
    exact hp
  · intro x p hp hpo
    exact h.shape x p (key x p hp hpo) hpo
  · intro x p b hp hb
    rw [at_declare] at hp
    split at hp
    · exact hr p b hp hb
    · exact h.refs x p b hp hb

/-- Other elements in a block, as many as before. -/
theorem accounts_put {P : HostProgram α} (h : Accounts P) {o : HostObj} {d d0 : List α} (hc : P.contents o = some d0)
    (hl : d.length = d0.length) : Accounts (P.put o d) := by
  unfold HostProgram.put
  unfold HostProgram.contents at hc
  cases hb : o.block with
  | none => exact h
  | some b =>
      rw [hb] at hc
      simp only at hc ⊢
      cases hk : P.blocks[b]? with
      | none => exact h
      | some k =>
          rw [hk] at hc
          simp only at hc ⊢
          have hd : k.data = d0 := by
            by_cases c : k.live = true
            · rw [if_pos c] at hc; exact Option.some.inj hc
            · rw [if_neg c] at hc; cases hc
          have hlt : b < P.blocks.length := by
            by_contra c
            rw [List.getElem?_eq_none (by omega)] at hk
            cases hk
          have hget : ∀ (b' : Nat) (k' : HostBlock α), (P.blocks.set b { k with data := d })[b']? = some k' →
              ∃ k0, P.blocks[b']? = some k0 ∧ k'.live = k0.live ∧ k'.cap = k0.cap ∧ k'.data.length = k0.data.length := by
            intro b' k' h'
            rw [List.getElem?_set] at h'
            split at h'
            · next e =>
                subst e
                cases h'
                exact ⟨k, hk, rfl, rfl, by rw [hd]; exact hl⟩
            · exact ⟨k', h', rfl, rfl, rfl⟩
          have hput : ∀ (b' : Nat) (k0 : HostBlock α), P.blocks[b']? = some k0 → ∃ k', (P.blocks.set b { k with data := d })[b']? = some k' ∧
              k'.live = k0.live ∧ k'.cap = k0.cap ∧ k'.data.length = k0.data.length := by
            intro b' k0 h'
            by_cases e : b = b'
            · subst e
              rw [hk] at h'
              cases h'
              exact ⟨{ k with data := d }, by rw [List.getElem?_set, if_pos rfl, if_pos hlt], rfl, rfl, by rw [hd]; exact hl⟩
            · exact ⟨k0, by rw [List.getElem?_set, if_neg e]; exact h', rfl, rfl, rfl⟩
          refine ⟨?_, h.once, ?_, h.shape, ?_⟩
          · intro x p b' hp hpo hb'
            obtain ⟨k0, h1, h2, h3, h4⟩ := h.owned x p b' hp hpo hb'
            obtain ⟨k', g1, g2, g3, g4⟩ := hput b' k0 h1
            exact ⟨k', g1, by rw [g2, h2], by rw [g3, g4]; exact h3, by rw [g4, h4]⟩
          · intro b' k' hk' hl'
            obtain ⟨k0, g1, g2, _⟩ := hget b' k' hk'
            exact h.held b' k0 g1 (by rw [← g2]; exact hl')
          · intro x p b' hp hb'
            have := h.refs x p b' hp hb'
            simpa using this

/-- A new tensor with memory of its own. -/
theorem accounts_new {P : HostProgram α} (h : Accounts P) (d : List α) (cap : Nat) (hcap : d.length ≤ cap) (dims : List Nat)
    (hlen : d.length = linearSize (transformStrides dims) dims) :
    Accounts ((P.alloc d cap).declare (some ⟨true, some P.blocks.length, 0, dims, transformStrides dims⟩)) := by
  have hat : ∀ x, (P.alloc d cap).at' x = P.at' x := fun _ => rfl
  have hobj : (P.alloc d cap).objs = P.objs := rfl
  have hblk : ∀ (b : Nat) (k : HostBlock α), P.blocks[b]? = some k → (P.blocks ++ [⟨d, cap, true⟩])[b]? = some k := by
    intro b k hk
    have : b < P.blocks.length := by
      by_contra c
      rw [List.getElem?_eq_none (by omega)] at hk
      cases hk
    rw [List.getElem?_append_left this]
    exact hk
  have hnew : (P.blocks ++ [(⟨d, cap, true⟩ : HostBlock α)])[P.blocks.length]? = some ⟨d, cap, true⟩ := by simp
  refine ⟨?_, ?_, ?_, ?_, ?_⟩
  · intro x o b hx ho hb
    rw [at_declare, hobj] at hx
    split at hx
    · cases hx
      cases hb
      exact ⟨_, hnew, rfl, hcap, hlen⟩
    · obtain ⟨k, h1, h2⟩ := h.owned x o b hx ho hb
      exact ⟨k, hblk b k h1, h2⟩
  · intro x y o p b hx hy ho hp hb hb'
    rw [at_declare, hobj] at hx hy
    split at hx <;> split at hy
    · omega
    · cases hx; cases hb
      have := h.refs y p _ hy hb'
      omega
    · cases hy; cases hb'
      have := h.refs x o _ hx hb
      omega
    · exact h.once x y o p b hx hy ho hp hb hb'
  · intro b k hk hl
    by_cases c : b = P.blocks.length
    · subst c
      refine ⟨P.objs.length, _, by rw [at_declare, if_pos (by rw [hobj])], rfl, rfl⟩
    · have hb : P.blocks[b]? = some k := by
        have hk' : (P.blocks ++ [(⟨d, cap, true⟩ : HostBlock α)])[b]? = some k := hk
        by_cases c2 : b < P.blocks.length
        · rwa [List.getElem?_append_left c2] at hk'
        · rw [List.getElem?_eq_none (by simp; omega)] at hk'
          cases hk'
      obtain ⟨x, o, h1, h2, h3⟩ := h.held b k hb hl
      exact ⟨x, o, by rw [at_declare, if_neg (by rw [hobj]; exact Nat.ne_of_lt (at_lt h1))]; exact h1, h2, h3⟩
  · intro x o hx ho
    rw [at_declare] at hx
    split at hx
    · cases hx; exact ⟨rfl, rfl⟩
    · exact h.shape x o hx ho
  · intro x o b hx hb
    rw [at_declare] at hx
    have hlen : ((P.alloc d cap).declare (some ⟨true, some P.blocks.length, 0, dims, transformStrides dims⟩)).blocks.length =
        P.blocks.length + 1 := by simp [HostProgram.alloc, HostProgram.declare]
    rw [hlen]
    split at hx
    · cases hx; cases hb; omega
    · have := h.refs x o b hx hb
      omega

/-- A new tensor without memory. -/
theorem accounts_new_empty {P : HostProgram α} (h : Accounts P) (dims : List Nat) :
    Accounts (P.declare (some ⟨true, none, 0, dims, transformStrides dims⟩)) := by
  refine ⟨?_, ?_, ?_, ?_, ?_⟩
  · intro x o b hx ho hb
    rw [at_declare] at hx
    split at hx
    · cases hx; cases hb
    · exact h.owned x o b hx ho hb
  · intro x y o p b hx hy ho hp hb hb'
    rw [at_declare] at hx hy
    split at hx
    · cases hx; cases hb
    · split at hy
      · cases hy; cases hb'
      · exact h.once x y o p b hx hy ho hp hb hb'
  · intro b k hk hl
    obtain ⟨x, o, h1, h2, h3⟩ := h.held b k hk hl
    exact ⟨x, o, by rw [at_declare, if_neg (Nat.ne_of_lt (at_lt h1))]; exact h1, h2, h3⟩
  · intro x o hx ho
    rw [at_declare] at hx
    split at hx
    · cases hx; exact ⟨rfl, rfl⟩
    · exact h.shape x o hx ho
  · intro x o b hx hb
    rw [at_declare] at hx
    split at hx
    · cases hx; cases hb
    · exact h.refs x o b hx hb

/-- A constructor returns, with a tensor of the right size, or without elements. -/
theorem construct_ok (grow : Nat → Nat → Nat) {P : HostProgram α} (h : Accounts P) (t : Strided α) (hs : t.strides = transformStrides t.dims)
    (hl : t.data = [] ∨ t.data.length = linearSize t.strides t.dims) :
    ∃ P' b, P.construct grow t = .returns P' ∧ Accounts P' ∧ P' = ({ P with blocks := P'.blocks } : HostProgram α).declare
        (some ⟨true, b, 0, t.dims, t.strides⟩) ∧ (∀ i, i < P.blocks.length → P'.blocks[i]? = P.blocks[i]?) ∧
        P'.contents ⟨true, b, 0, t.dims, t.strides⟩ = some t.data := by
  unfold HostProgram.construct HostProgram.store
  by_cases c : t.data.length = 0
  · simp only [c, if_true]
    refine ⟨_, none, rfl, ?_, rfl, fun _ _ => rfl, ?_⟩
    · rw [hs]; exact accounts_new_empty h t.dims
    · rw [List.eq_nil_of_length_eq_zero c]; rfl
  · simp only [if_neg c]
    have hl' : t.data.length = linearSize t.strides t.dims := by
      rcases hl with h' | h'
      · rw [h'] at c; exact absurd rfl c
      · exact h'
    refine ⟨_, some P.blocks.length, rfl, ?_, rfl, fun i hi => ?_, ?_⟩
    · rw [hs] at hl' ⊢
      exact accounts_new h t.data _ (Nat.le_max_left _ _) t.dims hl'
    · show (P.blocks ++ [_])[i]? = _
      rw [List.getElem?_append_left hi]
    · simp [HostProgram.contents, HostProgram.alloc, HostProgram.declare]

/-- Freeing the memory of a tensor. -/
theorem free_ok {P : HostProgram α} (h : Accounts P) {x : Nat} {o : HostObj} (hx : P.at' x = some o) (ho : o.owner = true) :
    ∃ P', P.free o.block = .returns P' ∧ P'.objs = P.objs ∧ P'.blocks.length = P.blocks.length ∧
      (∀ b, o.block ≠ some b → P'.blocks[b]? = P.blocks[b]?) ∧ (∀ b, o.block = some b → ∃ k, P'.blocks[b]? = some k ∧ k.live = false) := by
  unfold HostProgram.free
  cases hb : o.block with
  | none => exact ⟨P, rfl, rfl, rfl, fun _ _ => rfl, fun b e => by cases e⟩
  | some b =>
      obtain ⟨k, h1, h2, _⟩ := h.owned x o b hx ho hb
      have hlt : b < P.blocks.length := h.refs x o b hx hb
      simp only [h1, h2, if_true]
      refine ⟨_, rfl, rfl, by simp, fun b' hne => ?_, fun b' e => ?_⟩
      · rw [List.getElem?_set, if_neg (fun e => hne (by rw [e]))]
      · cases e
        exact ⟨{ k with live := false }, by rw [List.getElem?_set, if_pos rfl, if_pos hlt], rfl⟩

/-- A tensor that loses its memory, which is freed, and is destroyed or left empty. -/
theorem accounts_freed {P P' : HostProgram α} (h : Accounts P) {x : Nat} {o : HostObj} (hx : P.at' x = some o) (ho : o.owner = true)
    (hobjs : P'.objs = P.objs) (hlen : P'.blocks.length = P.blocks.length) (hkeep : ∀ b, o.block ≠ some b → P'.blocks[b]? = P.blocks[b]?)
    (hdead : ∀ b, o.block = some b → ∃ k, P'.blocks[b]? = some k ∧ k.live = false) (n : Option HostObj)
    (hn : ∀ p, n = some p → p.owner = true ∧ p.block = none ∧ p.off = 0 ∧ p.strides = transformStrides p.dims) :
    Accounts (P'.setObj x n) := by
  have hat : ∀ y, P'.at' y = P.at' y := by intro y; unfold HostProgram.at'; rw [hobjs]
  have hx' : P'.at' x = some o := by rw [hat]; exact hx
  have hnb : ∀ p b, n = some p → p.block ≠ some b := by
    intro p b hp hb
    rw [(hn p hp).2.1] at hb
    cases hb
  refine ⟨?_, ?_, ?_, ?_, ?_⟩
  · intro y p b hy hp hb
    rw [at_setObj hx'] at hy
    split at hy
    · exact absurd hb (hnb p b hy)
    · next hne =>
        rw [hat] at hy
        rw [blocks_setObj, hkeep b (fun e => hne (h.once y x p o b hy hx hp ho hb e))]
        exact h.owned y p b hy hp hb
  · intro y y' p q b hy hy' hp hq hb hb'
    rw [at_setObj hx'] at hy hy'
    split at hy
    · exact absurd hb (hnb p b hy)
    · split at hy'
      · exact absurd hb' (hnb q b hy')
      · rw [hat] at hy hy'
        exact h.once y y' p q b hy hy' hp hq hb hb'
  · intro b k hk hl
    rw [blocks_setObj] at hk
    by_cases c : o.block = some b
    · obtain ⟨k', h1, h2⟩ := hdead b c
      rw [h1] at hk; cases hk
      rw [h2] at hl; cases hl
    · rw [hkeep b c] at hk
      obtain ⟨y, p, h1, h2, h3⟩ := h.held b k hk hl
      refine ⟨y, p, ?_, h2, h3⟩
      rw [at_setObj hx', if_neg, hat]
      · exact h1
      · rintro rfl
        rw [hx] at h1
        cases h1
        exact c h3
  · intro y p hy hp
    rw [at_setObj hx'] at hy
    split at hy
    · exact ⟨(hn p hy).2.2.1, (hn p hy).2.2.2⟩
    · rw [hat] at hy; exact h.shape y p hy hp
  · intro y p b hy hb
    rw [at_setObj hx'] at hy
    rw [blocks_setObj, hlen]
    split at hy
    · exact absurd hb (hnb p b hy)
    · rw [hat] at hy; exact h.refs y p b hy hb

/-- A view that is destroyed. -/
theorem accounts_drop_view {P : HostProgram α} (h : Accounts P) {x : Nat} {o : HostObj} (hx : P.at' x = some o) (ho : o.owner = false) :
    Accounts (P.setObj x none) := by
  have key : ∀ y p, (P.setObj x none).at' y = some p → P.at' y = some p := by
    intro y p hy
    rw [at_setObj hx] at hy
    split at hy
    · cases hy
    · exact hy
  refine ⟨fun y p b hy => h.owned y p b (key y p hy), fun y y' p q b hy hy' => h.once y y' p q b (key y p hy) (key y' q hy'), ?_,
    fun y p hy => h.shape y p (key y p hy), fun y p b hy => h.refs y p b (key y p hy)⟩
  intro b k hk hl
  obtain ⟨y, p, h1, h2, h3⟩ := h.held b k hk hl
  refine ⟨y, p, ?_, h2, h3⟩
  rw [at_setObj hx, if_neg]
  · exact h1
  · rintro rfl
    rw [hx] at h1; cases h1
    rw [ho] at h2; cases h2

/-- The memory of a tensor moves into a new one. -/
theorem accounts_moved {P : HostProgram α} (h : Accounts P) {x : Nat} {o : HostObj} (hx : P.at' x = some o) (ho : o.owner = true)
    (dims : List Nat) (hlen : linearSize (transformStrides dims) dims = linearSize o.strides o.dims ∨ o.block = none) :
    Accounts ((P.setObj x (some { o with block := none })).declare (some ⟨true, o.block, 0, dims, transformStrides dims⟩)) := by
  have hlen' : (P.setObj x (some { o with block := none })).objs.length = P.objs.length := by simp [HostProgram.setObj]
  have hcase : ∀ y p, ((P.setObj x (some { o with block := none })).declare (some ⟨true, o.block, 0, dims, transformStrides dims⟩)).at' y =
      some p → (y = P.objs.length ∧ p = ⟨true, o.block, 0, dims, transformStrides dims⟩) ∨ (y = x ∧ p = { o with block := none }) ∨
        (y ≠ x ∧ P.at' y = some p) := by
    intro y p hy
    rw [at_declare, hlen', at_setObj hx] at hy
    split at hy
    · next e => exact .inl ⟨e, (Option.some.inj hy).symm⟩
    · split at hy
      · next e => exact .inr (.inl ⟨e, (Option.some.inj hy).symm⟩)
      · next e => exact .inr (.inr ⟨e, hy⟩)
  refine ⟨?_, ?_, ?_, ?_, ?_⟩
  · intro y p b hy hp hb
    rcases hcase y p hy with ⟨_, rfl⟩ | ⟨_, rfl⟩ | ⟨_, hy⟩
    · simp only at hb
      obtain ⟨k, h1, h2, h3, h4⟩ := h.owned x o b hx ho hb
      refine ⟨k, h1, h2, h3, ?_⟩
      rcases hlen with hl | hl
      · rw [h4, ← hl]
      · rw [hl] at hb; cases hb
    · cases hb
    · exact h.owned y p b hy hp hb
  · intro y y' p q b hy hy' hp hq hb hb'
    rcases hcase y p hy with ⟨e1, rfl⟩ | ⟨_, rfl⟩ | ⟨n1, hy⟩
    · rcases hcase y' q hy' with ⟨e2, rfl⟩ | ⟨_, rfl⟩ | ⟨n2, hy'⟩
      · omega
      · cases hb'
      · exact absurd (h.once y' x q o b hy' hx hq ho hb' hb) n2
    · cases hb
    · rcases hcase y' q hy' with ⟨e2, rfl⟩ | ⟨_, rfl⟩ | ⟨n2, hy'⟩
      · exact absurd (h.once y x p o b hy hx hp ho hb hb') n1
      · cases hb'
      · exact h.once y y' p q b hy hy' hp hq hb hb'
  · intro b k hk hl
    obtain ⟨y, p, h1, h2, h3⟩ := h.held b k hk hl
    by_cases c : y = x
    · subst c
      rw [hx] at h1; cases h1
      exact ⟨P.objs.length, ⟨true, o.block, 0, dims, transformStrides dims⟩, by rw [at_declare, if_pos hlen'.symm], rfl, h3⟩
    · refine ⟨y, p, ?_, h2, h3⟩
      rw [at_declare, hlen', if_neg (Nat.ne_of_lt (at_lt h1)), at_setObj hx, if_neg c]
      exact h1
  · intro y p hy hp
    rcases hcase y p hy with ⟨_, rfl⟩ | ⟨_, rfl⟩ | ⟨_, hy⟩
    · exact ⟨rfl, rfl⟩
    · exact h.shape x o hx ho
    · exact h.shape y p hy hp
  · intro y p b hy hb
    rw [blocks_declare, blocks_setObj]
    rcases hcase y p hy with ⟨_, rfl⟩ | ⟨_, rfl⟩ | ⟨_, hy⟩
    · exact h.refs x o b hx hb
    · cases hb
    · exact h.refs y p b hy hb

/-- New memory for a tensor that has none. -/
theorem accounts_give {P : HostProgram α} (h : Accounts P) {x : Nat} {o : HostObj} (hx : P.at' x = some o)
    (hb : o.block = none) (d : List α) (cap : Nat) (hcap : d.length ≤ cap) (dims : List Nat)
    (hlen : d.length = linearSize (transformStrides dims) dims) :
    Accounts ((P.alloc d cap).setObj x (some ⟨true, some P.blocks.length, 0, dims, transformStrides dims⟩)) := by
  have hx' : (P.alloc d cap).at' x = some o := hx
  have hblk : ∀ (b : Nat) (k : HostBlock α), P.blocks[b]? = some k → (P.blocks ++ [⟨d, cap, true⟩])[b]? = some k := by
    intro b k hk
    have : b < P.blocks.length := by
      by_contra c
      rw [List.getElem?_eq_none (by omega)] at hk
      cases hk
    rw [List.getElem?_append_left this]
    exact hk
  have hnew : (P.blocks ++ [(⟨d, cap, true⟩ : HostBlock α)])[P.blocks.length]? = some ⟨d, cap, true⟩ := by simp
  have hcase : ∀ y p, ((P.alloc d cap).setObj x (some ⟨true, some P.blocks.length, 0, dims, transformStrides dims⟩)).at' y = some p →
      (y = x ∧ p = ⟨true, some P.blocks.length, 0, dims, transformStrides dims⟩) ∨ (y ≠ x ∧ P.at' y = some p) := by
    intro y p hy
    rw [at_setObj hx'] at hy
    split at hy
    · next e => exact .inl ⟨e, (Option.some.inj hy).symm⟩
    · next e => exact .inr ⟨e, hy⟩
  refine ⟨?_, ?_, ?_, ?_, ?_⟩
  · intro y p b hy hp hb'
    rcases hcase y p hy with ⟨_, rfl⟩ | ⟨_, hy⟩
    · cases hb'
      exact ⟨_, hnew, rfl, hcap, hlen⟩
    · obtain ⟨k, h1, h2⟩ := h.owned y p b hy hp hb'
      exact ⟨k, hblk b k h1, h2⟩
  · intro y y' p q b hy hy' hp hq hb1 hb2
    rcases hcase y p hy with ⟨e1, rfl⟩ | ⟨_, hy⟩ <;> rcases hcase y' q hy' with ⟨e2, rfl⟩ | ⟨_, hy'⟩
    · omega
    · cases hb1
      have := h.refs y' q _ hy' hb2
      omega
    · cases hb2
      have := h.refs y p _ hy hb1
      omega
    · exact h.once y y' p q b hy hy' hp hq hb1 hb2
  · intro b k hk hl
    by_cases c : b = P.blocks.length
    · subst c
      exact ⟨x, ⟨true, some P.blocks.length, 0, dims, transformStrides dims⟩, by rw [at_setObj hx', if_pos rfl], rfl, rfl⟩
    · have hb : P.blocks[b]? = some k := by
        have hk' : (P.blocks ++ [(⟨d, cap, true⟩ : HostBlock α)])[b]? = some k := hk
        by_cases c2 : b < P.blocks.length
        · rwa [List.getElem?_append_left c2] at hk'
        · rw [List.getElem?_eq_none (by simp; omega)] at hk'
          cases hk'
      obtain ⟨y, p, h1, h2, h3⟩ := h.held b k hb hl
      refine ⟨y, p, ?_, h2, h3⟩
      rw [at_setObj hx', if_neg]
      · exact h1
      · rintro rfl
        rw [hx] at h1; cases h1
        rename_i hbn
        rw [hbn] at h3; cases h3
  · intro y p hy hp
    rcases hcase y p hy with ⟨_, rfl⟩ | ⟨_, hy⟩
    · exact ⟨rfl, rfl⟩
    · exact h.shape y p hy hp
  · intro y p b hy hb'
    have hl : ((P.alloc d cap).setObj x (some ⟨true, some P.blocks.length, 0, dims, transformStrides dims⟩)).blocks.length =
        P.blocks.length + 1 := by simp [HostProgram.alloc, HostProgram.setObj]
    rw [hl]
    rcases hcase y p hy with ⟨_, rfl⟩ | ⟨_, hy⟩
    · cases hb'; omega
    · have := h.refs y p b hy hb'
      omega

/-- Other elements in the memory of a tensor. -/
theorem accounts_inplace {P : HostProgram α} (h : Accounts P) {x : Nat} {o : HostObj} (hx : P.at' x = some o) (ho : o.owner = true)
    {b : Nat} (hb : o.block = some b) {k : HostBlock α} (hk : P.blocks[b]? = some k) (d : List α) (hcap : d.length ≤ k.cap)
    (dims : List Nat) (hlen : d.length = linearSize (transformStrides dims) dims) :
    Accounts (HostProgram.setObj { P with blocks := P.blocks.set b { k with data := d } } x
      (some ⟨true, some b, 0, dims, transformStrides dims⟩)) := by
  have hx' : HostProgram.at' { P with blocks := P.blocks.set b { k with data := d } } x = some o := hx
  have hlt := h.refs x o b hx hb
  obtain ⟨k0, hk0, hlive, _⟩ := h.owned x o b hx ho hb
  rw [hk] at hk0; cases hk0
  have hcase : ∀ y p, (HostProgram.setObj { P with blocks := P.blocks.set b { k with data := d } } x
      (some ⟨true, some b, 0, dims, transformStrides dims⟩)).at' y = some p →
      (y = x ∧ p = ⟨true, some b, 0, dims, transformStrides dims⟩) ∨ (y ≠ x ∧ P.at' y = some p) := by
    intro y p hy
    rw [at_setObj hx'] at hy
    split at hy
    · next e => exact .inl ⟨e, (Option.some.inj hy).symm⟩
    · next e => exact .inr ⟨e, hy⟩
  refine ⟨?_, ?_, ?_, ?_, ?_⟩
  · intro y p b' hy hp hb'
    rcases hcase y p hy with ⟨_, rfl⟩ | ⟨hne, hy⟩
    · cases hb'
      exact ⟨{ k with data := d }, by rw [blocks_setObj]; simp only; rw [List.getElem?_set, if_pos rfl, if_pos hlt], hlive, hcap, hlen⟩
    · have hbb : b ≠ b' := by
        rintro rfl
        exact hne (h.once y x p o b hy hx hp ho hb' hb)
      obtain ⟨k', h1, h2⟩ := h.owned y p b' hy hp hb'
      exact ⟨k', by rw [blocks_setObj]; simp only; rw [List.getElem?_set, if_neg hbb]; exact h1, h2⟩
  · intro y y' p q b' hy hy' hp hq hb1 hb2
    rcases hcase y p hy with ⟨e1, rfl⟩ | ⟨n1, hy⟩ <;> rcases hcase y' q hy' with ⟨e2, rfl⟩ | ⟨n2, hy'⟩
    · omega
    · cases hb1
      exact absurd (h.once y' x q o b hy' hx hq ho hb2 hb) n2
    · cases hb2
      exact absurd (h.once y x p o b hy hx hp ho hb1 hb) n1
    · exact h.once y y' p q b' hy hy' hp hq hb1 hb2
  · intro b' k' hk' hl
    by_cases c : b = b'
    · subst c
      exact ⟨x, ⟨true, some b, 0, dims, transformStrides dims⟩, by rw [at_setObj hx', if_pos rfl], rfl, rfl⟩
    · have hk2 : P.blocks[b']? = some k' := by
        have : (P.blocks.set b { k with data := d })[b']? = some k' := hk'
        rwa [List.getElem?_set, if_neg c] at this
      obtain ⟨y, p, h1, h2, h3⟩ := h.held b' k' hk2 hl
      refine ⟨y, p, ?_, h2, h3⟩
      rw [at_setObj hx', if_neg]
      · exact h1
      · rintro rfl
        rw [hx] at h1; cases h1
        rw [hb] at h3; cases h3
        exact c rfl
  · intro y p hy hp
    rcases hcase y p hy with ⟨_, rfl⟩ | ⟨_, hy⟩
    · exact ⟨rfl, rfl⟩
    · exact h.shape y p hy hp
  · intro y p b' hy hb'
    have hl : (HostProgram.setObj { P with blocks := P.blocks.set b { k with data := d } } x
      (some ⟨true, some b, 0, dims, transformStrides dims⟩)).blocks.length = P.blocks.length := by simp [HostProgram.setObj]
    rw [hl]
    rcases hcase y p hy with ⟨_, rfl⟩ | ⟨_, hy⟩
    · cases hb'; exact hlt
    · exact h.refs y p b' hy hb'

/-- A member function that changes dimensions and elements of a tensor. -/
theorem renew_ok (grow : Nat → Nat → Nat) {P : HostProgram α} (h : Accounts P) {x : Nat} {o : HostObj} (hx : P.at' x = some o)
    (ho : o.owner = true) (t : Strided α) (hs : t.strides = transformStrides t.dims)
    (hl : t.data.length = linearSize t.strides t.dims ∨ (o.block = none ∧ t.data = [])) :
    ∃ P' b', P.renew grow x o.block t = .returns P' ∧ Accounts P' ∧
      (∀ y, P'.at' y = if y = x then some ⟨true, b', 0, t.dims, t.strides⟩ else P.at' y) ∧
      P'.contents ⟨true, b', 0, t.dims, t.strides⟩ = some t.data ∧
      (∀ b, b < P.blocks.length → o.block ≠ some b → P'.blocks[b]? = P.blocks[b]?) ∧
      (∀ b k, o.block = some b → P.blocks[b]? = some k →
        if t.data.length ≤ k.cap then b' = some b else ∃ k', P'.blocks[b]? = some k' ∧ k'.live = false) ∧
      (o.block = none → t.data = [] → b' = none) := by
  have hshape : ({ o with block := none } : HostObj) = ⟨true, none, 0, o.dims, transformStrides o.dims⟩ := by
    obtain ⟨e1, e2⟩ := h.shape x o hx ho
    obtain ⟨ow, bl, off, dims, strides⟩ := o
    simp only at ho e1 e2
    subst ho; subst e1; subst e2
    rfl
  unfold HostProgram.renew HostProgram.store
  cases hb : o.block with
  | none =>
      by_cases c : t.data.length = 0
      · simp only [c, if_true]
        refine ⟨_, none, rfl, ?_, fun y => at_setObj hx _ y, ?_, fun _ _ _ => rfl, fun b k e => (by cases e), fun _ _ => rfl⟩
        · refine accounts_freed (P' := P) h hx ho rfl rfl (fun _ _ => rfl) (fun b e => by rw [hb] at e; cases e) _ ?_
          rintro p e
          cases e
          exact ⟨rfl, rfl, rfl, hs⟩
        · rw [List.eq_nil_of_length_eq_zero c]; rfl
      · simp only [if_neg c]
        have hl' : t.data.length = linearSize (transformStrides t.dims) t.dims := by
          rcases hl with h' | ⟨_, h'⟩
          · rw [← hs]; exact h'
          · rw [h'] at c; exact absurd rfl c
        refine ⟨_, some P.blocks.length, rfl, ?_, fun y => at_setObj (P := P.alloc _ _) hx _ y, ?_, fun b hbl _ => ?_,
          fun b k e => (by cases e), fun _ e => absurd (by rw [e]; rfl) c⟩
        · rw [hs]
          exact accounts_give h hx hb t.data _ (Nat.le_max_left _ _) t.dims hl'
        · simp [HostProgram.contents, HostProgram.alloc, HostProgram.setObj]
        · show (P.blocks ++ [_])[b]? = _
          rw [List.getElem?_append_left hbl]
  | some b =>
      obtain ⟨k, hk, hlive, hcap, _⟩ := h.owned x o b hx ho hb
      have hlt := h.refs x o b hx hb
      have hl' : t.data.length = linearSize (transformStrides t.dims) t.dims := by
        rcases hl with h' | ⟨h', _⟩
        · rw [← hs]; exact h'
        · rw [hb] at h'; cases h'
      simp only [hk]
      by_cases c : t.data.length ≤ k.cap
      · simp only [if_pos c]
        refine ⟨_, some b, rfl, ?_, fun y => at_setObj (P := { P with blocks := _ }) hx _ y, ?_, fun b' hbl hne => ?_, fun b' k' e hk' => ?_,
          fun e => (by cases e)⟩
        · rw [hs]
          exact accounts_inplace h hx ho hb hk t.data c t.dims hl'
        · simp [HostProgram.contents, HostProgram.setObj, hlt, hlive]
        · show (P.blocks.set b _)[b']? = _
          rw [List.getElem?_set, if_neg (fun e => hne (by rw [e]))]
        · cases e
          rw [hk] at hk'; cases hk'
          rw [if_pos c]
      · simp only [if_neg c]
        have hk2 : (P.alloc t.data (max t.data.length (grow k.cap t.data.length))).blocks[b]? = some k := by
          show (P.blocks ++ [_])[b]? = _
          rw [List.getElem?_append_left hlt]
          exact hk
        have hfree : (P.alloc t.data (max t.data.length (grow k.cap t.data.length))).free (some b) =
            .returns ⟨P.blocks.set b { k with live := false } ++ [⟨t.data, max t.data.length (grow k.cap t.data.length), true⟩], P.objs⟩ := by
          simp only [HostProgram.free, hk2, hlive, if_true]
          simp only [HostProgram.alloc]
          rw [List.set_append_left _ _ hlt]
        rw [hfree]
        have hacc1 : Accounts (HostProgram.setObj ⟨P.blocks.set b { k with live := false }, P.objs⟩ x
            (some ⟨true, none, 0, o.dims, transformStrides o.dims⟩)) := by
          refine accounts_freed (P' := ⟨P.blocks.set b { k with live := false }, P.objs⟩) h hx ho rfl (by simp) (fun b' hne => ?_) (fun b' e => ?_) _ ?_
          · simp only
            rw [List.getElem?_set, if_neg (fun e => hne (by rw [hb, e]))]
          · rw [hb] at e; cases e
            exact ⟨{ k with live := false }, by simp only; rw [List.getElem?_set, if_pos rfl, if_pos hlt], rfl⟩
          · rintro p e
            cases e
            exact ⟨rfl, rfl, rfl, rfl⟩
        have hxn : (HostProgram.setObj ⟨P.blocks.set b { k with live := false }, P.objs⟩ x
            (some ⟨true, none, 0, o.dims, transformStrides o.dims⟩)).at' x = some ⟨true, none, 0, o.dims, transformStrides o.dims⟩ := by
          rw [at_setObj (P := ⟨P.blocks.set b { k with live := false }, P.objs⟩) hx, if_pos rfl]
        have hacc2 := accounts_give hacc1 hxn rfl t.data (max t.data.length (grow k.cap t.data.length)) (Nat.le_max_left _ _) t.dims hl'
        refine ⟨_, some P.blocks.length, rfl, ?_, fun y => at_setObj (P := ⟨_, P.objs⟩) hx _ y, ?_, fun b' hbl hne => ?_, fun b' k' e hk' => ?_,
          fun e => (by cases e)⟩
        · simp only [HostProgram.alloc, HostProgram.setObj, List.length_set, List.set_set] at hacc2
          rw [hs]
          exact hacc2
        · simp only [HostProgram.contents, HostProgram.setObj]
          rw [List.getElem?_append_right (by simp)]
          simp
        · show (P.blocks.set b _ ++ [_])[b']? = _
          rw [List.getElem?_append_left (by simpa using hbl), List.getElem?_set, if_neg (fun e => hne (by rw [e]))]
        · cases e
          rw [hk] at hk'; cases hk'
          rw [if_neg c]
          refine ⟨{ k with live := false }, ?_, rfl⟩
          show (P.blocks.set b _ ++ [_])[b]? = _
          rw [List.getElem?_append_left (by simpa using hlt), List.getElem?_set, if_pos rfl, if_pos hlt]

/-- The outcomes of a statement after which the program goes on. -/
def Goes {β : Type} (r : Did β) (b : β) : Prop := r = .returns b ∨ r = .throws b

theorem goes_returns {β : Type} {a b : β} (h : Goes (.returns a) b) : b = a := by
  rcases h with h | h <;> cases h
  rfl

theorem goes_throws {β : Type} {a b : β} (h : Goes (.throws a) b) : b = a := by
  rcases h with h | h <;> cases h
  rfl

theorem goes_bad {β : Type} {m : String} {b : β} (h : Goes (.bad m) b) : False := by
  rcases h with h | h <;> cases h

theorem length_vecResize (z : Nat → α) (n : Nat) (l : List α) : (vecResize z n l).length = n := by
  unfold vecResize
  simp
  omega

theorem contents_of_owner {P : HostProgram α} (h : Accounts P) {x : Nat} {o : HostObj} (hx : P.at' x = some o) (ho : o.owner = true) :
    ∃ d, P.contents o = some d ∧ (d.length = linearSize o.strides o.dims ∨ (o.block = none ∧ d = [])) := by
  unfold HostProgram.contents
  cases hb : o.block with
  | none => exact ⟨[], rfl, .inr ⟨rfl, rfl⟩⟩
  | some b =>
      obtain ⟨k, hk, hlive, _, hlen⟩ := h.owned x o b hx ho hb
      exact ⟨k.data, by simp [hk, hlive], .inl hlen⟩

theorem strided_of_owner {P : HostProgram α} (h : Accounts P) {x : Nat} {o : HostObj} (hx : P.at' x = some o) (ho : o.owner = true) :
    ∃ t, P.strided o = some t ∧ t.off = 0 ∧ t.dims = o.dims ∧ t.strides = o.strides ∧ t.strides = transformStrides t.dims ∧
      P.contents o = some t.data ∧ (t.data.length = linearSize t.strides t.dims ∨ (o.block = none ∧ t.data = [])) := by
  obtain ⟨d, hd, hl⟩ := contents_of_owner h hx ho
  obtain ⟨e1, e2⟩ := h.shape x o hx ho
  exact ⟨⟨d, o.off, o.dims, o.strides⟩, by simp [HostProgram.strided, hd], e1, rfl, rfl, e2, hd, hl⟩

theorem strided_eq {P : HostProgram α} {o : HostObj} {t : Strided α} (h : P.strided o = some t) :
    P.contents o = some t.data ∧ t.off = o.off ∧ t.dims = o.dims ∧ t.strides = o.strides := by
  unfold HostProgram.strided at h
  cases hc : P.contents o with
  | none => rw [hc] at h; cases h
  | some d => rw [hc] at h; cases h; exact ⟨rfl, rfl, rfl, rfl⟩

theorem resize_facts (z : Nat → α) (t : Strided α) (dims : List Nat) (hs : t.strides = transformStrides t.dims) :
    (t.resize z dims).strides = transformStrides (t.resize z dims).dims ∧ (t.resize z dims).dims = dims ∧
    ((t.resize z dims).data.length = linearSize (t.resize z dims).strides (t.resize z dims).dims ∨
      (t.dims = dims ∧ (t.resize z dims).data = t.data)) := by
  unfold Strided.resize
  by_cases c : t.dims = dims
  · rw [if_pos c]; exact ⟨hs, c, .inr ⟨c, rfl⟩⟩
  · rw [if_neg c]; exact ⟨rfl, rfl, .inl (length_vecResize _ _ _)⟩

theorem assign_facts (z : Nat → α) (t u t' : Strided α) (hs : t.strides = transformStrides t.dims) (h : t.assign z u = .ok t') :
    t'.strides = transformStrides t'.dims ∧
    ((t'.data.length = linearSize t'.strides t'.dims ∧ t'.dims = u.dims) ∨ (t'.data.length = t.data.length ∧ t'.dims = t.dims)) := by
  unfold Strided.assign at h
  simp only at h
  by_cases c : ((t.dims.zip u.dims).any fun p => p.1 == 0 || p.1 != p.2) = true
  · rw [if_pos c] at h
    split at h
    · rename_i hle
      have e := Outcome.ok.inj h
      subst e
      refine ⟨rfl, .inl ⟨?_, rfl⟩⟩
      simp only [List.length_append, List.length_drop] at hle ⊢
      rw [length_vecResize] at hle ⊢
      omega
    · cases h
  · rw [if_neg c] at h
    split at h
    · rename_i hle
      have e := Outcome.ok.inj h
      subst e
      refine ⟨hs, .inr ⟨?_, rfl⟩⟩
      simp only [List.length_append, List.length_drop]
      omega
    · cases h

theorem write_length {t t' : Strided α} {idx : List Int} {v : α} (h : t.write idx v = .ok t') :
    t'.data.length = t.data.length := by
  unfold Strided.write at h
  cases ha : t.addr idx with
  | ok a =>
      rw [ha] at h
      have e := Outcome.ok.inj h
      subst e
      simp
  | error m => rw [ha] at h; cases h
  | ub m => rw [ha] at h; cases h

theorem viewAssign_length {shared : Bool} {src : Strided α} : ∀ (sched : List (List Nat)) {dst t' : Strided α},
    dst.viewAssign shared src sched = .ok t' → t'.data.length = dst.data.length
  | [], dst, t', h => by
      have e : dst = t' := Outcome.ok.inj h
      rw [e]
  | i :: is, dst, t', h => by
      unfold Strided.viewAssign at h
      rw [List.foldlM_cons] at h
      cases hr : (src.seen shared dst).read (toIdx i) with
      | ok a =>
          simp only [hr, Outcome.ok_bind] at h
          cases hw : dst.write (toIdx i) a with
          | ok d =>
              rw [hw] at h
              have := viewAssign_length (shared := shared) (src := src) is (dst := d) h
              rw [this, write_length hw]
          | error m => rw [hw] at h; cases h
          | ub m => rw [hw] at h; cases h
      | error m => rw [hr] at h; cases h
      | ub m => rw [hr] at h; cases h

theorem reshape_facts {t t' : Strided α} {req : List ReqDim} (h : reshape t req = .ok t') :
    t'.strides = transformStrides t'.dims ∧ t.data.length = linearSize t'.strides t'.dims ∧ t'.data = t.data ∧ t'.off = 0 := by
  have fin : ∀ dims : List Nat, (if t.data.length ≠ linearSize (transformStrides dims) dims then
      (.error "Provided dims to not match size of parent tensor" : Outcome (Strided α))
      else .ok { data := t.data, off := 0, dims := dims, strides := transformStrides dims }) = .ok t' →
      t'.strides = transformStrides t'.dims ∧ t.data.length = linearSize t'.strides t'.dims ∧ t'.data = t.data ∧ t'.off = 0 := by
    intro dims e
    split at e
    · cases e
    · rename_i c
      have e' := Outcome.ok.inj e
      subst e'
      exact ⟨rfl, not_not.mp c, rfl, rfl⟩
  unfold reshape at h
  simp only at h
  split at h
  · cases h
  · split at h
    · split at h
      · cases h
      · split at h
        · cases h
        · exact fin _ h
    · exact fin _ h

theorem accounts_written {P P' : HostProgram α} (h : Accounts P) {o : HostObj} {t : Strided α} (ht : P.strided o = some t)
    {r : Outcome (Strided α)} (hr : ∀ t', r = .ok t' → t'.data.length = t.data.length) (hg : Goes (P.written o r) P') :
    Accounts P' ∧ P'.objs = P.objs := by
  cases r with
  | ok t' =>
      have e := goes_returns hg
      subst e
      refine ⟨accounts_put h (strided_eq ht).1 (hr t' rfl), ?_⟩
      unfold HostProgram.put
      split
      · rfl
      · split <;> rfl
  | error m => have e := goes_throws hg; subst e; exact ⟨h, rfl⟩
  | ub m => exact (goes_bad hg).elim

theorem mkView_eq {t v : Strided α} {dims offsets : List Int} {strides : List Nat} (h : mkView t dims offsets strides = .ok v) :
    v.data = t.data := by
  unfold mkView at h
  simp only at h
  split at h
  · cases h
  · split at h
    · cases h
    · have e := Outcome.ok.inj h
      subst e
      rfl

/-- Making a view looks at the number of elements only. -/
theorem make_congr (k : ViewKind) {t v : Strided α} (h : k.make t = .ok v) {d : List α} (hd : d.length = t.data.length) :
    k.make { t with data := d } = .ok { v with data := d } := by
  have key : ∀ dims offsets strides, mkView t dims offsets strides = .ok v →
      mkView { t with data := d } dims offsets strides = .ok { v with data := d } := by
    intro dims offsets strides e
    unfold mkView at e ⊢
    simp only [hd] at e ⊢
    split at e
    · cases e
    · rename_i c1
      rw [if_neg c1]
      split at e
      · cases e
      · rename_i c2
        rw [if_neg c2]
        have e' := Outcome.ok.inj e
        subst e'
        rfl
  cases k with
  | sub args =>
      simp only [ViewKind.make, Strided.sub] at h ⊢
      split at h
      · cases h
      · rename_i c
        rw [if_neg c]
        exact key _ _ _ h
  | ranges rs =>
      simp only [ViewKind.make, Strided.ranges] at h ⊢
      split at h
      · cases h
      · rename_i c
        rw [if_neg c]
        exact key _ _ _ h

theorem step_accounts (grow : Nat → Nat → Nat) {P P' : HostProgram α} (h : Accounts P) (s : HostStmt α) (hg : Goes (P.step grow s) P') :
    Accounts P' := by
  cases s with
  | create z dims =>
      obtain ⟨Q, b, e, hQ, _⟩ := construct_ok grow h (Strided.mk' z dims) rfl (.inr (length_vecResize _ _ _))
      simp only [HostProgram.step] at hg
      rw [e] at hg
      rw [goes_returns hg]; exact hQ
  | copy y =>
      simp only [HostProgram.step] at hg
      cases hy : P.at' y with
      | none => rw [hy] at hg; rw [goes_returns hg]; exact h
      | some o =>
          simp only [hy] at hg
          split at hg
          · rename_i ho
            obtain ⟨t, ht, _, _, _, hs, _, hl⟩ := strided_of_owner h hy ho
            simp only [ht] at hg
            obtain ⟨Q, b, e, hQ, _⟩ := construct_ok grow h t hs (by rcases hl with hl | hl; exact .inr hl; exact .inl hl.2)
            rw [e] at hg
            rw [goes_returns hg]; exact hQ
          · rw [goes_returns hg]; exact h
  | reshape y req =>
      simp only [HostProgram.step] at hg
      cases hy : P.at' y with
      | none => rw [hy] at hg; rw [goes_returns hg]; exact h
      | some o =>
          simp only [hy] at hg
          split at hg
          · rename_i ho
            obtain ⟨t, ht, _, hd, _, hs, _, hl⟩ := strided_of_owner h hy ho
            simp only [ht, HostProgram.reshapeTo] at hg
            cases hr : reshape t req with
            | ok t' =>
                rw [hr] at hg
                obtain ⟨e1, e2, e3, _⟩ := reshape_facts hr
                rw [goes_returns hg, e1]
                refine accounts_moved h hy ho t'.dims ?_
                rcases hl with hl | hl
                · left; rw [← e1, ← e2, hl]
                  obtain ⟨_, _, hd', hs'⟩ := strided_eq ht
                  rw [hd', hs']
                · exact .inr hl.1
            | error m =>
                rw [hr] at hg
                obtain ⟨Q, e, hobj, hlen, hkeep, hdead⟩ := free_ok h hy ho
                simp only [e] at hg
                rw [goes_throws hg]
                have := accounts_freed h hy ho hobj hlen hkeep hdead (some { o with block := none }) (by
                  rintro p e
                  cases e
                  exact ⟨ho, rfl, (h.shape y o hy ho).1, (h.shape y o hy ho).2⟩)
                exact accounts_declare this none (fun p e => by cases e) (fun p b e => by cases e)
            | ub m => rw [hr] at hg; exact (goes_bad hg).elim
          · rw [goes_returns hg]; exact h
  | view y k =>
      simp only [HostProgram.step] at hg
      cases hy : P.at' y with
      | none => rw [hy] at hg; rw [goes_returns hg]; exact h
      | some o =>
          simp only [hy] at hg
          cases ht : P.strided o with
          | none => rw [ht] at hg; exact (goes_bad hg).elim
          | some t =>
              simp only [ht] at hg
              cases hv : k.make t with
              | ok v =>
                  rw [hv] at hg
                  rw [goes_returns hg]
                  refine accounts_declare h _ (fun p e => ?_) (fun p b e hb => ?_)
                  · cases e; rfl
                  · cases e; exact h.refs y o b hy hb
              | error m =>
                  rw [hv] at hg
                  rw [goes_throws hg]
                  exact accounts_declare h none (fun p e => by cases e) (fun p b e => by cases e)
              | ub m => rw [hv] at hg; exact (goes_bad hg).elim
  | copyView y =>
      simp only [HostProgram.step] at hg
      cases hy : P.at' y with
      | none => rw [hy] at hg; rw [goes_returns hg]; exact h
      | some o =>
          simp only [hy] at hg
          split at hg
          · rw [goes_returns hg]; exact h
          · rename_i ho
            rw [goes_returns hg]
            refine accounts_declare h _ (fun p e => ?_) (fun p b e hb => ?_)
            · cases e; simpa using ho
            · cases e; exact h.refs y o b hy hb
  | resize z x dims =>
      simp only [HostProgram.step] at hg
      cases hx : P.at' x with
      | none => rw [hx] at hg; rw [goes_returns hg]; exact h
      | some o =>
          simp only [hx] at hg
          split at hg
          · rename_i ho
            obtain ⟨t, ht, _, _, _, hs, _, hl⟩ := strided_of_owner h hx ho
            simp only [ht] at hg
            obtain ⟨f1, f2, f3⟩ := resize_facts z t dims hs
            obtain ⟨Q, b, e, hQ, _⟩ := renew_ok grow h hx ho (t.resize z dims) f1 (by
              rcases f3 with f3 | ⟨f3, f4⟩
              · exact .inl f3
              · rcases hl with hl | ⟨hl, hl'⟩
                · left; rw [f1, f2, f4, hl, hs, f3]
                · right; exact ⟨hl, by rw [f4, hl']⟩)
            rw [e] at hg
            rw [goes_returns hg]; exact hQ
          · rw [goes_returns hg]; exact h
  | assign z x y =>
      simp only [HostProgram.step] at hg
      cases hx : P.at' x with
      | none => simp only [hx] at hg; rw [goes_returns hg]; exact h
      | some o =>
          cases hy : P.at' y with
          | none => simp only [hx, hy] at hg; rw [goes_returns hg]; exact h
          | some p =>
              simp only [hx, hy] at hg
              split at hg
              · rename_i hop
                rw [Bool.and_eq_true] at hop
                obtain ⟨ho, hp⟩ := hop
                obtain ⟨t, ht, _, _, _, hs, _, hl⟩ := strided_of_owner h hx ho
                obtain ⟨u, hu, _⟩ := strided_of_owner h hy hp
                simp only [ht, hu] at hg
                cases ha : t.assign z u with
                | ok t' =>
                    rw [ha] at hg
                    obtain ⟨f1, f2⟩ := assign_facts z t u t' hs ha
                    obtain ⟨Q, b, e, hQ, _⟩ := renew_ok grow h hx ho t' f1 (by
                      rcases f2 with f2 | ⟨f2, f3⟩
                      · exact .inl f2.1
                      · rcases hl with hl | ⟨hl, hl'⟩
                        · left; rw [f1, f3, f2, hl, hs]
                        · right; exact ⟨hl, List.eq_nil_of_length_eq_zero (by rw [f2, hl']; rfl)⟩)
                    simp only [e] at hg
                    rw [goes_returns hg]; exact hQ
                | error m => rw [ha] at hg; rw [goes_throws hg]; exact h
                | ub m => rw [ha] at hg; exact (goes_bad hg).elim
              · rw [goes_returns hg]; exact h
  | copyElements x y sched =>
      simp only [HostProgram.step] at hg
      cases hx : P.at' x with
      | none => simp only [hx] at hg; rw [goes_returns hg]; exact h
      | some o =>
          cases hy : P.at' y with
          | none => simp only [hx, hy] at hg; rw [goes_returns hg]; exact h
          | some p =>
              simp only [hx, hy] at hg
              split at hg
              · rw [goes_returns hg]; exact h
              · cases ht : P.strided o with
                | none => simp only [ht] at hg; exact (goes_bad hg).elim
                | some t =>
                    cases hu : P.strided p with
                    | none => simp only [ht, hu] at hg; exact (goes_bad hg).elim
                    | some u =>
                        simp only [ht, hu] at hg
                        exact (accounts_written h ht (fun t' e => viewAssign_length _ e) hg).1
  | write x idx v =>
      simp only [HostProgram.step] at hg
      cases hx : P.at' x with
      | none => rw [hx] at hg; rw [goes_returns hg]; exact h
      | some o =>
          simp only [hx] at hg
          cases ht : P.strided o with
          | none => rw [ht] at hg; exact (goes_bad hg).elim
          | some t =>
              simp only [ht] at hg
              exact (accounts_written h ht (fun t' e => write_length e) hg).1
  | destroy x =>
      simp only [HostProgram.step] at hg
      cases hx : P.at' x with
      | none => rw [hx] at hg; rw [goes_returns hg]; exact h
      | some o =>
          simp only [hx] at hg
          split at hg
          · rename_i ho
            obtain ⟨Q, e, hobj, hlen, hkeep, hdead⟩ := free_ok h hx ho
            simp only [e] at hg
            rw [goes_returns hg]
            exact accounts_freed h hx ho hobj hlen hkeep hdead none (fun p e => by cases e)
          · rename_i ho
            rw [goes_returns hg]
            exact accounts_drop_view h hx (by simpa using ho)

theorem accounts_init : Accounts (HostProgram.init : HostProgram α) := by
  have hat : ∀ x, (HostProgram.init : HostProgram α).at' x = none := fun x => by simp [HostProgram.at', HostProgram.init]
  refine ⟨?_, ?_, ?_, ?_, ?_⟩
  · intro x o b hx; rw [hat] at hx; cases hx
  · intro x y o p b hx; rw [hat] at hx; cases hx
  · intro b k hk; simp [HostProgram.init] at hk
  · intro x o hx; rw [hat] at hx; cases hx
  · intro x o b hx; rw [hat] at hx; cases hx

theorem run_cons (grow : Nat → Nat → Nat) (s : HostStmt α) (ss : List (HostStmt α)) {P P' : HostProgram α}
    (h : P.run grow (s :: ss) = some P') : ∃ Q, Goes (P.step grow s) Q ∧ Q.run grow ss = some P' := by
  unfold HostProgram.run at h
  cases hs : P.step grow s with
  | returns Q => rw [hs] at h; exact ⟨Q, .inl rfl, h⟩
  | throws Q => rw [hs] at h; exact ⟨Q, .inr rfl, h⟩
  | bad m => rw [hs] at h; cases h

theorem run_accounts (grow : Nat → Nat → Nat) : ∀ (prog : List (HostStmt α)) {P P' : HostProgram α}, Accounts P →
    P.run grow prog = some P' → Accounts P'
  | [], P, P', h, e => by cases e; exact h
  | s :: ss, P, P', h, e => by
      obtain ⟨Q, hg, e'⟩ := run_cons grow s ss e
      exact run_accounts grow ss (step_accounts grow h s hg) e'

theorem keep_declare {P : HostProgram α} {x : Nat} {o : HostObj} (hx : P.at' x = some o) (n : Option HostObj) :
    (P.declare n).at' x = some o := by
  rw [at_declare, if_neg (Nat.ne_of_lt (at_lt hx))]
  exact hx

theorem keep_set {P : HostProgram α} {x y : Nat} {o p : HostObj} (hx : P.at' x = some o) (hy : P.at' y = some p) (hne : x ≠ y)
    (n : Option HostObj) : (P.setObj y n).at' x = some o := by
  rw [at_setObj hy, if_neg hne]
  exact hx

theorem keep_construct (grow : Nat → Nat → Nat) {P : HostProgram α} (h : Accounts P) (t : Strided α) (hs : t.strides = transformStrides t.dims)
    (hl : t.data = [] ∨ t.data.length = linearSize t.strides t.dims) {P' : HostProgram α} (hg : Goes (P.construct grow t) P')
    (x : Nat) (o : HostObj) (hx : P.at' x = some o) : P'.at' x = some o := by
  obtain ⟨Q, b, e, _, hQ, _⟩ := construct_ok grow h t hs hl
  rw [e] at hg
  rw [goes_returns hg, hQ]
  exact keep_declare (P := { P with blocks := Q.blocks }) hx _

theorem numel_of_zero : ∀ {dims : List Nat}, 0 ∈ dims → numel dims = 0
  | [], h => by cases h
  | d :: ds, h => by
      show d * numel ds = 0
      rcases List.mem_cons.mp h with h | h
      · rw [← h, Nat.zero_mul]
      · rw [numel_of_zero h, Nat.mul_zero]

theorem linearSize_zero {dims : List Nat} (h : 0 ∈ dims) : linearSize (transformStrides dims) dims = 0 := by
  rw [linearSize_eq (fun e => by rw [e] at h; cases h), numel_of_zero h]

/-- A statement that leaves the tensor at `x` and the view at `v` alone. -/
theorem step_keeps (grow : Nat → Nat → Nat) {P P' : HostProgram α} (h : Accounts P) (s : HostStmt α) (hg : Goes (P.step grow s) P')
    {x v : Nat} {o w : HostObj} (hx : P.at' x = some o) (ho : o.owner = true) (hv : P.at' v = some w) (hw : w.owner = false)
    (hL : Leaves P x v s) : P'.at' x = some o ∧ P'.at' v = some w := by
  have renewed : ∀ (z : Nat) (q : HostObj) (t : Strided α), P.at' z = some q → q.owner = true → t.strides = transformStrides t.dims →
      (t.data.length = linearSize t.strides t.dims ∨ (q.block = none ∧ t.data = [])) →
      (z = x → t.dims = o.dims ∧ (o.block = none → t.data = [])) → Goes (P.renew grow z q.block t) P' →
      P'.at' x = some o ∧ P'.at' v = some w := by
    intro z q t hz hq hs hl hzx hgo
    obtain ⟨Q, b', e, _, hat, _, _, hcap, hnone⟩ := renew_ok grow h hz hq t hs hl
    rw [e] at hgo
    rw [goes_returns hgo, hat, hat]
    have hvz : v ≠ z := by
      rintro rfl
      rw [hv] at hz; cases hz
      rw [hw] at hq; cases hq
    rw [if_neg hvz]
    refine ⟨?_, hv⟩
    by_cases c : x = z
    · subst c
      rw [hx] at hz; cases hz
      obtain ⟨hd, hn⟩ := hzx rfl
      obtain ⟨s1, s2⟩ := h.shape x o hx ho
      have hb' : b' = o.block := by
        cases hb : o.block with
        | none => exact hnone hb (hn hb)
        | some b =>
            obtain ⟨k, hk, _, hkc, hkl⟩ := h.owned x o b hx ho hb
            have := hcap b k hb hk
            rw [if_pos] at this
            · exact this
            · rcases hl with hl | ⟨hl, _⟩
              · rw [hl, hs, hd, ← s2, ← hkl]; exact hkc
              · rw [hb] at hl; cases hl
      rw [if_pos rfl, hb', hs, hd]
      obtain ⟨ow, bl, off, dims, strides⟩ := o
      simp only at ho s1 s2
      subst ho; subst s1; subst s2
      rfl
    · rw [if_neg c]; exact hx
  cases s with
  | create z dims =>
      simp only [HostProgram.step] at hg
      have := keep_construct grow h (Strided.mk' z dims) rfl (.inr (length_vecResize _ _ _)) hg
      exact ⟨this _ _ hx, this _ _ hv⟩
  | copy y =>
      simp only [HostProgram.step] at hg
      cases hy : P.at' y with
      | none => rw [hy] at hg; rw [goes_returns hg]; exact ⟨hx, hv⟩
      | some p =>
          simp only [hy] at hg
          split at hg
          · rename_i hp
            obtain ⟨t, ht, _, _, _, hs, _, hl⟩ := strided_of_owner h hy hp
            simp only [ht] at hg
            have := keep_construct grow h t hs (by rcases hl with hl | hl; exact .inr hl; exact .inl hl.2) hg
            exact ⟨this _ _ hx, this _ _ hv⟩
          · rw [goes_returns hg]; exact ⟨hx, hv⟩
  | reshape y req =>
      simp only [HostProgram.step] at hg
      cases hy : P.at' y with
      | none => rw [hy] at hg; rw [goes_returns hg]; exact ⟨hx, hv⟩
      | some p =>
          simp only [hy] at hg
          split at hg
          · rename_i hp
            have hvy : v ≠ y := by
              rintro rfl
              rw [hv] at hy; cases hy
              rw [hw] at hp; cases hp
            have hxy : x ≠ y := fun e => hL e.symm
            obtain ⟨t, ht, _⟩ := strided_of_owner h hy hp
            simp only [ht, HostProgram.reshapeTo] at hg
            cases hr : reshape t req with
            | ok t' =>
                rw [hr] at hg
                rw [goes_returns hg]
                exact ⟨keep_declare (keep_set hx hy hxy _) _, keep_declare (keep_set hv hy hvy _) _⟩
            | error m =>
                rw [hr] at hg
                obtain ⟨Q, e, hobj, _⟩ := free_ok h hy hp
                simp only [e] at hg
                rw [goes_throws hg]
                have hat : ∀ i, Q.at' i = P.at' i := by intro i; unfold HostProgram.at'; rw [hobj]
                rw [← hat] at hx hv hy
                exact ⟨keep_declare (keep_set hx hy hxy _) _, keep_declare (keep_set hv hy hvy _) _⟩
            | ub m => rw [hr] at hg; exact (goes_bad hg).elim
          · rw [goes_returns hg]; exact ⟨hx, hv⟩
  | view y k =>
      simp only [HostProgram.step] at hg
      cases hy : P.at' y with
      | none => rw [hy] at hg; rw [goes_returns hg]; exact ⟨hx, hv⟩
      | some p =>
          simp only [hy] at hg
          cases ht : P.strided p with
          | none => rw [ht] at hg; exact (goes_bad hg).elim
          | some t =>
              simp only [ht] at hg
              cases hv' : k.make t with
              | ok v' => rw [hv'] at hg; rw [goes_returns hg]; exact ⟨keep_declare hx _, keep_declare hv _⟩
              | error m => rw [hv'] at hg; rw [goes_throws hg]; exact ⟨keep_declare hx _, keep_declare hv _⟩
              | ub m => rw [hv'] at hg; exact (goes_bad hg).elim
  | copyView y =>
      simp only [HostProgram.step] at hg
      cases hy : P.at' y with
      | none => rw [hy] at hg; rw [goes_returns hg]; exact ⟨hx, hv⟩
      | some p =>
          simp only [hy] at hg
          split at hg
          · rw [goes_returns hg]; exact ⟨hx, hv⟩
          · rw [goes_returns hg]; exact ⟨keep_declare hx _, keep_declare hv _⟩
  | resize z y dims =>
      simp only [HostProgram.step] at hg
      cases hy : P.at' y with
      | none => rw [hy] at hg; rw [goes_returns hg]; exact ⟨hx, hv⟩
      | some q =>
          simp only [hy] at hg
          split at hg
          · rename_i hq
            obtain ⟨t, ht, _, hd, _, hs, _, hl⟩ := strided_of_owner h hy hq
            simp only [ht] at hg
            obtain ⟨f1, f2, f3⟩ := resize_facts z t dims hs
            refine renewed y q _ hy hq f1 ?_ ?_ hg
            · rcases f3 with f3 | ⟨f3, f4⟩
              · exact .inl f3
              · rcases hl with hl | ⟨hl, hl'⟩
                · left; rw [f1, f2, f4, hl, hs, f3]
                · right; exact ⟨hl, by rw [f4, hl']⟩
            · intro e
              subst e
              rw [hx] at hy; cases hy
              have hdim := hL rfl o hx
              refine ⟨by rw [f2, hdim], fun hb => ?_⟩
              have : t.resize z dims = t := by unfold Strided.resize; rw [if_pos (by rw [hd, hdim])]
              rw [this]
              have hc := (strided_eq ht).1
              unfold HostProgram.contents at hc
              rw [hb] at hc
              exact (Option.some.inj hc).symm
          · rw [goes_returns hg]; exact ⟨hx, hv⟩
  | assign z y y' =>
      simp only [HostProgram.step] at hg
      cases hy : P.at' y with
      | none => simp only [hy] at hg; rw [goes_returns hg]; exact ⟨hx, hv⟩
      | some q =>
          cases hy' : P.at' y' with
          | none => simp only [hy, hy'] at hg; rw [goes_returns hg]; exact ⟨hx, hv⟩
          | some p =>
              simp only [hy, hy'] at hg
              split at hg
              · rename_i hop
                rw [Bool.and_eq_true] at hop
                obtain ⟨hq, hp⟩ := hop
                obtain ⟨t, ht, _, hd, _, hs, _, hl⟩ := strided_of_owner h hy hq
                obtain ⟨u, hu, _, hdu, _⟩ := strided_of_owner h hy' hp
                simp only [ht, hu] at hg
                cases ha : t.assign z u with
                | ok t' =>
                    rw [ha] at hg
                    obtain ⟨f1, f2⟩ := assign_facts z t u t' hs ha
                    refine renewed y q t' hy hq f1 ?_ ?_ hg
                    · rcases f2 with f2 | ⟨f2, f3⟩
                      · exact .inl f2.1
                      · rcases hl with hl | ⟨hl, hl'⟩
                        · left; rw [f1, f3, f2, hl, hs]
                        · right; exact ⟨hl, List.eq_nil_of_length_eq_zero (by rw [f2, hl']; rfl)⟩
                    · intro e
                      subst e
                      rw [hx] at hy; cases hy
                      have hdim := hL rfl o p hx hy'
                      have hud : u.dims = t.dims := by rw [hdu, hd, hdim]
                      refine ⟨?_, fun hb => ?_⟩
                      · rcases f2 with f2 | f2
                        · rw [f2.2, hdu, hdim]
                        · rw [f2.2, hd]
                      · have hc := (strided_eq ht).1
                        unfold HostProgram.contents at hc
                        rw [hb] at hc
                        have ht0 : t.data = [] := (Option.some.inj hc).symm
                        unfold Strided.assign at ha
                        simp only at ha
                        by_cases c : ((t.dims.zip u.dims).any fun p => p.1 == 0 || p.1 != p.2) = true
                        · have h0 : 0 ∈ u.dims := by
                            rw [hud] at c ⊢
                            rw [List.any_eq_true] at c
                            obtain ⟨⟨a, b⟩, hm, hab⟩ := c
                            rw [List.mem_iff_getElem?] at hm
                            obtain ⟨i, hi⟩ := hm
                            rw [List.getElem?_zip_eq_some] at hi
                            have hee : a = b := by
                              have := hi.1.symm.trans hi.2
                              exact Option.some.inj this
                            subst hee
                            simp at hab
                            subst hab
                            exact List.mem_of_getElem? hi.1
                          have hlz := length_vecResize z (linearSize (transformStrides u.dims) u.dims) t.data
                          rw [if_pos c] at ha
                          split at ha
                          · rename_i hle
                            have e' := Outcome.ok.inj ha
                            rw [← e']
                            apply List.eq_nil_of_length_eq_zero
                            simp only [List.length_append, List.length_drop] at hle ⊢
                            rw [hlz, linearSize_zero h0] at hle ⊢
                            omega
                          · cases ha
                        · rw [if_neg c] at ha
                          split at ha
                          · rename_i hle
                            have e' := Outcome.ok.inj ha
                            rw [← e']
                            apply List.eq_nil_of_length_eq_zero
                            rw [ht0] at hle ⊢
                            simp at hle ⊢
                            simp [hle]
                          · cases ha
                | error m => rw [ha] at hg; rw [goes_throws hg]; exact ⟨hx, hv⟩
                | ub m => rw [ha] at hg; exact (goes_bad hg).elim
              · rw [goes_returns hg]; exact ⟨hx, hv⟩
  | copyElements y y' sched =>
      simp only [HostProgram.step] at hg
      cases hy : P.at' y with
      | none => simp only [hy] at hg; rw [goes_returns hg]; exact ⟨hx, hv⟩
      | some q =>
          cases hy' : P.at' y' with
          | none => simp only [hy, hy'] at hg; rw [goes_returns hg]; exact ⟨hx, hv⟩
          | some p =>
              simp only [hy, hy'] at hg
              split at hg
              · rw [goes_returns hg]; exact ⟨hx, hv⟩
              · cases ht : P.strided q with
                | none => simp only [ht] at hg; exact (goes_bad hg).elim
                | some t =>
                    cases hu : P.strided p with
                    | none => simp only [ht, hu] at hg; exact (goes_bad hg).elim
                    | some u =>
                        simp only [ht, hu] at hg
                        have e := (accounts_written h ht (fun t' e => viewAssign_length _ e) hg).2
                        unfold HostProgram.at' at hx hv ⊢
                        rw [e]; exact ⟨hx, hv⟩
  | write y idx a =>
      simp only [HostProgram.step] at hg
      cases hy : P.at' y with
      | none => rw [hy] at hg; rw [goes_returns hg]; exact ⟨hx, hv⟩
      | some q =>
          simp only [hy] at hg
          cases ht : P.strided q with
          | none => rw [ht] at hg; exact (goes_bad hg).elim
          | some t =>
              simp only [ht] at hg
              have e := (accounts_written h ht (fun t' e => write_length e) hg).2
              unfold HostProgram.at' at hx hv ⊢
              rw [e]; exact ⟨hx, hv⟩
  | destroy y =>
      simp only [HostProgram.step] at hg
      have hxy : x ≠ y := fun e => hL.1 e.symm
      have hvy : v ≠ y := fun e => hL.2 e.symm
      cases hy : P.at' y with
      | none => rw [hy] at hg; rw [goes_returns hg]; exact ⟨hx, hv⟩
      | some q =>
          simp only [hy] at hg
          split at hg
          · rename_i hq
            obtain ⟨Q, e, hobj, _⟩ := free_ok h hy hq
            simp only [e] at hg
            rw [goes_returns hg]
            have hat : ∀ i, Q.at' i = P.at' i := by intro i; unfold HostProgram.at'; rw [hobj]
            rw [← hat] at hx hv hy
            exact ⟨keep_set hx hy hxy _, keep_set hv hy hvy _⟩
          · rw [goes_returns hg]
            exact ⟨keep_set hx hy hxy _, keep_set hv hy hvy _⟩

theorem run_keeps (grow : Nat → Nat → Nat) {x v : Nat} {o w : HostObj} (ho : o.owner = true) (hw : w.owner = false) :
    ∀ (prog : List (HostStmt α)) {P P' : HostProgram α}, Accounts P → P.at' x = some o → P.at' v = some w →
    Undisturbed grow x v prog P → P.run grow prog = some P' → P'.at' x = some o ∧ P'.at' v = some w
  | [], P, P', _, hx, hv, _, e => by cases e; exact ⟨hx, hv⟩
  | s :: ss, P, P', h, hx, hv, hU, e => by
      obtain ⟨Q, hg, e'⟩ := run_cons grow s ss e
      obtain ⟨k1, k2⟩ := step_keeps grow h s hg hx ho hv hw hU.1
      exact run_keeps grow ho hw ss (step_accounts grow h s hg) k1 k2 (hU.2 Q hg) e'

/-- Without reshaping, a tensor without memory has no elements. -/
def Full (P : HostProgram α) : Prop := ∀ x o, P.at' x = some o → o.owner = true → o.block = none → linearSize o.strides o.dims = 0

theorem full_objs {P P' : HostProgram α} (h : Full P) (e : P'.objs = P.objs) : Full P' := by
  intro x o hx
  have : P'.at' x = P.at' x := by unfold HostProgram.at'; rw [e]
  rw [this] at hx
  exact h x o hx

theorem full_declare {P : HostProgram α} (h : Full P) (n : Option HostObj)
    (hn : ∀ o, n = some o → o.owner = true → o.block = none → linearSize o.strides o.dims = 0) : Full (P.declare n) := by
  intro x o hx
  rw [at_declare] at hx
  split at hx
  · exact hn o hx
  · exact h x o hx

theorem full_construct (grow : Nat → Nat → Nat) {P P' : HostProgram α} (h : Full P) (t : Strided α)
    (hl : t.data.length = linearSize t.strides t.dims) (hg : Goes (P.construct grow t) P') : Full P' := by
  unfold HostProgram.construct HostProgram.store at hg
  by_cases c : t.data.length = 0
  · simp only [c, if_true] at hg
    rw [goes_returns hg]
    refine full_declare h _ ?_
    rintro o e _ _
    cases e
    show linearSize t.strides t.dims = 0
    rw [← hl, c]
  · simp only [c, if_false] at hg
    rw [goes_returns hg]
    refine full_declare (full_objs h rfl) _ ?_
    rintro o e _ hb
    cases e; cases hb

theorem full_renew (grow : Nat → Nat → Nat) {P P' : HostProgram α} (hA : Accounts P) (h : Full P) {x : Nat} {o : HostObj}
    (hx : P.at' x = some o) (ho : o.owner = true) (t : Strided α) (hs : t.strides = transformStrides t.dims)
    (hl : t.data.length = linearSize t.strides t.dims) (hg : Goes (P.renew grow x o.block t) P') : Full P' := by
  obtain ⟨Q, b', e, _, hat, hc, _⟩ := renew_ok grow hA hx ho t hs (.inl hl)
  rw [e] at hg
  rw [goes_returns hg]
  intro y p hy hp hb
  rw [hat] at hy
  split at hy
  · cases hy
    simp only at hb
    subst hb
    have : t.data = [] := by
      unfold HostProgram.contents at hc
      exact (Option.some.inj hc).symm
    show linearSize t.strides t.dims = 0
    rw [← hl, this]; rfl
  · exact h y p hy hp hb

theorem full_length {P : HostProgram α} (hA : Accounts P) (h : Full P) {x : Nat} {o : HostObj} (hx : P.at' x = some o) (ho : o.owner = true)
    {t : Strided α} (ht : P.strided o = some t) : t.data.length = linearSize t.strides t.dims := by
  obtain ⟨u, hu, _, hd, hst, _, _, hl⟩ := strided_of_owner hA hx ho
  rw [ht] at hu; cases hu
  rcases hl with hl | ⟨hb, hn⟩
  · exact hl
  · rw [hn, hst, hd, h x o hx ho hb]; rfl

theorem step_full (grow : Nat → Nat → Nat) {P P' : HostProgram α} (hA : Accounts P) (h : Full P) (s : HostStmt α)
    (hs : ∀ y req, s ≠ .reshape y req) (hg : Goes (P.step grow s) P') : Full P' := by
  cases s with
  | create z dims =>
      simp only [HostProgram.step] at hg
      exact full_construct grow h _ (length_vecResize _ _ _) hg
  | copy y =>
      simp only [HostProgram.step] at hg
      cases hy : P.at' y with
      | none => rw [hy] at hg; rw [goes_returns hg]; exact h
      | some o =>
          simp only [hy] at hg
          split at hg
          · rename_i ho
            obtain ⟨t, ht, _⟩ := strided_of_owner hA hy ho
            simp only [ht] at hg
            exact full_construct grow h t (full_length hA h hy ho ht) hg
          · rw [goes_returns hg]; exact h
  | reshape y req => exact absurd rfl (hs y req)
  | view y k =>
      simp only [HostProgram.step] at hg
      cases hy : P.at' y with
      | none => rw [hy] at hg; rw [goes_returns hg]; exact h
      | some o =>
          simp only [hy] at hg
          cases ht : P.strided o with
          | none => rw [ht] at hg; exact (goes_bad hg).elim
          | some t =>
              simp only [ht] at hg
              cases hv : k.make t with
              | ok v => rw [hv] at hg; rw [goes_returns hg]; exact full_declare h _ (fun o e ho => by cases e; cases ho)
              | error m => rw [hv] at hg; rw [goes_throws hg]; exact full_declare h _ (fun o e => by cases e)
              | ub m => rw [hv] at hg; exact (goes_bad hg).elim
  | copyView y =>
      simp only [HostProgram.step] at hg
      cases hy : P.at' y with
      | none => rw [hy] at hg; rw [goes_returns hg]; exact h
      | some o =>
          simp only [hy] at hg
          split at hg
          · rw [goes_returns hg]; exact h
          · rename_i ho
            rw [goes_returns hg]
            exact full_declare h _ (fun p e hp => by cases e; exact absurd hp ho)
  | resize z x dims =>
      simp only [HostProgram.step] at hg
      cases hx : P.at' x with
      | none => rw [hx] at hg; rw [goes_returns hg]; exact h
      | some o =>
          simp only [hx] at hg
          split at hg
          · rename_i ho
            obtain ⟨t, ht, _, _, _, hst, _⟩ := strided_of_owner hA hx ho
            simp only [ht] at hg
            have hl := full_length hA h hx ho ht
            obtain ⟨f1, f2, f3⟩ := resize_facts z t dims hst
            refine full_renew grow hA h hx ho _ f1 ?_ hg
            rcases f3 with f3 | ⟨f3, f4⟩
            · exact f3
            · rw [f1, f2, f4, hl, hst, f3]
          · rw [goes_returns hg]; exact h
  | assign z x y =>
      simp only [HostProgram.step] at hg
      cases hx : P.at' x with
      | none => simp only [hx] at hg; rw [goes_returns hg]; exact h
      | some o =>
          cases hy : P.at' y with
          | none => simp only [hx, hy] at hg; rw [goes_returns hg]; exact h
          | some p =>
              simp only [hx, hy] at hg
              split at hg
              · rename_i hop
                rw [Bool.and_eq_true] at hop
                obtain ⟨ho, hp⟩ := hop
                obtain ⟨t, ht, _, _, _, hst, _⟩ := strided_of_owner hA hx ho
                obtain ⟨u, hu, _⟩ := strided_of_owner hA hy hp
                have hl := full_length hA h hx ho ht
                simp only [ht, hu] at hg
                cases ha : t.assign z u with
                | ok t' =>
                    rw [ha] at hg
                    obtain ⟨f1, f2⟩ := assign_facts z t u t' hst ha
                    refine full_renew grow hA h hx ho t' f1 ?_ hg
                    rcases f2 with f2 | ⟨f2, f3⟩
                    · exact f2.1
                    · rw [f1, f3, f2, hl, hst]
                | error m => rw [ha] at hg; rw [goes_throws hg]; exact h
                | ub m => rw [ha] at hg; exact (goes_bad hg).elim
              · rw [goes_returns hg]; exact h
  | copyElements x y sched =>
      simp only [HostProgram.step] at hg
      cases hx : P.at' x with
      | none => simp only [hx] at hg; rw [goes_returns hg]; exact h
      | some o =>
          cases hy : P.at' y with
          | none => simp only [hx, hy] at hg; rw [goes_returns hg]; exact h
          | some p =>
              simp only [hx, hy] at hg
              split at hg
              · rw [goes_returns hg]; exact h
              · cases ht : P.strided o with
                | none => simp only [ht] at hg; exact (goes_bad hg).elim
                | some t =>
                    cases hu : P.strided p with
                    | none => simp only [ht, hu] at hg; exact (goes_bad hg).elim
                    | some u =>
                        simp only [ht, hu] at hg
                        exact full_objs h (accounts_written hA ht (fun t' e => viewAssign_length _ e) hg).2
  | write x idx v =>
      simp only [HostProgram.step] at hg
      cases hx : P.at' x with
      | none => rw [hx] at hg; rw [goes_returns hg]; exact h
      | some o =>
          simp only [hx] at hg
          cases ht : P.strided o with
          | none => rw [ht] at hg; exact (goes_bad hg).elim
          | some t =>
              simp only [ht] at hg
              exact full_objs h (accounts_written hA ht (fun t' e => write_length e) hg).2
  | destroy x =>
      simp only [HostProgram.step] at hg
      cases hx : P.at' x with
      | none => rw [hx] at hg; rw [goes_returns hg]; exact h
      | some o =>
          simp only [hx] at hg
          have key : ∀ Q : HostProgram α, Q.objs = P.objs → Full (Q.setObj x none) := by
            intro Q e y p hy hp hb
            have hat : ∀ i, Q.at' i = P.at' i := by intro i; unfold HostProgram.at'; rw [e]
            rw [at_setObj (by rw [hat]; exact hx)] at hy
            split at hy
            · cases hy
            · rw [hat] at hy; exact h y p hy hp hb
          split at hg
          · rename_i ho
            obtain ⟨Q, e, hobj, _⟩ := free_ok hA hx ho
            simp only [e] at hg
            rw [goes_returns hg]
            exact key Q hobj
          · rw [goes_returns hg]
            exact key P rfl

theorem run_full (grow : Nat → Nat → Nat) : ∀ (prog : List (HostStmt α)) {P P' : HostProgram α}, Accounts P → Full P → NoReshape prog →
    P.run grow prog = some P' → Full P'
  | [], P, P', _, h, _, e => by cases e; exact h
  | s :: ss, P, P', hA, h, hn, e => by
      obtain ⟨Q, hg, e'⟩ := run_cons grow s ss e
      refine run_full grow ss (step_accounts grow hA s hg) (step_full grow hA h s (fun y req he => ?_) hg) (fun y req hm => ?_) e'
      · exact hn y req (by rw [he]; simp)
      · exact hn y req (by simp [hm])

theorem full_init : Full (HostProgram.init : HostProgram α) := by
  intro x o hx
  simp [HostProgram.at', HostProgram.init] at hx

/-- Destroying never fails and empties the position. -/
theorem destroy_ok (grow : Nat → Nat → Nat) {P : HostProgram α} (h : Accounts P) (x : Nat) :
    ∃ P', P.step grow (.destroy x) = .returns P' ∧ (∀ y, P'.at' y = if y = x then none else P.at' y) ∧ P'.objs.length = P.objs.length := by
  simp only [HostProgram.step]
  cases hx : P.at' x with
  | none =>
      refine ⟨P, rfl, fun y => ?_, rfl⟩
      split
      · rename_i e; rw [e, hx]
      · rfl
  | some o =>
      simp only
      split
      · rename_i ho
        obtain ⟨Q, e, hobj, _⟩ := free_ok h hx ho
        have hat : ∀ i, Q.at' i = P.at' i := by intro i; unfold HostProgram.at'; rw [hobj]
        rw [e]
        refine ⟨_, rfl, fun y => ?_, by simp [HostProgram.setObj, hobj]⟩
        rw [at_setObj (by rw [hat]; exact hx), hat]
      · exact ⟨_, rfl, fun y => at_setObj hx _ y, by simp [HostProgram.setObj]⟩

theorem destroy_all (grow : Nat → Nat → Nat) : ∀ (xs : List Nat) {P : HostProgram α}, Accounts P →
    ∃ P', P.run grow (destroyHost xs) = some P' ∧ Accounts P' ∧ (∀ y, P'.at' y = if y ∈ xs then none else P.at' y)
  | [], P, h => ⟨P, rfl, h, fun y => by simp⟩
  | x :: xs, P, h => by
      obtain ⟨Q, e, hat, _⟩ := destroy_ok grow h x
      obtain ⟨P', e', hA, hat'⟩ := destroy_all grow xs (step_accounts grow h _ (.inl e))
      refine ⟨P', ?_, hA, fun y => ?_⟩
      · show (match P.step grow (.destroy x) with | .returns P => _ | .throws P => _ | .bad _ => _) = _
        rw [e]; exact e'
      · rw [hat', hat]
        by_cases c : y = x
        · simp [c]
        · simp [c]

end HostMem
end Einsums
