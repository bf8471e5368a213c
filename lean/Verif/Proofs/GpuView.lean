import Verif.Spec.GpuView
import Mathlib.Data.List.Nodup
import Mathlib.Data.List.Pairwise
/-
Invariants of the list of mappings.
-/
namespace Einsums.Proofs
open Einsums Einsums.Model Einsums.Spec

/-- `(ptr, size)` of the mappings. -/
abbrev keys (maps : List Mapping) : List (Nat × Nat) := maps.map fun m => (m.ptr, m.size)

/-- The driver's table holds exactly the mappings; they do not overlap. -/
structure Good (ks : List (Nat × Nat)) (reg : List Registered) : Prop where
  pos : ∀ r ∈ reg, 0 < r.size
  disj : reg.Pairwise fun a b => rangesOverlap a.ptr a.size b.ptr b.size = false
  m2r : ∀ k ∈ ks, ∃ r ∈ reg, r.ptr = k.1 ∧ r.size = k.2
  r2m : ∀ r ∈ reg, (r.ptr, r.size) ∈ ks
  nodup : (ks.map Prod.fst).Nodup

theorem overlap_comm (p n q m : Nat) : rangesOverlap p n q m = rangesOverlap q m p n := by
  unfold rangesOverlap; rw [decide_eq_decide]; exact ⟨fun h => ⟨h.2, h.1⟩, fun h => ⟨h.2, h.1⟩⟩

theorem disj_eq {reg : List Registered} (hd : reg.Pairwise fun a b => rangesOverlap a.ptr a.size b.ptr b.size = false)
    {r r' : Registered} (h : r ∈ reg) (h' : r' ∈ reg) (ho : rangesOverlap r.ptr r.size r'.ptr r'.size = true) : r = r' := by
  by_contra hne
  have : Std.Symm (fun a b : Registered => rangesOverlap a.ptr a.size b.ptr b.size = false) :=
    ⟨fun a b hab => by rw [overlap_comm]; exact hab⟩
  have := hd.forall h h' hne
  rw [this] at ho; exact absurd ho (by decide)

theorem Good.ptr_inj {ks reg} (g : Good ks reg) {r r' : Registered} (h : r ∈ reg) (h' : r' ∈ reg) (hp : r.ptr = r'.ptr) : r = r' := by
  refine disj_eq g.disj h h' ?_
  have := g.pos r h; have := g.pos r' h'
  unfold rangesOverlap; rw [decide_eq_true_eq]; omega

theorem Good.maps_unique {ks reg} (g : Good ks reg) {host a b : Nat} (ha : Maps reg host a) (hb : Maps reg host b) : a = b := by
  obtain ⟨r, hr, h1, h2, rfl⟩ := ha
  obtain ⟨r', hr', h3, h4, rfl⟩ := hb
  have := disj_eq g.disj hr hr' (by unfold rangesOverlap; rw [decide_eq_true_eq]; omega)
  rw [this]

theorem unregister_all (ds : List Mapping) : ∀ (reg : List Registered), (ds.map Mapping.ptr).Nodup →
    (∀ d ∈ ds, ∃ r ∈ reg, r.ptr = d.ptr) →
    ds.foldlM (fun reg m => hostUnregister reg m.ptr) reg = .ok (reg.filter fun r => !ds.any fun d => d.ptr == r.ptr) := by
  induction ds with
  | nil => intro reg _ _; simp [List.filter_eq_self.2]
  | cons d ds ih =>
      intro reg hn hm
      obtain ⟨r, hr, hp⟩ := hm d (by simp)
      rw [List.map_cons, List.nodup_cons] at hn
      have h1 : hostUnregister reg d.ptr = .ok (reg.filter fun r => r.ptr != d.ptr) := by
        unfold hostUnregister
        rw [if_pos]
        rw [List.any_eq_true]; exact ⟨r, hr, by simp [hp]⟩
      rw [List.foldlM_cons, h1, Outcome.ok_bind, ih _ hn.2]
      · congr 1
        rw [List.filter_filter]
        congr 1; funext r
        simp only [List.any_cons, Bool.not_or]
        rw [Bool.and_comm]; congr 1
        simp only [bne]; congr 1; rw [Bool.beq_comm]
      · intro e he
        obtain ⟨r', hr', hp'⟩ := hm e (by simp [he])
        refine ⟨r', List.mem_filter.2 ⟨hr', ?_⟩, hp'⟩
        simp only [bne_iff_ne, ne_eq, hp']
        intro h
        exact hn.1 (List.mem_map.2 ⟨e, he, h⟩)

/-- A mapping is determined by its address. -/
theorem maps_ptr_inj {maps : List Mapping} (hn : ((keys maps).map Prod.fst).Nodup) {m m' : Mapping} (h : m ∈ maps) (h' : m' ∈ maps)
    (hp : m.ptr = m'.ptr) : m = m' := by
  have h0 : (maps.map Mapping.ptr).Nodup := by simpa [keys, List.map_map, Function.comp_def] using hn
  exact List.inj_on_of_nodup_map h0 h h' hp

theorem notify_good {maps : List Mapping} {reg : List Registered} (g : Good (keys maps) reg) :
    ∃ reg', notify maps reg = .ok (maps.filter fun m => !m.observers.isEmpty, reg') ∧
      Good (keys (maps.filter fun m => !m.observers.isEmpty)) reg' ∧
      ∀ r, r ∈ reg' ↔ r ∈ reg ∧ ∃ m ∈ maps, m.ptr = r.ptr ∧ m.observers ≠ [] := by
  have hn0 : (maps.map Mapping.ptr).Nodup := by simpa [keys, List.map_map, Function.comp_def] using g.nodup
  have h1 := unregister_all (maps.filter fun m => m.observers.isEmpty) reg
    ((List.filter_sublist.map _).nodup hn0)
    (fun d hd => by
      obtain ⟨r, hr, hp, -⟩ := g.m2r (d.ptr, d.size) (List.mem_map.2 ⟨d, (List.mem_filter.1 hd).1, rfl⟩)
      exact ⟨r, hr, hp⟩)
  refine ⟨_, by unfold notify; rw [h1]; rfl, ?_, ?_⟩
  · refine ⟨fun r hr => g.pos r (List.mem_filter.1 hr).1, g.disj.sublist List.filter_sublist, ?_, ?_, ?_⟩
    · intro k hk
      obtain ⟨m, hm, rfl⟩ := List.mem_map.1 hk
      obtain ⟨hm, ho⟩ := List.mem_filter.1 hm
      obtain ⟨r, hr, hp, hs⟩ := g.m2r (m.ptr, m.size) (List.mem_map.2 ⟨m, hm, rfl⟩)
      refine ⟨r, List.mem_filter.2 ⟨hr, ?_⟩, hp, hs⟩
      rw [Bool.not_eq_true', List.any_eq_false]
      intro d hd hdp
      obtain ⟨hd, hde⟩ := List.mem_filter.1 hd
      have := maps_ptr_inj g.nodup hd hm (by rw [beq_iff_eq.1 hdp, hp])
      rw [this] at hde
      rw [hde] at ho; exact absurd ho (by decide)
    · intro r hr
      obtain ⟨hr, hk⟩ := List.mem_filter.1 hr
      obtain ⟨m, hm, he⟩ := List.mem_map.1 (g.r2m r hr)
      refine List.mem_map.2 ⟨m, List.mem_filter.2 ⟨hm, ?_⟩, he⟩
      cases ho : m.observers.isEmpty
      · rfl
      · exfalso
        rw [Bool.not_eq_true', List.any_eq_false] at hk
        exact hk m (List.mem_filter.2 ⟨hm, ho⟩) (by rw [beq_iff_eq]; exact congrArg Prod.fst he)
    · have := (List.filter_sublist (p := fun m : Mapping => !m.observers.isEmpty) (l := maps)).map fun m => (m.ptr, m.size)
      exact (this.map Prod.fst).nodup g.nodup
  · intro r
    rw [List.mem_filter]
    refine and_congr_right fun hr => ?_
    rw [Bool.not_eq_true', List.any_eq_false]
    constructor
    · intro h
      obtain ⟨m, hm, he⟩ := List.mem_map.1 (g.r2m r hr)
      refine ⟨m, hm, congrArg Prod.fst he, fun ho => ?_⟩
      exact h m (List.mem_filter.2 ⟨hm, by rw [ho]; rfl⟩) (by rw [beq_iff_eq]; exact congrArg Prod.fst he)
    · rintro ⟨m, hm, hp, ho⟩ d hd hdp
      obtain ⟨hd, hde⟩ := List.mem_filter.1 hd
      have := maps_ptr_inj g.nodup hd hm (by rw [beq_iff_eq.1 hdp, hp])
      rw [this, List.isEmpty_iff] at hde
      exact ho hde

theorem gpuPointer_ok {ks reg} (g : Good ks reg) {r : Registered} (hr : r ∈ reg) (host : Nat) :
    gpuPointer reg r.ptr host = .ok (r.dev + (host - r.ptr)) := by
  unfold gpuPointer
  have : reg.find? (fun x => x.ptr == r.ptr) = some r := by
    cases hf : reg.find? fun x => x.ptr == r.ptr with
    | none => exact absurd (List.find?_eq_none.1 hf r hr) (by simp)
    | some x =>
        have h1 := List.find?_some hf
        have h2 := List.mem_of_find?_eq_some hf
        rw [g.ptr_inj h2 hr (by simpa using h1)]
  rw [this]

theorem attachFirst_some (id ptr size : Nat) : ∀ (maps : List Mapping) (base : Nat) (maps' : List Mapping),
    attachFirst id ptr size maps = some (base, maps') →
    ∃ l m r, maps = l ++ m :: r ∧ m.covers ptr size = true ∧ base = m.ptr ∧
      maps' = l ++ { m with observers := m.observers ++ [id] } :: r := by
  intro maps
  induction maps with
  | nil => intro base maps' h; simp [attachFirst] at h
  | cons m ms ih =>
      intro base maps' h
      unfold attachFirst at h
      split at h
      · rename_i hc
        obtain ⟨rfl, rfl⟩ := Prod.mk.inj (Option.some.inj h)
        exact ⟨[], m, ms, rfl, hc, rfl, rfl⟩
      · cases ha : attachFirst id ptr size ms with
        | none => rw [ha] at h; simp at h
        | some q =>
            rw [ha] at h
            obtain ⟨rfl, rfl⟩ := Prod.mk.inj (Option.some.inj h)
            obtain ⟨l, m', r, e1, e2, e3, e4⟩ := ih q.1 q.2 (by rw [ha])
            exact ⟨m :: l, m', r, by rw [e1]; rfl, e2, e3, by rw [e4]; rfl⟩

theorem attachFirst_none (id ptr size : Nat) : ∀ (maps : List Mapping), attachFirst id ptr size maps = none →
    ∀ m ∈ maps, m.covers ptr size = false := by
  intro maps
  induction maps with
  | nil => intro _ m hm; simp at hm
  | cons m ms ih =>
      intro h
      unfold attachFirst at h
      split at h
      · simp at h
      · rename_i hc
        intro x hx
        rcases List.mem_cons.1 hx with rfl | hx
        · simpa using hc
        · exact ih (by simpa using h) x hx

/-- Everything that holds of the list of mappings, the driver's table and the views. -/
structure Inv (w : GpuWorld) : Prop where
  good : Good (keys w.maps) w.reg
  obs : ∀ m ∈ w.maps, m.observers ≠ []
  view : ∀ v ∈ w.views, ∃ m ∈ w.maps, v.id ∈ m.observers ∧ ∃ r ∈ w.reg, r.ptr = m.ptr ∧ r.ptr ≤ v.ptr ∧
    v.ptr + v.size ≤ r.ptr + r.size ∧ v.dev = r.dev + (v.ptr - r.ptr)

theorem covers_iff (m : Mapping) (ptr size : Nat) :
    m.covers ptr size = true ↔ m.ptr ≤ ptr ∧ ptr < m.ptr + m.size ∧ ptr + size ≤ m.ptr + m.size := by
  unfold Mapping.covers; rw [decide_eq_true_eq]; omega

/-- The range can be mapped: it lies in a registered range, or it is not empty, free, and the driver accepts it. -/
def Mappable (refuse : Bool) (reg : List Registered) (ptr size : Nat) : Prop :=
  (∃ r ∈ reg, r.ptr ≤ ptr ∧ ptr < r.ptr + r.size ∧ ptr + size ≤ r.ptr + r.size) ∨
    (refuse = false ∧ 0 < size ∧ ∀ r ∈ reg, rangesOverlap r.ptr r.size ptr size = false)

/-- What `attach` does. -/
theorem attach_ok (refuse : Bool) (dev id ptr size : Nat) (w : GpuWorld) (h : Inv w) :
    (¬ Mappable refuse w.reg ptr size ∧ attach refuse dev id ptr size w.maps w.reg = .ok none) ∨
    (Mappable refuse w.reg ptr size ∧ ∃ p maps reg, attach refuse dev id ptr size w.maps w.reg = .ok (some (p, maps, reg)) ∧
      Good (keys maps) reg ∧ (∀ m ∈ maps, m.observers ≠ []) ∧
      (∀ m ∈ w.maps, ∃ m' ∈ maps, m'.ptr = m.ptr ∧ ∀ o ∈ m.observers, o ∈ m'.observers) ∧
      (∀ r ∈ w.reg, r ∈ reg) ∧
      (∃ m ∈ maps, id ∈ m.observers ∧ ∃ r ∈ reg, r.ptr = m.ptr ∧ r.ptr ≤ ptr ∧ ptr + size ≤ r.ptr + r.size ∧
        p = r.dev + (ptr - r.ptr)) ∧
      (∀ m' ∈ maps, ∀ o ∈ m'.observers, (∃ m ∈ w.maps, m.ptr = m'.ptr ∧ m.size = m'.size ∧ o ∈ m.observers) ∨
        (o = id ∧ m'.ptr ≤ ptr ∧ ptr + size ≤ m'.ptr + m'.size))) := by
  have hall : ∀ ms : List Mapping, (∀ m ∈ ms, m.observers ≠ []) → ms.filter (fun m => !m.observers.isEmpty) = ms := by
    intro ms hms
    rw [List.filter_eq_self]
    intro m hm
    have := hms m hm
    rw [ne_eq, ← List.isEmpty_iff] at this
    simpa using this
  unfold attach
  cases ha : attachFirst id ptr size w.maps with
  | some q =>
      obtain ⟨l, m, r, e1, e2, e3, e4⟩ := attachFirst_some id ptr size w.maps q.1 q.2 (by rw [ha])
      rw [covers_iff] at e2
      right
      have hk : keys q.2 = keys w.maps := by rw [e1, e4]; simp [keys]
      have ho : ∀ x ∈ q.2, x.observers ≠ [] := by
        intro x hx
        rw [e4, List.mem_append, List.mem_cons] at hx
        rcases hx with hx | rfl | hx
        · exact h.obs x (by rw [e1]; simp [hx])
        · simp
        · exact h.obs x (by rw [e1]; simp [hx])
      have hmw : m ∈ w.maps := by rw [e1]; simp
      obtain ⟨g0, hg0, hp0, hs0⟩ := h.good.m2r (m.ptr, m.size) (List.mem_map.2 ⟨m, hmw, rfl⟩)
      obtain ⟨reg', n1, n2, n3⟩ := notify_good (maps := q.2) (reg := w.reg) (by rw [hk]; exact h.good)
      rw [hall q.2 ho] at n1 n2
      have hreg : ∀ r ∈ w.reg, r ∈ reg' := by
        intro r hr
        rw [n3]
        refine ⟨hr, ?_⟩
        have hmem := h.good.r2m r hr
        rw [← hk] at hmem
        obtain ⟨x, hx, he⟩ := List.mem_map.1 hmem
        exact ⟨x, hx, congrArg Prod.fst he, ho x hx⟩
      refine ⟨Or.inl ⟨g0, hg0, by simp only at hp0 hs0; omega⟩, g0.dev + (ptr - g0.ptr), q.2, reg', ?_, n2, ho, ?_, hreg, ?_, ?_⟩
      · obtain ⟨q1, q2⟩ := q
        simp only at n1 e3 ⊢
        rw [n1]
        simp only [Outcome.ok_bind]
        rw [e3, show m.ptr = g0.ptr from hp0.symm, gpuPointer_ok n2 (hreg g0 hg0)]
        rfl
      · intro x hx
        rw [e1, List.mem_append, List.mem_cons] at hx
        rcases hx with hx | rfl | hx
        · exact ⟨x, by rw [e4]; simp [hx], rfl, fun o h => h⟩
        · exact ⟨{ x with observers := x.observers ++ [id] }, by rw [e4]; simp, rfl, fun o h => by simp [h]⟩
        · exact ⟨x, by rw [e4]; simp [hx], rfl, fun o h => h⟩
      · refine ⟨{ m with observers := m.observers ++ [id] }, by rw [e4]; simp, by simp, g0, hreg g0 hg0, hp0, ?_, ?_, rfl⟩
        · simp only at hp0 hs0; omega
        · simp only at hp0 hs0; omega
      · intro x hx o hoo
        rw [e4, List.mem_append, List.mem_cons] at hx
        rcases hx with hx | rfl | hx
        · exact Or.inl ⟨x, by rw [e1]; simp [hx], rfl, rfl, hoo⟩
        · rcases List.mem_append.1 hoo with h' | h'
          · exact Or.inl ⟨m, hmw, rfl, rfl, h'⟩
          · exact Or.inr ⟨by simpa using h', e2.1, e2.2.2⟩
        · exact Or.inl ⟨x, by rw [e1]; simp [hx], rfl, rfl, hoo⟩
  | none =>
      have hc := attachFirst_none id ptr size w.maps ha
      have hnot : ¬ ∃ r ∈ w.reg, r.ptr ≤ ptr ∧ ptr < r.ptr + r.size ∧ ptr + size ≤ r.ptr + r.size := by
        rintro ⟨r, hr, h1⟩
        obtain ⟨m, hm, he⟩ := List.mem_map.1 (h.good.r2m r hr)
        have h2 := hc m hm
        rw [← Bool.not_eq_true, covers_iff] at h2
        have e1 := congrArg Prod.fst he; have e2 := congrArg Prod.snd he
        simp only at e1 e2
        rw [e1, e2] at h2
        exact h2 h1
      by_cases hb : (refuse || size == 0 || w.reg.any fun r => rangesOverlap r.ptr r.size ptr size) = true
      · left
        refine ⟨?_, by simp only [hostRegister, hb, if_true]⟩
        rintro (h1 | ⟨h1, h2, h3⟩)
        · exact hnot h1
        · rw [Bool.or_eq_true, Bool.or_eq_true, h1, beq_iff_eq, List.any_eq_true] at hb
          rcases hb with (hb | hb) | ⟨r, hr, hb⟩
          · exact absurd hb (by decide)
          · omega
          · rw [h3 r hr] at hb; exact absurd hb (by decide)
      · right
        have hb' := hb
        rw [Bool.or_eq_true, Bool.or_eq_true, beq_iff_eq, List.any_eq_true] at hb
        push Not at hb
        obtain ⟨⟨hb1, hb2⟩, hb3⟩ := hb
        have hb3' : ∀ r ∈ w.reg, rangesOverlap r.ptr r.size ptr size = false := fun r hr => by simpa using hb3 r hr
        have hg : Good (keys (w.maps ++ [⟨ptr, size, [id]⟩])) (w.reg ++ [⟨ptr, size, dev⟩]) := by
          refine ⟨?_, ?_, ?_, ?_, ?_⟩
          · intro r hr
            rcases List.mem_append.1 hr with hr | hr
            · exact h.good.pos r hr
            · rw [List.mem_singleton.1 hr]; show 0 < size; omega
          · rw [List.pairwise_append]
            refine ⟨h.good.disj, by simp, fun a ha b hb => ?_⟩
            rw [List.mem_singleton.1 hb]; exact hb3' a ha
          · intro k hk
            rw [keys, List.map_append, List.mem_append] at hk
            rcases hk with hk | hk
            · obtain ⟨r, hr, h1⟩ := h.good.m2r k hk
              exact ⟨r, by simp [hr], h1⟩
            · simp only [List.map_cons, List.map_nil, List.mem_singleton] at hk
              exact ⟨⟨ptr, size, dev⟩, by simp, by rw [hk], by rw [hk]⟩
          · intro r hr
            rw [keys, List.map_append]
            rcases List.mem_append.1 hr with hr | hr
            · exact List.mem_append_left _ (h.good.r2m r hr)
            · rw [List.mem_singleton.1 hr]; simp
          · rw [keys, List.map_append, List.map_append, List.nodup_append]
            refine ⟨h.good.nodup, by simp, ?_⟩
            intro a ha b hb hab
            simp only [List.map_cons, List.map_nil, List.mem_singleton] at hb
            obtain ⟨k, hk, rfl⟩ := List.mem_map.1 ha
            obtain ⟨r, hr, h1, h2⟩ := h.good.m2r k hk
            have h3 := hb3' r hr
            have := h.good.pos r hr
            unfold rangesOverlap at h3; rw [decide_eq_false_iff_not] at h3
            omega
        have ho : ∀ x ∈ w.maps ++ [⟨ptr, size, [id]⟩], x.observers ≠ [] := by
          intro x hx
          rcases List.mem_append.1 hx with hx | hx
          · exact h.obs x hx
          · rw [List.mem_singleton.1 hx]; simp
        obtain ⟨reg', n1, n2, n3⟩ := notify_good hg
        rw [hall _ ho] at n1 n2
        have hreg : ∀ r ∈ w.reg ++ [⟨ptr, size, dev⟩], r ∈ reg' := by
          intro r hr
          rw [n3]
          refine ⟨hr, ?_⟩
          obtain ⟨x, hx, he⟩ := List.mem_map.1 (hg.r2m r hr)
          exact ⟨x, hx, congrArg Prod.fst he, ho x hx⟩
        refine ⟨Or.inr ⟨by simpa using hb1, by omega, hb3'⟩, dev + (ptr - ptr), _, reg', ?_, n2, ho, ?_, ?_, ?_, ?_⟩
        · simp only [hostRegister, hb', Bool.false_eq_true, if_false]
          rw [n1]
          simp only [Outcome.ok_bind]
          have := gpuPointer_ok n2 (hreg ⟨ptr, size, dev⟩ (by simp)) ptr
          simp only at this
          rw [this]
          rfl
        · intro x hx
          exact ⟨x, by simp [hx], rfl, fun o h => h⟩
        · intro r hr; exact hreg r (by simp [hr])
        · exact ⟨⟨ptr, size, [id]⟩, by simp, by simp, ⟨ptr, size, dev⟩, hreg _ (by simp), rfl, Nat.le_refl _, Nat.le_refl _, rfl⟩
        · intro x hx o hoo
          rcases List.mem_append.1 hx with hx | hx
          · exact Or.inl ⟨x, hx, rfl, rfl, hoo⟩
          · rw [List.mem_singleton.1 hx] at hoo ⊢
            exact Or.inr ⟨by simpa using hoo, Nat.le_refl _, Nat.le_refl _⟩

/-- What `detach` does. -/
theorem detach_ok (id : Nat) (w : GpuWorld) (h : Inv w) :
    ∃ maps reg, detach id w.maps w.reg = .ok (maps, reg) ∧ Good (keys maps) reg ∧ (∀ m ∈ maps, m.observers ≠ []) ∧
      (∀ m ∈ w.maps, ∀ o ∈ m.observers, o ≠ id → ∃ m' ∈ maps, m'.ptr = m.ptr ∧ o ∈ m'.observers ∧
        ∀ r ∈ w.reg, r.ptr = m.ptr → r ∈ reg) ∧
      (∀ m' ∈ maps, ∀ o ∈ m'.observers, o ≠ id ∧ ∃ m ∈ w.maps, m.ptr = m'.ptr ∧ m.size = m'.size ∧ o ∈ m.observers) := by
  have hk : keys (w.maps.map fun m => { m with observers := m.observers.filter fun o => o != id }) = keys w.maps := by
    simp [keys, Function.comp_def]
  obtain ⟨reg', n1, n2, n3⟩ := notify_good (maps := w.maps.map fun m => { m with observers := m.observers.filter fun o => o != id })
    (reg := w.reg) (by rw [hk]; exact h.good)
  refine ⟨_, reg', n1, n2, ?_, ?_, ?_⟩
  · intro m hm
    have := (List.mem_filter.1 hm).2
    intro he; rw [he] at this; exact absurd this (by decide)
  · intro m hm o hoo hne
    have hmem : (⟨m.ptr, m.size, m.observers.filter fun o => o != id⟩ : Mapping) ∈
        w.maps.map fun m => { m with observers := m.observers.filter fun o => o != id } := List.mem_map.2 ⟨m, hm, rfl⟩
    have hof : o ∈ m.observers.filter fun o => o != id := List.mem_filter.2 ⟨hoo, by simpa using hne⟩
    refine ⟨⟨m.ptr, m.size, m.observers.filter fun o => o != id⟩, List.mem_filter.2 ⟨hmem, ?_⟩, rfl, hof, ?_⟩
    · have : (m.observers.filter fun o => o != id) ≠ [] := List.ne_nil_of_mem hof
      rw [ne_eq, ← List.isEmpty_iff] at this
      simpa using this
    · intro r hr hp
      rw [n3]
      exact ⟨hr, _, hmem, hp.symm, List.ne_nil_of_mem hof⟩
  · intro m' hm' o hoo
    obtain ⟨m, hm, rfl⟩ := List.mem_map.1 (List.mem_filter.1 hm').1
    have := List.mem_filter.1 hoo
    exact ⟨by simpa using this.2, m, hm, rfl, rfl, this.1⟩

theorem inv_init : Inv GpuWorld.init :=
  ⟨⟨by simp [GpuWorld.init], by simp [GpuWorld.init], by simp [GpuWorld.init, keys], by simp [GpuWorld.init],
    by simp [GpuWorld.init, keys]⟩, by simp [GpuWorld.init], by simp [GpuWorld.init]⟩

/-- Every operation that can happen ends normally and keeps the invariant. -/
theorem step_inv {w : GpuWorld} (h : Inv w) {op : GpuOp} (ha : w.allowed op) : ∃ w', w.step op = .ok w' ∧ Inv w' := by
  cases op with
  | newBuffer p n => exact ⟨_, rfl, ⟨h.good, h.obs, h.view⟩⟩
  | freeBuffer p n => exact ⟨_, rfl, ⟨h.good, h.obs, h.view⟩⟩
  | create id ptr size dev refuse oom =>
      rcases attach_ok refuse dev id ptr size w h with ⟨-, e⟩ | ⟨-, p, maps, reg, e, hg, ho, hm, hr, hnew, -⟩
      · refine ⟨w, ?_, h⟩
        simp only [GpuWorld.step, e, Outcome.ok_bind]; rfl
      · refine ⟨_, by simp only [GpuWorld.step, e, Outcome.ok_bind]; rfl, hg, ho, ?_⟩
        have hold : ∀ v ∈ w.views, ∃ m ∈ maps, v.id ∈ m.observers ∧ ∃ r ∈ reg, r.ptr = m.ptr ∧ r.ptr ≤ v.ptr ∧
            v.ptr + v.size ≤ r.ptr + r.size ∧ v.dev = r.dev + (v.ptr - r.ptr) := by
          intro v hv
          obtain ⟨m, h1, h2, r, h3, h4, h5⟩ := h.view v hv
          obtain ⟨m', h6, h7, h8⟩ := hm m h1
          exact ⟨m', h6, h8 _ h2, r, hr r h3, by rw [h4, h7], h5⟩
        intro v hv
        cases oom
        · rcases List.mem_cons.1 hv with rfl | hv
          · exact hnew
          · exact hold v hv
        · exact hold v hv
  | destroy id =>
      obtain ⟨maps, reg, e, hg, ho, hm, -⟩ := detach_ok id w h
      refine ⟨_, by simp only [GpuWorld.step, e, Outcome.ok_bind]; rfl, hg, ho, ?_⟩
      intro v hv
      obtain ⟨hv, hid⟩ := List.mem_filter.1 hv
      obtain ⟨m, h1, h2, r, h3, h4, h5⟩ := h.view v hv
      obtain ⟨m', h6, h7, h8, h9⟩ := hm m h1 v.id h2 (by simpa using hid)
      exact ⟨m', h6, h8, r, h9 r h3 h4, by rw [h4, h7], h5⟩

theorem reachable_inv {oom : Bool} {w : GpuWorld} (h : Reachable oom w) : Inv w := by
  induction h with
  | init => exact inv_init
  | step _ ha _ hs ih =>
      obtain ⟨w', e, hi⟩ := step_inv ih ha
      rw [e] at hs
      obtain rfl := Outcome.ok.inj hs
      exact hi

/-- The observers of a mapping are views of its memory that exist. -/
def Owned (w : GpuWorld) : Prop :=
  ∀ m ∈ w.maps, ∀ o ∈ m.observers, ∃ v ∈ w.views, v.id = o ∧ m.ptr ≤ v.ptr ∧ v.ptr + v.size ≤ m.ptr + m.size

theorem reachable_owned {w : GpuWorld} (h : Reachable false w) : Owned w := by
  induction h with
  | init => intro m hm; simp [GpuWorld.init] at hm
  | @step w w' op hr ha hoom hs ih =>
      have hi := reachable_inv hr
      cases op with
      | newBuffer p n => obtain rfl := Outcome.ok.inj hs; exact ih
      | freeBuffer p n => obtain rfl := Outcome.ok.inj hs; exact ih
      | create id ptr size dev refuse oom =>
          cases oom with
          | true => exact absurd (hoom rfl) (by decide)
          | false =>
              rcases attach_ok refuse dev id ptr size w hi with ⟨-, e⟩ | ⟨-, p, maps, reg, e, -, -, -, -, -, hback⟩
              · simp only [GpuWorld.step, e, Outcome.ok_bind] at hs
                obtain rfl := Outcome.ok.inj hs; exact ih
              · simp only [GpuWorld.step, e, Outcome.ok_bind] at hs
                obtain rfl := Outcome.ok.inj hs
                intro m hm o hoo
                rcases hback m hm o hoo with ⟨m0, h1, h2, h3, h4⟩ | ⟨h1, h2⟩
                · obtain ⟨v, hv, h5⟩ := ih m0 h1 o h4
                  exact ⟨v, List.mem_cons_of_mem _ hv, by rw [← h2, ← h3]; exact h5⟩
                · exact ⟨⟨id, ptr, size, p⟩, List.mem_cons_self, h1.symm, h2⟩
      | destroy id =>
          obtain ⟨maps, reg, e, -, -, -, hback⟩ := detach_ok id w hi
          simp only [GpuWorld.step, e, Outcome.ok_bind] at hs
          obtain rfl := Outcome.ok.inj hs
          intro m hm o hoo
          obtain ⟨hne, m0, h1, h2, h3, h4⟩ := hback m hm o hoo
          obtain ⟨v, hv, h5, h6⟩ := ih m0 h1 o h4
          refine ⟨v, List.mem_filter.2 ⟨hv, ?_⟩, h5, by rw [← h2, ← h3]; exact h6⟩
          rw [bne_iff_ne, h5]; exact hne

end Einsums.Proofs
