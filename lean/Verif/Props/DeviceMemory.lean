import Verif.Proofs.DeviceMemory
import Mathlib.Algebra.BigOperators.Group.List.Basic
import Mathlib.Algebra.BigOperators.Ring.List

/-
C163: the memory of device tensors and device views is released exactly once.
-/
namespace Einsums.Props
open Spec Model

theorem countOf_eq (ds : List Nat) : countOf ds = ds.prod := by
  unfold countOf
  rw [List.prod_eq_foldl]

/-- Every statement of the proved part keeps the books. -/
theorem step_accounted {P : DevProgram} (hP : Accounted P) {s : DevStmt} (hs : Plain P s) :
    ∃ P', (P.step s = .returns P' ∨ P.step s = .throws P') ∧ Accounted P' ∧
      (ShapesShown P → KeepsShape P s → ShapesShown P') := by
  have shown_put : ∀ {x : Nat} {h : DevHeap} {t : DevObject}, (t.mode ≠ .notInitialized → t.gshape = t.dims) → ShapesShown P →
      ShapesShown ⟨h, P.objs.set x (some (.tensor t))⟩ := by
    intro x h t ht hP u hu hm
    rcases List.mem_or_eq_of_mem_set hu with h | h
    · exact hP u h hm
    · simp only [Option.some.injEq, DevObj.tensor.injEq] at h
      rw [h] at hm ⊢
      exact ht hm
  have shown_add : ∀ {h : DevHeap} {o : Option DevObj}, (∀ t, o = some (.tensor t) → t.mode ≠ .notInitialized → t.gshape = t.dims) →
      ShapesShown P → ShapesShown ⟨h, P.objs ++ [o]⟩ := by
    intro h o ht hP u hu hm
    rw [List.mem_append, List.mem_singleton] at hu
    exact hu.elim (fun h => hP u h hm) fun h => ht u h.symm hm
  have shown_drop : ∀ {x : Nat} {h : DevHeap}, ShapesShown P → ShapesShown ⟨h, P.objs.set x none⟩ := by
    intro x h hP u hu hm
    rcases List.mem_or_eq_of_mem_set hu with h | h
    · exact hP u h hm
    · cases h
  cases s with
  | declare junk =>
      refine ⟨_, .inl rfl, hP.add hP.1 ?_, fun h _ => shown_add ?_ h⟩
      · intro t ht
        cases ht
        exact .inl ⟨rfl, rfl, rfl, rfl⟩
      · intro t ht hm
        cases ht
        exact (hm rfl).elim
  | create mode dims =>
      obtain ⟨hm, hd⟩ := hs
      obtain ⟨s, e, h1, h2, h3, h4⟩ := create_holding hP.1 hm hd
      refine ⟨_, .inl ?_, hP.add (o := some (.tensor s.2)) h1.1 ?_, fun h _ => shown_add ?_ h⟩
      · simp only [DevProgram.step, e, DevProgram.construct]
      · intro t ht; cases ht; exact h1.2
      · intro t ht _; cases ht; exact h2
  | copy y =>
      simp only [DevProgram.step]
      cases hy : P.at y with
      | none => exact ⟨P, .inl rfl, hP, fun h _ => h⟩
      | some o =>
        cases o with
        | view v => exact ⟨P, .inl rfl, hP, fun h _ => h⟩
        | tensor t =>
            have ho := hP.2 t (at_mem hy)
            have hl : ∀ r ∈ t.owned, r ∈ P.objs.flatMap ownedBy := fun r hr => List.mem_flatMap.2 ⟨_, at_mem hy, hr⟩
            rcases initFrom_holding hP.1 ho hl [] [] with ⟨_, e⟩ | ⟨_, s, e, h1, h2, h3⟩
            · refine ⟨_, .inr ?_, hP.add (h := P.heap) (o := none) hP.1 ?_, fun h _ => shown_add ?_ h⟩
              · simp only [e, DevProgram.construct]
              · intro t ht; cases ht
              · intro t ht; cases ht
            · refine ⟨_, .inl ?_, hP.add (o := some (.tensor s.2)) h1.1 ?_, fun h _ => shown_add ?_ h⟩
              · simp only [e, DevProgram.construct]
              · intro t ht; cases ht; exact h1.2
              · intro t ht _; cases ht; exact h2
  | reshape y req => exact hs.elim
  | assign x y =>
      simp only [DevProgram.step]
      cases hx : P.at x with
      | none => exact ⟨P, .inl rfl, hP, fun h _ => h⟩
      | some o =>
        cases o with
        | view v => exact ⟨P, .inl rfl, hP, fun h _ => h⟩
        | tensor t =>
          cases hy : P.at y with
          | none => exact ⟨P, .inl rfl, hP, fun h _ => h⟩
          | some o =>
            cases o with
            | view v => exact ⟨P, .inl rfl, hP, fun h _ => h⟩
            | tensor u =>
                have hu := hs.1 u hy
                obtain ⟨hall, hrank⟩ := hs.2 u hy t hx
                have su := hP.2 u (at_mem hy)
                have st := hP.2 t (at_mem hx)
                have hp := hP.split hx
                simp only [ownedBy] at hp
                by_cases hm : t.mode = .notInitialized
                · have hxy : x ≠ y := by
                    intro e
                    rw [e, hy] at hx
                    cases hx
                    exact hu hm
                  have hl := at_rest hy hxy
                  obtain ⟨td, mode, host, data, gdims, gs⟩ := t
                  simp only at hm
                  subst hm
                  rcases st with ⟨_, a, b, c⟩ | ⟨st, _⟩
                  swap
                  · exact st.elim
                  simp only at a b c
                  subst a b c
                  rcases initFrom_holding (F := (P.objs.set x none).flatMap ownedBy) (by simpa [DevObject.owned] using hp) su hl td gs with ⟨e, _⟩ | ⟨_, s, e, h1, h2, h3⟩
                  · exact (hu e).elim
                  · refine ⟨_, .inl ?_, hP.put (at_lt hx) h1, fun h _ => shown_put (fun _ => h2) h⟩
                    simp only [assignDevice, if_true, e, DevProgram.update]
                · obtain ⟨s, e, h1, h2, _, h3⟩ := assignFrom_holding hp st hm su hu (decide (x = y)) hall hrank (by
                    by_cases hxy : x = y
                    · simp only [hxy, decide_true, if_true]
                      rw [hxy, hy] at hx
                      cases hx
                      rfl
                    · simp only [hxy, decide_false, Bool.false_eq_true, if_false]
                      exact at_rest hy hxy)
                  refine ⟨_, .inl ?_, hP.put (at_lt hx) h1, fun h _ => shown_put (fun _ => h3 (h t (at_mem hx) hm)) h⟩
                  simp only [assignDevice, hm, if_false, e, DevProgram.update]
  | assignCore x dims =>
      simp only [DevProgram.step]
      cases hx : P.at x with
      | none => exact ⟨P, .inl rfl, hP, fun h _ => h⟩
      | some o =>
        cases o with
        | view v => exact ⟨P, .inl rfl, hP, fun h _ => h⟩
        | tensor t =>
            obtain ⟨s, e, h1, h2, h3⟩ := assignCore_holding (hP.split hx) (hP.2 t (at_mem hx)) (hs t hx).1
            refine ⟨⟨s.1, P.objs.set x (some (.tensor s.2))⟩, ?_, hP.put (at_lt hx) h1, fun h _ => shown_put (fun hm => ?_) h⟩
            · rcases e with e | e <;> simp [e, DevProgram.update]
            · rw [h2] at hm
              exact (h3 hm).2.1 (h t (at_mem hx) hm)
  | resize x dims =>
      simp only [DevProgram.step]
      cases hx : P.at x with
      | none => exact ⟨P, .inl rfl, hP, fun h _ => h⟩
      | some o =>
        cases o with
        | view v => exact ⟨P, .inl rfl, hP, fun h _ => h⟩
        | tensor t =>
            obtain ⟨s, e, h1, h2, h3⟩ := resize_holding (hP.split hx) (hP.2 t (at_mem hx)) (hs t hx).1
            refine ⟨⟨s.1, P.objs.set x (some (.tensor s.2))⟩, ?_, hP.put (at_lt hx) h1, fun h hk => shown_put (fun hm => ?_) h⟩
            · rcases e with e | e <;> simp [e, DevProgram.update]
            · rw [h2] at hm
              refine (h3 hm).2.2 (h t (at_mem hx) hm) ?_
              rw [countOf_eq, countOf_eq]
              exact (hk t hx).imp id fun h => h.symm
  | view y =>
      simp only [DevProgram.step]
      cases hy : P.at y with
      | none => exact ⟨P, .inl rfl, hP, fun h _ => h⟩
      | some o =>
          refine ⟨_, .inl rfl, hP.add ?_ ?_, fun h _ => shown_add ?_ h⟩
          · simp only [viewOf, DevHeap.alloc, ownedBy, DevViewObject.owned, Option.toList_none, List.map_nil, List.cons_append, List.nil_append]
            exact hP.1.cons _
          · intro t ht; cases ht
          · intro t ht; cases ht
  | copyView y size => exact hs.elim
  | map p size =>
      obtain ⟨h0, hn⟩ := hs
      have hf : (MemKind.foreign, p) ∉ P.heap.live := by
        intro hm
        obtain ⟨o, ho, hr⟩ := List.mem_flatMap.1 (hP.1.subset hm)
        cases o with
        | none => cases hr
        | some o =>
          cases o with
          | tensor t =>
              simp only [ownedBy, DevObject.owned, List.mem_append, List.mem_map, reduceCtorEq, Prod.mk.injEq, false_and, and_false, exists_false, or_false] at hr
              cases e : t.mode <;> simp [e] at hr
          | view v =>
              simp only [ownedBy, DevViewObject.owned, List.mem_cons, Prod.mk.injEq, reduceCtorEq, false_and, false_or, List.mem_map,
                true_and, exists_eq_right, Option.mem_toList] at hr
              exact hn v ho hr
      refine ⟨_, .inl ?_, hP.add (h := (P.heap.alloc .device).register .foreign p) (o := some (.view ⟨P.heap.next, some p⟩)) ?_ ?_,
        fun h _ => shown_add ?_ h⟩
      · simp only [DevProgram.step, mapCore, Nat.pos_iff_ne_zero.1 h0, hf, or_self, if_false]
        rfl
      · simp only [DevHeap.alloc, DevHeap.register, ownedBy, DevViewObject.owned, Option.toList_some, List.map_cons, List.map_nil,
          List.cons_append, List.nil_append]
        exact ((hP.1.cons _).cons _).trans (List.Perm.swap _ _ _)
      · intro t ht; cases ht
      · intro t ht; cases ht
  | destroy x =>
      simp only [DevProgram.step]
      cases hx : P.at x with
      | none => exact ⟨P, .inl rfl, hP, fun h _ => h⟩
      | some o =>
        cases o with
        | view v =>
            obtain ⟨h, e, h1⟩ := destroyView_holding (hP.split hx)
            refine ⟨_, .inl ?_, hP.drop h1, fun h _ => shown_drop h⟩
            simp only [e]
        | tensor t =>
            obtain ⟨s, e, h1⟩ := destroy_holding (hP.split hx) (hP.2 t (at_mem hx))
            refine ⟨_, .inl ?_, hP.drop h1, fun h _ => shown_drop h⟩
            simp only [e]

/-- The run of a program of the proved part. -/
theorem run_accounted (prog : List DevStmt) {P : DevProgram} (hP : Accounted P) (h : Each Plain prog P) :
    ∃ P', DevProgram.run prog P = some P' ∧ Accounted P' := by
  induction prog generalizing P with
  | nil => exact ⟨P, rfl, hP⟩
  | cons s ss ih =>
      obtain ⟨P', e, hP', _⟩ := step_accounted hP h.1
      obtain ⟨Q, eQ, hQ⟩ := ih hP' (h.2 P' e)
      refine ⟨Q, ?_, hQ⟩
      unfold DevProgram.run
      rcases e with e | e <;> rw [e] <;> exact eQ

/-- One object is destroyed, the others are as before. -/
theorem destroy_accounted {P : DevProgram} (hP : Accounted P) (x : Nat) :
    ∃ P', P.step (.destroy x) = .returns P' ∧ Accounted P' ∧ P'.at x = none ∧ ∀ y, y ≠ x → P'.at y = P.at y := by
  simp only [DevProgram.step]
  have hat : ∀ (h : DevHeap), (⟨h, P.objs.set x none⟩ : DevProgram).at x = none ∧
      ∀ y, y ≠ x → (⟨h, P.objs.set x none⟩ : DevProgram).at y = P.at y := by
    intro h
    refine ⟨?_, fun y hy => ?_⟩
    · unfold DevProgram.at
      rw [List.getElem?_set_self']
      cases P.objs[x]? <;> rfl
    · unfold DevProgram.at
      rw [List.getElem?_set_ne (Ne.symm hy)]
  cases hx : P.at x with
  | none => exact ⟨P, rfl, hP, hx, fun _ _ => rfl⟩
  | some o =>
    cases o with
    | view v =>
        obtain ⟨h, e, h1⟩ := destroyView_holding (hP.split hx)
        exact ⟨_, by simp only [e], hP.drop h1, hat h⟩
    | tensor t =>
        obtain ⟨s, e, h1⟩ := destroy_holding (hP.split hx) (hP.2 t (at_mem hx))
        exact ⟨_, by simp only [e], hP.drop h1, hat s.1⟩

theorem destroyAll_accounted (order : List Nat) {P : DevProgram} (hP : Accounted P) :
    ∃ P', DevProgram.run (destroyAll order) P = some P' ∧ Accounted P' ∧
      ∀ y o, P'.at y = some o → y ∉ order ∧ P.at y = some o := by
  induction order generalizing P with
  | nil => exact ⟨P, rfl, hP, fun y o h => ⟨List.not_mem_nil, h⟩⟩
  | cons x order ih =>
      obtain ⟨Q, e, hQ, h1, h2⟩ := destroy_accounted hP x
      obtain ⟨P', e', hP', h3⟩ := ih hQ
      refine ⟨P', ?_, hP', ?_⟩
      · simp only [destroyAll, List.map_cons, DevProgram.run, e]
        exact e'
      · intro y o hy
        obtain ⟨h4, h5⟩ := h3 y o hy
        have hxy : y ≠ x := by
          intro e
          rw [e, h1] at h5
          cases h5
        exact ⟨by simp [hxy, h4], by rw [← h2 y hxy]; exact h5⟩

theorem accounted_init : Accounted .init := ⟨List.Perm.nil, fun t h => by cases h⟩

/-- **C163 (partial).** In a program that declares, creates, copies, assigns, resizes and destroys device tensors of every storage mode, with
views of them and views that map memory in core, no memory is released twice or used after its release, a kernel can work on every
tensor that is initialised and not empty, and when the objects have been destroyed, in whatever order, no memory is left.  Missing: reshaping, copies of
views, empty tensors that are mapped or pinned, and memory in core that two views map (refuted below). -/
theorem C163_released_partial (prog : List DevStmt) (h : Each Plain prog .init) :
    ∃ P, DevProgram.run prog .init = some P ∧ TensorsUsable P ∧
      ∀ order, Covers order P → ∃ P', DevProgram.run (destroyAll order) P = some P' ∧ P'.heap.live = [] := by
  obtain ⟨P, e, hP⟩ := run_accounted prog accounted_init h
  refine ⟨P, e, ?_, ?_⟩
  · intro t ht hm hd
    refine sound_usable (hP.2 t ht) hm hd fun r hr => hP.1.symm.subset (List.mem_flatMap.2 ⟨_, ht, hr⟩)
  · intro order ho
    obtain ⟨P', e', hP', h'⟩ := destroyAll_accounted order hP
    refine ⟨P', e', ?_⟩
    have hnone : ∀ o ∈ P'.objs, o = none := by
      intro o hm
      obtain ⟨i, hi⟩ := List.getElem?_of_mem hm
      cases o with
      | none => rfl
      | some o =>
          have : P'.at i = some o := by simp [DevProgram.at, hi]
          obtain ⟨h1, h2⟩ := h' i o this
          exact (h1 (ho i o h2)).elim
    have hnil : P'.objs.flatMap ownedBy = [] := by
      rw [List.flatMap_eq_nil_iff]
      intro o hm
      rw [hnone o hm]
      rfl
    have := hP'.1
    rw [hnil] at this
    exact this.eq_nil

theorem each_cons {C : DevProgram → DevStmt → Prop} {P P1 : DevProgram} {s : DevStmt} {ss : List DevStmt} (hs : C P s)
    (e : P.step s = .returns P1) (h : Each C ss P1) : Each C (s :: ss) P := by
  refine ⟨hs, ?_⟩
  rintro P' (e' | e') <;> rw [e] at e' <;> cases e'
  exact h

/-- A program of the proved part with all its statements (also one that C163_shapes_partial is about). -/
example : Each (fun P s => Plain P s ∧ KeepsShape P s) [.declare [7, 7], .create .mapped [2, 3], .assign 0 1, .resize 1 [4, 4],
      .assign 1 0, .copy 1, .create .deviceOnly [5], .view 3, .map 9 6, .assignCore 2 [3, 3], .assign 1 1, .destroy 4, .resize 3 [0]] .init := by
  have p23 : Positive [2, 3] := by simp [Positive]
  refine each_cons ⟨trivial, trivial⟩ (by rfl) ?_
  refine each_cons ⟨⟨by decide, fun _ => p23⟩, trivial⟩ (by rfl) ?_
  refine each_cons ⟨⟨fun t ht => by cases ht; decide, fun u hu t ht => by cases ht; cases hu; exact ⟨fun _ => p23, rfl⟩⟩, trivial⟩ (by rfl) ?_
  refine each_cons ⟨fun t ht => by cases ht; exact ⟨fun _ => by simp [Positive], rfl⟩, fun t ht => by cases ht; right; decide⟩ (by rfl) ?_
  refine each_cons ⟨⟨fun t ht => by cases ht; decide, fun u hu t ht => by cases ht; cases hu; exact ⟨fun _ => p23, rfl⟩⟩, trivial⟩ (by rfl) ?_
  refine each_cons ⟨trivial, trivial⟩ (by rfl) ?_
  refine each_cons ⟨⟨by decide, fun _ => by simp [Positive]⟩, trivial⟩ (by rfl) ?_
  refine each_cons ⟨trivial, trivial⟩ (by rfl) ?_
  refine each_cons ⟨⟨by decide, fun v hv => ?_⟩, trivial⟩ (by rfl) ?_
  · revert hv
    simp [DevProgram.init, viewOf]
    rintro rfl
    decide
  refine each_cons ⟨fun t ht => by cases ht; exact ⟨fun _ => by simp [Positive], rfl⟩, trivial⟩ (by rfl) ?_
  refine each_cons ⟨⟨fun t ht => by cases ht; decide, fun u hu t ht => by cases ht; cases hu; exact ⟨fun _ => p23, rfl⟩⟩, trivial⟩ (by rfl) ?_
  refine each_cons ⟨trivial, trivial⟩ (by rfl) ?_
  refine each_cons ⟨fun t ht => by cases ht; exact ⟨fun h => by simp at h, rfl⟩, fun t ht => by cases ht; right; decide⟩ (by rfl) ?_
  trivial

example : (DevProgram.run [.declare [7, 7], .create .mapped [2, 3], .assign 0 1, .resize 1 [4, 4], .assign 1 0, .copy 1,
      .create .deviceOnly [5], .view 3, .map 9 6, .assignCore 2 [3, 3], .assign 1 1] .init).map
        (fun P => (P.objs.length, P.heap.live.length)) = some (6, 14) := by
  decide

/-- **C163 (shapes, partial).** The kernels that work on the tensors of such a program see the dimensions that the tensors report.  Missing: a
`resize` that changes the shape and keeps the number of elements (refuted below). -/
theorem C163_shapes_partial (prog : List DevStmt) (h : Each (fun P s => Plain P s ∧ KeepsShape P s) prog .init) :
    ∃ P, DevProgram.run prog .init = some P ∧ ShapesShown P := by
  have key : ∀ (prog : List DevStmt) (P : DevProgram), Accounted P → ShapesShown P → Each (fun P s => Plain P s ∧ KeepsShape P s) prog P →
      ∃ P', DevProgram.run prog P = some P' ∧ ShapesShown P' := by
    intro prog
    induction prog with
    | nil => intro P _ hs _; exact ⟨P, rfl, hs⟩
    | cons s ss ih =>
        intro P hP hs h
        obtain ⟨P', e, hP', h'⟩ := step_accounted hP h.1.1
        obtain ⟨Q, eQ, hQ⟩ := ih P' hP' (h' hs h.1.2) (h.2 P' e)
        refine ⟨Q, ?_, hQ⟩
        unfold DevProgram.run
        rcases e with e | e <;> rw [e] <;> exact eQ
  exact key prog .init accounted_init (fun t h => by cases h) h

/-- **C163 (shapes, refuted).** After a `resize` to another shape with the same number of elements the kernels see the old shape. -/
theorem C163_shapes_refuted (mode : DeviceMode) (hm : mode ≠ .notInitialized) (dims dims' : List Nat) (hd : Positive dims)
    (hne : dims ≠ dims') (hc : dims.prod = dims'.prod) :
    ∃ P t, DevProgram.run [.create mode dims, .resize 0 dims'] .init = some P ∧ P.at 0 = some (.tensor t) ∧
      t.dims = dims' ∧ t.gshape = dims := by
  obtain ⟨s, e, h1, h2, h3, h4⟩ := create_holding (h := ⟨0, []⟩) List.Perm.nil hm (fun _ => hd)
  refine ⟨⟨s.1, [some (.tensor { s.2 with dims := dims' })]⟩, { s.2 with dims := dims' }, ?_, rfl, rfl, by simp only; rw [h2, h3]⟩
  simp [DevProgram.run, DevProgram.step, DevProgram.init, e, DevProgram.construct, DevProgram.at, resizeTo, h3, hne.symm, countOf_eq, hc,
    DevProgram.update]

example : ([2, 3] : List Nat) ≠ [3, 2] ∧ ([2, 3] : List Nat).prod = ([3, 2] : List Nat).prod ∧ Positive [2, 3] := by
  refine ⟨by decide, by decide, ?_⟩
  simp [Positive]

/-- **C163 (reshaping, refuted).** Every accepted reshape of a device tensor loses the memory that holds the dimensions of the source: it is
still there when both tensors have been destroyed. -/
theorem C163_reshape_refuted (mode : DeviceMode) (hm : mode ≠ .notInitialized) (dims dims' : List Nat) (hd : Positive dims)
    (req : List ReqDim) (h : reshapeDims dims req = .ok dims') :
    ∃ P, DevProgram.run [.create mode dims, .reshape 0 req, .destroy 1, .destroy 0] .init = some P ∧ P.objs = [none, none] ∧
      P.heap.live = [(.device, 1)] := by
  have h0 := countOf_pos hd
  cases mode with
  | notInitialized => exact (hm rfl).elim
  | _ =>
      simp [DevProgram.run, DevProgram.step, DevProgram.init, DevProgram.construct, DevProgram.at, DevObject.create, takeData, h0,
        Did.andThen, newShape, DevHeap.alloc, DevHeap.register, reshapeDevice, h, destroyDevice, freePtr, DevHeap.release]

/-- **C163 (rejected reshaping, refuted).** A reshape that is rejected takes the elements away from the source, which keeps its dimensions, and
their memory and that of the dimensions is never released. -/
theorem C163_rejected_refuted (mode : DeviceMode) (hm : mode ≠ .notInitialized) (dims : List Nat) (hd : Positive dims)
    (req : List ReqDim) (m : String) (h : reshapeDims dims req = .error m) :
    ∃ P P' t, DevProgram.run [.create mode dims, .reshape 0 req] .init = some P ∧ P.at 0 = some (.tensor t) ∧
      t.dims = dims ∧ t.mode = mode ∧ t.usable P.heap = false ∧
      DevProgram.run [.destroy 0] P = some P' ∧ P'.objs = [none, none] ∧ 2 ≤ P'.heap.live.length := by
  have h0 := countOf_pos hd
  cases mode with
  | notInitialized => exact (hm rfl).elim
  | _ =>
      simp [DevProgram.run, DevProgram.step, DevProgram.init, DevProgram.construct, DevProgram.at, DevObject.create, takeData, h0,
        Did.andThen, newShape, DevHeap.alloc, DevHeap.register, reshapeDevice, h, destroyDevice, freePtr, DevObject.usable, DevObject.storage]

example : reshapeDims [2, 3] [.n 3, .auto] = .ok [3, 2] ∧ ∃ m, reshapeDims [2, 3] [.n 4, .auto] = .error m := ⟨by decide, _, rfl⟩

/-- **C163 (assignment after reshaping, refuted).** The source of an accepted reshape can be assigned to if its elements were pinned or on the
device; if they were mapped, the assignment throws, and assigning a tensor in core with its old dimensions writes through a null pointer
unless the elements were on the device. -/
theorem C163_moved_refuted (mode : DeviceMode) (hm : mode ≠ .notInitialized) (dims dims' : List Nat) (hd : Positive dims)
    (req : List ReqDim) (h : reshapeDims dims req = .ok dims') (hd' : Positive dims') :
    ∃ P, DevProgram.run [.create mode dims, .reshape 0 req] .init = some P ∧
      ((∃ P', P.step (.assign 0 1) = .returns P') ↔ mode ≠ .mapped) ∧
      ((∃ P', P.step (.assign 0 1) = .throws P') ↔ mode = .mapped) ∧
      ((∃ m, P.step (.assignCore 0 dims) = .bad m) ↔ mode ≠ .deviceOnly) := by
  have h0 := countOf_pos hd
  have h0' := countOf_pos hd'
  have hr := realloc_self hd
  cases mode with
  | notInitialized => exact (hm rfl).elim
  | _ =>
      simp [DevProgram.run, DevProgram.step, DevProgram.init, DevProgram.construct, DevProgram.at, DevObject.create, takeData, h0, h0',
        Did.andThen, newShape, DevHeap.alloc, DevHeap.register, reshapeDevice, h, freePtr, DevObject.usable, DevObject.storage,
        assignDevice, assignFrom, dropData, DevProgram.update, renewShape, copyKernel, assignCore, hr, storeElements]

/-- **C163 (copies of views, refuted).** Every copy of a device view of a tensor that is not empty loses the memory that it allocates for its
elements. -/
theorem C163_copied_view_refuted (mode : DeviceMode) (hm : mode ≠ .notInitialized) (dims : List Nat) (hd : Positive dims) (size : Nat)
    (hs : 0 < size) :
    ∃ P, DevProgram.run [.create mode dims, .view 0, .copyView 1 size, .destroy 2, .destroy 1, .destroy 0] .init = some P ∧
      P.objs = [none, none, none] ∧ P.heap.live = [(.device, 3)] := by
  have h0 := countOf_pos hd
  have hs' : size ≠ 0 := by omega
  cases mode with
  | notInitialized => exact (hm rfl).elim
  | _ =>
      simp [DevProgram.run, DevProgram.step, DevProgram.init, DevProgram.construct, DevProgram.at, DevObject.create, takeData, h0,
        Did.andThen, newShape, DevHeap.alloc, DevHeap.register, viewOf, copyOfView, hs', destroyDevice, destroyView, freePtr,
        DevHeap.release]

/-- **C163 (empty tensors, refuted).** A mapped tensor with a dimension 0 cannot be created, and the attempt loses memory; resizing a mapped
tensor to such dimensions throws, and destroying it then ends the program. -/
theorem C163_empty_refuted (dims empty : List Nat) (hd : Positive dims) (he : 0 ∈ empty) :
    (∃ P, DevProgram.run [.create .mapped empty] .init = some P ∧ P.objs = [none] ∧ P.heap.live = [(.heap, 0)]) ∧
    (∃ P P', DevProgram.run [.create .mapped dims] .init = some P ∧ P.step (.resize 0 empty) = .throws P' ∧
      DevProgram.run [.destroy 0] P' = none) := by
  have h0 := countOf_pos hd
  have h1 : countOf empty = 0 := by rw [countOf_eq, List.prod_eq_zero_iff]; exact he
  have hne : empty ≠ dims := by
    intro e
    rw [e] at he
    exact absurd (hd 0 he) (by omega)
  constructor
  · simp [DevProgram.run, DevProgram.step, DevProgram.init, DevProgram.construct, DevObject.create, takeData, h1,
      Did.andThen, DevHeap.alloc]
  · simp [DevProgram.run, DevProgram.step, DevProgram.init, DevProgram.construct, DevProgram.at, DevObject.create, takeData, h0, h1,
      Did.andThen, newShape, DevHeap.alloc, DevHeap.register, resizeTo, hne, Ne.symm h0, resizeData, dropData, freePtr, DevHeap.release,
      DevProgram.update, destroyDevice]

/-- **C163 (memory mapped twice, refuted).** Mapping memory in core that a view maps already throws and loses memory. -/
theorem C163_mapped_twice_refuted (p size : Nat) (hs : 0 < size) :
    ∃ P P' P'', DevProgram.run [.map p size] .init = some P ∧ P.step (.map p size) = .throws P' ∧
      DevProgram.run [.destroy 0] P' = some P'' ∧ P''.objs = [none, none] ∧ P''.heap.live = [(.device, 1)] := by
  have hs' : size ≠ 0 := by omega
  simp [DevProgram.run, DevProgram.step, DevProgram.init, mapCore, hs', DevHeap.alloc, DevHeap.register, DevProgram.at, destroyView,
    DevHeap.release]

/-- **C163 (shape of the result).** After a program of the proved part, resizing an initialised tensor returns, and it then has the dimensions
asked for. -/
theorem C163_resize_partial (prog : List DevStmt) (h : Each Plain prog .init) (x : Nat) (dims : List Nat)
    (P : DevProgram) (hd : MayBecome P x dims) (hP : DevProgram.run prog .init = some P) (t : DevObject) (hx : P.at x = some (.tensor t))
    (hm : t.mode ≠ .notInitialized) :
    ∃ P' t', P.step (.resize x dims) = .returns P' ∧ P'.at x = some (.tensor t') ∧ t'.dims = dims ∧ t'.mode = t.mode ∧
      (Positive dims → t'.usable P'.heap = true) := by
  obtain ⟨P0, e, hA⟩ := run_accounted prog accounted_init h
  rw [hP] at e
  cases e
  obtain ⟨s, _, h1, h2, h3⟩ := resize_holding (hA.split hx) (hA.2 t (at_mem hx)) (hd t hx).1
  obtain ⟨e, hdims, _⟩ := h3 hm
  refine ⟨⟨s.1, P.objs.set x (some (.tensor s.2))⟩, s.2, ?_, ?_, hdims, h2, ?_⟩
  · simp only [DevProgram.step, hx, e, DevProgram.update]
  · simp [DevProgram.at, at_lt hx]
  · intro hpos
    exact sound_usable h1.2 (by rw [h2]; exact hm) (by rw [hdims]; exact hpos) fun r hr => h1.1.symm.subset (List.mem_append_left _ hr)

/-- **C163 (assignment).** After a program of the proved part, assigning an initialised tensor to an initialised tensor returns, and the tensor
then has its dimensions and its own storage mode. -/
theorem C163_assign_partial (prog : List DevStmt) (h : Each Plain prog .init) (x y : Nat) (P : DevProgram)
    (hP : DevProgram.run prog .init = some P) (t u : DevObject) (hx : P.at x = some (.tensor t)) (hy : P.at y = some (.tensor u))
    (hm : t.mode ≠ .notInitialized) (hu : u.mode ≠ .notInitialized) (hd : MayBecome P x u.dims) :
    ∃ P' t', P.step (.assign x y) = .returns P' ∧ P'.at x = some (.tensor t') ∧ t'.dims = u.dims ∧ t'.mode = t.mode := by
  obtain ⟨P0, e, hA⟩ := run_accounted prog accounted_init h
  rw [hP] at e
  cases e
  obtain ⟨s, e, h1, h2, h3, _⟩ := assignFrom_holding (hA.split hx) (hA.2 t (at_mem hx)) hm (hA.2 u (at_mem hy)) hu (decide (x = y))
    (hd t hx).1 (hd t hx).2 (by
      by_cases hxy : x = y
      · simp only [hxy, decide_true, if_true]
        rw [hxy, hy] at hx
        cases hx
        rfl
      · simp only [hxy, decide_false, Bool.false_eq_true, if_false]
        exact at_rest hy hxy)
  refine ⟨⟨s.1, P.objs.set x (some (.tensor s.2))⟩, s.2, ?_, ?_, h3, h2⟩
  · simp only [DevProgram.step, hx, hy, assignDevice, hm, if_false, e, DevProgram.update]
  · simp [DevProgram.at, at_lt hx]

/-- **C163 (assignment of a tensor in core).** The same for a tensor in core. -/
theorem C163_assign_core_partial (prog : List DevStmt) (h : Each Plain prog .init) (x : Nat) (dims : List Nat) (P : DevProgram)
    (hP : DevProgram.run prog .init = some P) (t : DevObject) (hx : P.at x = some (.tensor t))
    (hm : t.mode ≠ .notInitialized) (hd : MayBecome P x dims) :
    ∃ P' t', P.step (.assignCore x dims) = .returns P' ∧ P'.at x = some (.tensor t') ∧ t'.dims = dims ∧ t'.mode = t.mode := by
  obtain ⟨P0, e, hA⟩ := run_accounted prog accounted_init h
  rw [hP] at e
  cases e
  obtain ⟨s, _, h1, h2, h3⟩ := assignCore_holding (hA.split hx) (hA.2 t (at_mem hx)) (hd t hx).1
  obtain ⟨e, _, hdims⟩ := h3 hm
  refine ⟨⟨s.1, P.objs.set x (some (.tensor s.2))⟩, s.2, ?_, ?_, hdims (hd t hx).2, h2⟩
  · simp only [DevProgram.step, hx, e, DevProgram.update]
  · simp [DevProgram.at, at_lt hx]

/-- **C163 (copies).** After a program of the proved part, a copy of an initialised tensor has its dimensions and storage mode, and the source is
as before. -/
theorem C163_copy_partial (prog : List DevStmt) (h : Each Plain prog .init) (y : Nat) (P : DevProgram)
    (hP : DevProgram.run prog .init = some P) (u : DevObject) (hy : P.at y = some (.tensor u)) (hu : u.mode ≠ .notInitialized) :
    ∃ P' t, P.step (.copy y) = .returns P' ∧ P'.objs = P.objs ++ [some (.tensor t)] ∧ t.dims = u.dims ∧ t.mode = u.mode := by
  obtain ⟨P0, e, hA⟩ := run_accounted prog accounted_init h
  rw [hP] at e
  cases e
  rcases initFrom_holding hA.1 (hA.2 u (at_mem hy)) (fun r hr => List.mem_flatMap.2 ⟨_, at_mem hy, hr⟩) [] [] with
    ⟨h, _⟩ | ⟨_, s, e, _, _, h1, h2⟩
  · exact (hu h).elim
  · refine ⟨⟨s.1, P.objs ++ [some (.tensor s.2)]⟩, s.2, ?_, rfl, h2, h1⟩
    simp only [DevProgram.step, hy, e, DevProgram.construct]

end Einsums.Props
