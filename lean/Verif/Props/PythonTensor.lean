import Verif.Proofs.PythonTensor
import Verif.Props.RuntimeTensor
/-
Properties C86–C90: subscripts, iterators and buffers of runtime tensors in Python.
-/
namespace Einsums.Props
open Spec Model

variable {α β : Type}

/-! ### C86: subscripts -/

/-- **C86 (elements, partial).** `v[k1, k2, ...]` with one integer per axis, none negative, is the element with that index,
and `v[k1, k2, ...] = x` changes this element and no other.
Missing: negative integers (refuted below). -/
theorem C86_element_partial (v : RtView α) (w : v.WF) (f : List Nat → α) (hf : v.view.Represents f) (ks : List Int)
    (js : List Nat) (hk : ∀ k ∈ ks, 0 ≤ k ∧ k < 2 ^ 63) (h : pyIndices v.view.dims ks = some js) :
    pyGetTuple v (ks.map .int) = .ok (.scalar (f js)) ∧
    ∀ x sch, ∃ v', pySetTuple v (ks.map .int) x sch = .ok v' ∧ v'.WF ∧ v.view.Frame v'.view ∧
      v'.view.Represents fun i => if i = js then x else f i := by
  have hl := pyIndices_length h
  have hany : (ks.map PyArg.int).any PyArg.isSlice = false := by
    rw [List.any_eq_false]
    intro a ha
    obtain ⟨k, _, rfl⟩ := List.mem_map.1 ha
    simp [PyArg.isSlice]
  constructor
  · rw [pyGetTuple, if_neg (by rw [List.length_map]; omega), if_neg (by rw [List.length_map]; omega), hany,
      if_neg (by simp), pyVals_eq hk]
    simp only [Outcome.ok_bind]
    rw [rtvGet_eq w.view hf h]; rfl
  · intro x sch
    obtain ⟨v', e, h2, h3, h4⟩ := rtvSet_eq w hf h x
    refine ⟨v', ?_, h2, h3, h4⟩
    rw [pySetTuple, hany, if_neg (by rw [List.length_map]; simp; omega), if_neg (by rw [List.length_map]; omega), pyVals_eq hk]
    simp only [Outcome.ok_bind]
    exact e

/-- **C86 (views, partial).** `v[args]` with fewer entries than axes or with a slice is a view of the shape that Python's
rules give, whose elements are the selected ones; it shares the storage.
Missing: negative integers, empty slices, slices with a step, views of 2^31 elements or more, empty tensors. -/
theorem C86_view_partial (v : RtView α) (w : v.WF) (f : List Nat → α) (hf : v.view.Represents f) (args : List PyArg)
    (vd : List Nat) (hn : args.length < v.view.dims.length ∨ (args.length = v.view.dims.length ∧ args.any PyArg.isSlice))
    (hg : ∀ p ∈ v.view.dims.zip args, GoodArg p.1 p.2) (h : selDims v.view.dims (pySels v.view.dims args) = some vd)
    (h0 : numel v.view.dims ≠ 0) (hd : ∀ d ∈ v.view.dims, d < 2 ^ 63) (hv : numel vd < 2 ^ 31) :
    ∃ u, pyGetTuple v args = .ok (.view u) ∧ u.WF ∧ u.view.dims = vd ∧ u.view.data = v.view.data ∧
      ∀ j, InBox j vd → rtvGet u (toIdx j) = .ok (f (selIndex v.view.dims (pySels v.view.dims args) j)) := by
  obtain ⟨u, e, wu, hu, vo⟩ := pySubView_ok w.view (by omega) hg h h0 hd hv
  refine ⟨u, ?_, wu, hu, vo.data, ?_⟩
  · rw [pyGetTuple]
    rcases hn with hn | ⟨hn, ha⟩
    · rw [if_pos hn, e]; rfl
    · rw [if_neg (by omega), if_neg (by omega), if_pos ha, e]; rfl
  · intro j hj
    rw [← hu] at hj
    apply rtvGet_eq wu.view (f := fun j => f (selIndex v.view.dims (pySels v.view.dims args) j)) _ (pyIndices_toIdx hj)
    intro j hj
    rw [vo.read w.view hj, hf _ (vo.addr j hj).1]

/-- **C86 (assignment, partial).** `v[args] = x` for such a subscript stores `x` in every selected element, in every order
of the loop, and changes nothing else.
Missing: as above. -/
theorem C86_set_partial (v : RtView α) (w : v.WF) (f : List Nat → α) (hf : v.view.Represents f) (args : List PyArg)
    (vd : List Nat) (hn : args.length < v.view.dims.length ∨ (args.length = v.view.dims.length ∧ args.any PyArg.isSlice))
    (hg : ∀ p ∈ v.view.dims.zip args, GoodArg p.1 p.2) (h : selDims v.view.dims (pySels v.view.dims args) = some vd)
    (h0 : numel v.view.dims ≠ 0) (hd : ∀ d ∈ v.view.dims, d < 2 ^ 63) (hv : numel vd < 2 ^ 31) (x : α) (sch : List Nat)
    (hs : sch.Perm (List.range (numel vd))) :
    ∃ v', pySetTuple v args x sch = .ok v' ∧ v'.WF ∧ v.view.Frame v'.view ∧
      ∀ F : List Nat → α, (∀ j, InBox j vd → F (selIndex v.view.dims (pySels v.view.dims args) j) = x) →
        (∀ i, (∀ j, InBox j vd → selIndex v.view.dims (pySels v.view.dims args) j ≠ i) → F i = f i) →
        v'.view.Represents F := by
  obtain ⟨u, e, wu, hu, vo⟩ := pySubView_ok w.view (by omega) hg h h0 hd hv
  have hfu : u.view.Represents fun j => f (selIndex v.view.dims (pySels v.view.dims args) j) := by
    intro j hj
    rw [vo.read w.view hj, hf _ (vo.addr j hj).1]
  obtain ⟨u', e', wu', fr, r⟩ := rtvMap_eq wu hfu (fun _ => x) (sch := sch) (by rw [wu.size, hu]; exact hs)
  have fr' : v.view.Frame { v.view with data := u'.view.data } := by
    classical
    exact (vo.frame w.view (F := fun i => if ∃ j, InBox j u.view.dims ∧ selIndex v.view.dims (pySels v.view.dims args) j = i
      then x else f i) hf fr r (fun j hj => if_pos ⟨j, hj, rfl⟩)
      (fun i hi => if_neg fun ⟨j, hj, e⟩ => hi j hj e)).1
  refine ⟨{ v with view := { v.view with data := u'.view.data } }, ?_, ⟨fr'.wf w.view, w.strides, w.size⟩, fr', ?_⟩
  · rw [pySetTuple, if_pos hn, e]
    simp only [Outcome.ok_bind]
    rw [e']; rfl
  · intro F h1 h2
    rw [← hu] at h1 h2
    exact (vo.frame w.view hf fr r h1 h2).2

/-- **C86 (single entries, partial).** `v[a:b]` is `v[a:b,]`.  `v[k]` with `k` in range, negative or not, is the element of
a vector, and the view of the remaining axes otherwise.
Missing: `k` out of range on a vector (refuted below). -/
theorem C86_single_partial (v : RtView α) (w : v.WF) (f : List Nat → α) (hf : v.view.Represents f) (d : Nat) (ds : List Nat)
    (hdims : v.view.dims = d :: ds) :
    (∀ a b s, pyGetSlice v a b s = pyGetTuple v [.slice a b s]) ∧
    ∀ (k : Int) (j : Nat), -2 ^ 31 ≤ k → k < 2 ^ 31 → pyIndex d k = some j →
      (ds = [] → pyGetInt v k = .ok (.scalar (f [j]))) ∧
      (ds ≠ [] → numel v.view.dims ≠ 0 → (∀ d ∈ v.view.dims, d < 2 ^ 63) → numel ds < 2 ^ 31 →
        ∃ u, pyGetInt v k = .ok (.view u) ∧ u.WF ∧ u.view.dims = ds ∧ u.view.data = v.view.data ∧
          ∀ i, InBox i ds → rtvGet u (toIdx i) = .ok (f (j :: i))) := by
  constructor
  · intro a b s
    have hr : pyRanges v.view.dims [.slice a b s] = (do let x ← pySliceRange d a b s; return [x]) := by
      rw [hdims]
      simp only [pyRanges]
      cases pySliceRange d a b s <;> cases ds <;> rfl
    have e : pyGetTuple v [.slice a b s] = (do let w ← pySubView v [.slice a b s]; return .view w) := by
      rw [pyGetTuple]
      split
      · rfl
      · rename_i h1
        rw [if_neg (by rw [hdims]; simp), if_pos (by simp [PyArg.isSlice])]
    rw [e, pySubView, hr, pyGetSlice, hdims]
    simp only
    cases pySliceRange d a b s <;> rfl
  · intro k j hk1 hk2 hj
    have hr : ¬(k < -2 ^ 31 ∨ 2 ^ 31 ≤ k) := by omega
    constructor
    · intro hds
      subst hds
      have hjd : j < d := by
        simp only [pyIndex] at hj
        split at hj
        · simp at hj; omega
        · split at hj
          · simp at hj; omega
          · simp at hj
      have hl := w.view.len
      rw [hdims] at hl
      obtain ⟨s, hs⟩ : ∃ s, v.view.strides = [s] := by
        match h : v.view.strides, hl with
        | [s], _ => exact ⟨s, rfl⟩
      have hread := (represents_iff w.view).1 hf [j] (by rw [hdims]; exact ⟨hjd, trivial⟩)
      rw [hs] at hread
      simp only [dot] at hread
      have hidx : (if k < 0 then k + (d : Int) else k) = (j : Int) := by
        simp only [pyIndex] at hj
        split at hj
        · simp at hj; rw [if_neg (by omega)]; omega
        · split at hj
          · simp at hj; rw [if_pos (by omega)]; omega
          · simp at hj
      rw [pyGetInt, if_neg hr, if_pos (by rw [hdims]; rfl)]
      have : rtvGet1 v k = .ok (f [j]) := by
        simp only [rtvGet1]
        rw [hdims, hs]
        simp only [hidx]
        rw [show (v.view.off : Int) + (j : Int) * (s : Int) = ((v.view.off + (j * s + 0) : Nat) : Int) by push_cast; omega]
        rw [if_neg (by omega), Int.toNat_natCast, hread]
      rw [this]; rfl
    · intro hds h0 hd hv
      have hsel : selDims v.view.dims (padAll v.view.dims.length [Sel.at k]) = some ds := by
        rw [hdims]
        simp only [padAll, List.length_cons, List.length_nil, List.cons_append, List.nil_append, selDims, hj]
        simp only [Option.isSome_some, if_true]
        have : ∀ ds : List Nat, selDims ds (List.replicate ds.length Sel.all) = some ds := by
          intro ds
          induction ds with
          | nil => rfl
          | cons a ds ih => simp [List.replicate_succ, selDims, ih]
        exact this ds
      have hix : ∀ i, InBox i ds → selIndex v.view.dims (padAll v.view.dims.length [Sel.at k]) i = j :: i := by
        intro i hi
        rw [hdims]
        simp only [padAll, List.length_cons, List.length_nil, List.cons_append, List.nil_append, selIndex, hj, Option.getD_some]
        have : ∀ ds i : List Nat, InBox i ds → selIndex ds (List.replicate ds.length Sel.all) i = i := by
          intro ds
          induction ds with
          | nil => intro i hi; rw [InBox_nil_right.1 hi]; rfl
          | cons a ds ih =>
            intro i hi
            obtain ⟨x, i', rfl, _, hi'⟩ := InBox_cons_right.1 hi
            simp [List.replicate_succ, selIndex, ih i' hi']
        rw [show ds.length + 1 - (0 + 1) = ds.length by omega, this ds i hi]
      have hn : 1 ≤ v.view.dims.length := by rw [hdims]; simp
      obtain ⟨u, h1, h2, h3, h4, h5⟩ := C75_ints_partial false v.view w.view f hf [k] ds hn
        (by
          intro i hi
          simp only [List.mem_singleton] at hi
          subst hi
          exact ⟨by omega, by omega⟩) hsel h0 hd hv
      refine ⟨u, ?_, h2, h3, h4, ?_⟩
      · rw [pyGetInt, if_neg hr, if_neg (by rw [hdims]; simp [hds])]
        have : rtSlice false v.view [(-1, k)] = .ok u := h1
        rw [this]; rfl
      · intro i hi
        rw [h5 i hi]
        rw [show [k].map Sel.at = [Sel.at k] from rfl, hix i hi]

/-- **C86 (rejected).** More entries than axes, an integer that is out of range, and a slice with a step other than 1 throw,
for reading and for assigning. -/
theorem C86_rejects (v : RtView α) (w : v.WF) (x : α) (sch : List Nat) :
    (∀ args : List PyArg, v.view.dims.length < args.length →
      (pyGetTuple v args).isError = true ∧ (pySetTuple v args x sch).isError = true) ∧
    (∀ ks : List Int, ks.length = v.view.dims.length → (∀ k ∈ ks, IsInt64 k) → pyIndices v.view.dims ks = none →
      (pyGetTuple v (ks.map .int)).isError = true ∧ (pySetTuple v (ks.map .int) x sch).isError = true) ∧
    (∀ a b : Option Int, ∀ s : Int, s ≠ 1 → v.view.dims ≠ [] →
      (pyGetTuple v [.slice a b (some s)]).isError = true ∧ (pySetTuple v [.slice a b (some s)] x sch).isError = true) := by
  refine ⟨?_, ?_, ?_⟩
  · intro args hn
    rw [pyGetTuple, if_neg (by omega), if_pos hn, pySetTuple, if_neg (by omega), if_pos hn]
    exact ⟨rfl, rfl⟩
  · intro ks hl hi h
    have hany : (ks.map PyArg.int).any PyArg.isSlice = false := by
      rw [List.any_eq_false]
      intro a ha
      obtain ⟨k, _, rfl⟩ := List.mem_map.1 ha
      simp [PyArg.isSlice]
    have hl' : (ks.map PyArg.int).length = v.view.dims.length := by rw [List.length_map, hl]
    rw [pyGetTuple, if_neg (by omega), if_neg (by omega), hany, if_neg (by simp), pySetTuple, hany,
      if_neg (by simp; omega), if_neg (by omega)]
    by_cases hneg : ∃ k ∈ ks, k < 0
    · have := pyVals_negative hneg
      cases hv : pyVals (ks.map .int) with
      | ok r => rw [hv] at this; simp [Outcome.isError] at this
      | error e => exact ⟨rfl, rfl⟩
      | ub e => rw [hv] at this; simp [Outcome.isError] at this
    · have hk : ∀ k ∈ ks, 0 ≤ k ∧ k < 2 ^ 63 := by
        intro k hk
        refine ⟨?_, (hi k hk).2⟩
        by_contra hc
        exact hneg ⟨k, hk, by omega⟩
      rw [pyVals_eq hk]
      simp only [Outcome.ok_bind]
      obtain ⟨e, he⟩ := negCheck_full_none w.view.len (by omega) h
      constructor
      · simp [rtvGet, he, Outcome.isError]
      · simp [rtvSet, he, Outcome.isError]
  · intro a b s hs hne
    obtain ⟨d, ds, hdims⟩ := List.exists_cons_of_ne_nil hne
    have hv : ∃ e, pySubView v [.slice a b (some s)] = .error e := by
      refine ⟨"Can not handle slices with step sizes other than 1!", ?_⟩
      rw [pySubView, hdims]
      simp only [pyRanges, pySliceRange, Option.getD_some]
      rw [if_pos hs]; rfl
    obtain ⟨e, he⟩ := hv
    have hn : [PyArg.slice a b (some s)].length < v.view.dims.length ∨
        ([PyArg.slice a b (some s)].length = v.view.dims.length ∧ [PyArg.slice a b (some s)].any PyArg.isSlice) := by
      rw [hdims]
      simp [PyArg.isSlice]
      cases ds <;> simp
    constructor
    · rw [pyGetTuple]
      rcases hn with hn | ⟨hn, ha⟩
      · rw [if_pos hn, he]; rfl
      · rw [if_neg (by omega), if_neg (by omega), if_pos ha, he]; rfl
    · rw [pySetTuple, if_pos hn, he]; rfl

/-- **C86 (defined).** No tuple whatever makes reading undefined. -/
theorem C86_defined (v : RtView α) (w : v.WF) (args : List PyArg) : (pyGetTuple v args).isUb = false := by
  have hr : ∀ (ds : List Nat) (as : List PyArg), (pyRanges ds as).isUb = false := by
    intro ds
    induction ds with
    | nil => intro as; cases as <;> rfl
    | cons d ds ih =>
      intro as
      cases as with
      | nil => rfl
      | cons a as =>
        have ih' := ih as
        cases a with
        | int k =>
          simp only [pyRanges, castSize]
          split
          · cases h : pyRanges ds as <;> rw [h] at ih' <;> first | rfl | simp [Outcome.isUb] at ih'
          · rfl
        | slice x y s =>
          simp only [pyRanges, pySliceRange]
          split
          · rfl
          · cases h : pyRanges ds as <;> rw [h] at ih' <;> first | rfl | simp [Outcome.isUb] at ih'
  have hs : (pySubView v args).isUb = false := by
    rw [pySubView]
    have := hr v.view.dims args
    cases h : pyRanges v.view.dims args with
    | ok xs => exact rtSlice_defined false w.view xs
    | error e => rfl
    | ub e => rw [h] at this; simp [Outcome.isUb] at this
  have hs' : (do let u ← pySubView v args; return PyItem.view u : Outcome (PyItem α)).isUb = false := by
    cases h : pySubView v args with
    | ok xs => rfl
    | error e => rfl
    | ub e => rw [h] at hs; simp [Outcome.isUb] at hs
  have hlen : ∀ (as : List PyArg) r, pyVals as = .ok r → r.length = as.length := by
    intro as
    induction as with
    | nil => intro r h; cases h; rfl
    | cons a as ih =>
      intro r h
      cases a with
      | slice x y s => simp [pyVals] at h
      | int k =>
        simp only [pyVals] at h
        cases hc : castSize k with
        | error e => simp [hc] at h
        | ub e => simp [hc] at h
        | ok n =>
          cases hv : pyVals as with
          | error e => simp [hc, hv] at h
          | ub e => simp [hc, hv] at h
          | ok r' =>
            simp [hc, hv] at h
            subst h
            simp [ih r' hv]
  have hvub : ∀ as : List PyArg, (pyVals as).isUb = false := by
    intro as
    induction as with
    | nil => rfl
    | cons a as ih =>
      cases a with
      | slice x y s => rfl
      | int k =>
        simp only [pyVals, castSize]
        split
        · cases h : pyVals as <;> rw [h] at ih <;> first | rfl | simp [Outcome.isUb] at ih
        · rfl
  rw [pyGetTuple]
  split
  · exact hs'
  split
  · rfl
  split
  · exact hs'
  rename_i h1 h2 h3
  cases hv : pyVals args with
  | error e => rfl
  | ub e => have := hvub args; rw [hv] at this; simp [Outcome.isUb] at this
  | ok r =>
    simp only [Outcome.ok_bind]
    have hl := hlen args r hv
    cases hp : pyIndices v.view.dims r with
    | none =>
      obtain ⟨e, he⟩ := negCheck_full_none w.view.len (by omega) hp
      simp [rtvGet, he, Outcome.isUb]
    | some js =>
      have hb := w.view.bound js (pyIndices_inBox hp)
      simp only [rtvGet]
      rw [negCheck_full w.view.len hp]
      simp only [Outcome.ok_bind, Int.toNat_natCast, ptrRead]
      rw [List.getElem?_eq_getElem hb]
      rfl

/-- The whole of `t23`, as `__getitem__` of a tensor makes it. -/
def whole23 : RtView Nat := rtvWhole t23 6

theorem whole23_wf : whole23.WF := ⟨(Strided.IsTensor.mk rfl (by decide) (by decide) : t23.IsTensor).wf, rfl, by decide⟩

/-- `t[1, 2]`, `t[:, 1:]`, `t[-1:]` and `t[:, -2:2] = 7` on the 2×3 tensor 0..5. -/
example : pyGetTuple whole23 [.int 1, .int 2] = .ok (.scalar 5) ∧
    (∀ p ∈ whole23.view.dims.zip [.slice none none none, .slice (some 1) none none], GoodArg p.1 p.2) ∧
    selDims whole23.view.dims (pySels whole23.view.dims [.slice none none none, .slice (some 1) none none]) = some [2, 2] ∧
    (∃ u, pyGetTuple whole23 [.slice none none none, .slice (some 1) none none] = .ok (.view u) ∧ rtvGet u [1, 0] = .ok 4) ∧
    (∃ u, pyGetSlice whole23 (some (-1)) none none = .ok (.view u) ∧ u.view.dims = [1, 3] ∧ rtvGet u [0, 0] = .ok 3) ∧
    (∃ v', pySetTuple whole23 [.slice none none none, .slice (some (-2)) (some 2) none] 7 [1, 0] = .ok v' ∧
      v'.view.data = [0, 7, 2, 3, 7, 5]) := by
  refine ⟨by decide +kernel, ?_, by decide,
    ⟨⟨{ t23 with off := 1, dims := [2, 2] }, [2, 1], 4⟩, by decide +kernel, by decide⟩,
    ⟨⟨{ t23 with off := 3, dims := [1, 3] }, [3, 1], 3⟩, by decide +kernel, by decide, by decide⟩,
    ⟨⟨{ t23 with data := [0, 7, 2, 3, 7, 5] }, [3, 1], 6⟩, by decide +kernel, by decide⟩⟩
  intro p hp
  simp only [whole23, rtvWhole, t23, List.zip_cons_cons, List.zip_nil_right, List.mem_cons, List.not_mem_nil, or_false] at hp
  rcases hp with rfl | rfl <;> exact ⟨show sliceBound _ _ _ < sliceBound _ _ _ by decide, .inl rfl⟩

/-- **C86 (refuted, negative integers in a tuple).** `t[-1, 0]` is a valid Python index and throws, although `t[-1]` and
`t[-1:, 0]` work; 2^64 − 1, which is not in range, is taken for −1. -/
theorem C86_negative_refuted : pyIndices whole23.view.dims [-1, 0] = some [1, 0] ∧
    (pyGetTuple whole23 [.int (-1), .int 0]).isError = true ∧ (∃ u, pyGetInt whole23 (-1) = .ok (.view u) ∧ rtvGet u [0] = .ok 3) ∧
    pyIndices whole23.view.dims [2 ^ 64 - 1, 0] = none ∧
    pyGetTuple whole23 [.int (2 ^ 64 - 1), .int 0] = .ok (.scalar 3) :=
  ⟨by decide, by decide +kernel, ⟨⟨{ t23 with off := 3, dims := [3], strides := [1] }, [1], 3⟩, by decide +kernel, by decide⟩,
    by decide +kernel, by decide +kernel⟩

/-- **C86 (refuted, range check of single integers).** The vector `t[0]` has 3 elements; `t[0][4]` returns an element of the
next row, and `t[0][7]` is undefined, where `t[0][4,]` throws. -/
theorem C86_single_refuted : (∃ u, pyGetInt whole23 0 = .ok (.view u) ∧ u.view.dims = [3] ∧
    pyGetInt u 4 = .ok (.scalar 4) ∧ (pyGetInt u 7).isUb = true ∧ (pyGetTuple u [.int 4]).isError = true) :=
  ⟨row0, by decide +kernel, by decide, by decide +kernel, by decide +kernel, by decide +kernel⟩

/-- **C86 (refuted, empty slices).** `t[1:1]` selects nothing, a 0×3 tensor in Python; it throws. -/
theorem C86_empty_refuted :
    selDims whole23.view.dims (pySels whole23.view.dims [.slice (some 1) (some 1) none]) = some [0, 3] ∧
    (pyGetTuple whole23 [.slice (some 1) (some 1) none]).isError = true := ⟨by decide, by decide +kernel⟩

/-! ### C87: iteration -/

/-- **C87 (partial).** `for x in t` on a tensor or view: the calls of `__next__` return the elements in row-major order, each
once, and then `StopIteration` for ever; `reversed(t)` in the opposite order.  One call is one step under the lock, so that
the same holds when several threads share the iterator.
Missing: tensors without elements (refuted below), 2^63 elements or more. -/
theorem C87_walk_partial (v : RtView α) (w : v.WF) (f : List Nat → α) (hf : v.view.Represents f)
    (h0 : numel v.view.dims ≠ 0) (hn : numel v.view.dims < 2 ^ 63) (m : Nat) :
    (∃ it, (pyIter v false).nexts (numel v.view.dims + m) =
      .ok (((box v.view.dims).map f).map some ++ List.replicate m none, it)) ∧
    (∃ it, (pyIter v true).nexts (numel v.view.dims + m) =
      .ok (((box v.view.dims).reverse.map f).map some ++ List.replicate m none, it)) := by
  constructor
  · obtain ⟨it', e⟩ := nexts_forward w hf hn m (k := numel v.view.dims - 1) (i := 0) (it := pyIter v false)
      ⟨rfl, rfl, rfl, rfl, rfl, rfl⟩ (by omega)
    rw [show numel v.view.dims - 1 + 1 = numel v.view.dims by omega] at e
    exact ⟨it', by simpa using e⟩
  · have hc : (pyIter v true).cur = numel v.view.dims - 1 := by
      simp only [pyIter, if_true, w.size]
      rw [show (numel v.view.dims : Int) - 1 = ((numel v.view.dims - 1 : Nat) : Int) by omega]
      exact toSize_nat (by omega)
    obtain ⟨it', e⟩ := nexts_backward w hf hn m (i := numel v.view.dims - 1) (it := pyIter v true)
      ⟨hc, rfl, rfl, rfl, rfl, rfl⟩ (by omega)
    rw [show numel v.view.dims - 1 + 1 = numel v.view.dims by omega, ← length_box, List.take_length] at e
    exact ⟨it', by rw [← length_box]; exact e⟩

/-- **C87 (turning round, partial).** After `k` elements of `t` or of `reversed(t)`, fewer than there are, `reversed(it)`
returns the element that `it` would have returned next and then those before it, and `iter(it)` goes on in the same
direction.
Missing: as above. -/
theorem C87_turn_partial (v : RtView α) (w : v.WF) (f : List Nat → α) (hf : v.view.Represents f)
    (hn : numel v.view.dims < 2 ^ 63) (rev : Bool) (order : List (List Nat))
    (ho : order = if rev then (box v.view.dims).reverse else box v.view.dims) (k : Nat) (hk : k < numel v.view.dims) :
    ∃ it, (pyIter v rev).nexts k = .ok (((order.take k).map f).map some, it) ∧
      (∃ it', it.reversed.nexts (k + 1) = .ok (((order.take (k + 1)).reverse.map f).map some, it')) ∧
      ∃ it', it.iter.nexts (numel v.view.dims - k) = .ok (((order.drop k).map f).map some, it') := by
  subst ho
  obtain ⟨it, e, ha⟩ := nexts_prefix w hf hn rev k hk
  refine ⟨it, e, ?_⟩
  have hc : ∀ r, PyIter.At v (r != rev) (iterPos (numel v.view.dims) rev k) (it.copy r) := fun r =>
    ⟨ha.cur, ha.elements, ha.strides, ha.tensor, by
      simp only [PyIter.copy, ha.cur, ha.elements, w.size]
      exact decide_eq_false (by cases rev <;> simp [iterPos] <;> omega), by simp [PyIter.copy, ha.reverse]⟩
  cases rev
  · obtain ⟨i1, e1⟩ := nexts_backward w hf hn 0 (hc true) hk
    obtain ⟨i2, e2⟩ := nexts_forward w hf hn 0 (k := numel v.view.dims - k - 1) (hc false) (by simp [iterPos]; omega)
    rw [show numel v.view.dims - k - 1 + 1 + 0 = numel v.view.dims - k by omega] at e2
    exact ⟨⟨i1, by simpa [iterPos, PyIter.reversed] using e1⟩, ⟨i2, by simpa [iterPos, PyIter.iter] using e2⟩⟩
  · obtain ⟨i1, e1⟩ := nexts_forward w hf hn 0 (k := k) (hc true) (by simp [iterPos]; omega)
    obtain ⟨i2, e2⟩ := nexts_backward w hf hn 0 (hc false) (by simp [iterPos]; omega)
    have h1 : ((box v.view.dims).reverse.take (k + 1)).reverse = (box v.view.dims).drop (numel v.view.dims - 1 - k) := by
      rw [List.take_reverse, List.reverse_reverse, length_box]
      congr 1; omega
    have h2 : (box v.view.dims).reverse.drop k = ((box v.view.dims).take (numel v.view.dims - k)).reverse := by
      rw [List.drop_reverse, length_box]
    simp only [iterPos, if_true] at e1 e2
    rw [show numel v.view.dims - 1 - k + 1 = numel v.view.dims - k by omega] at e2
    simp only [if_true, h1, h2]
    exact ⟨⟨i1, by simpa [PyIter.reversed] using e1⟩, ⟨i2, by simpa [PyIter.iter] using e2⟩⟩

/-- The first row of a 2×3 tensor, forwards with one call too many, and backwards. -/
example : ((pyIter row0 false).nexts 4).isOk = true ∧
    (∃ it, (pyIter row0 false).nexts 4 = .ok ([some 0, some 1, some 2, none], it)) ∧
    (∃ it, (pyIter corner true).nexts 4 = .ok ([some 4, some 3, some 1, some 0], it)) :=
  ⟨by decide +kernel, ⟨⟨3, 3, [1], row0, true, false⟩, by decide +kernel⟩,
    ⟨⟨2 ^ 64 - 1, 4, [2, 1], corner, true, true⟩, by decide +kernel⟩⟩

/-- **C87 (refuted, tensors without elements).** Iterating over a 0×3 tensor throws instead of stopping at once, in both
directions. -/
theorem C87_empty_refuted : numel [0, 3] = 0 ∧
    (pyIter (rtvWhole (rtNew (fun _ => 0) [0, 3]) 0) false).next.isError = true ∧
    (pyIter (rtvWhole (rtNew (fun _ => 0) [0, 3]) 0) true).next.isError = true :=
  ⟨by decide, by decide +kernel, by decide +kernel⟩

/-- **C87 (refuted, iterators are their own iterators).** `iter(it)` is a copy: taking `k` elements from it, as a `for` loop
over `it` does, leaves `it` where it was, whatever `k` is. -/
theorem C87_iter_refuted : ∃ v : RtView Nat, v.WF ∧ ∀ (k : Nat) (l : List (Option Nat)) (it' : PyIter Nat),
    (pyIter v false).iter.nexts k = .ok (l, it') → ∃ it'', (pyIter v false).next = .ok (some 0, it'') :=
  ⟨row0, row0_wf, fun _ _ _ _ => ⟨⟨1, 3, [1], row0, false, false⟩, by decide +kernel⟩⟩

/-! ### C88: tensors and buffers -/

/-- **C88 (construction, partial).** `RuntimeTensor(buffer)`: a tensor with the shape of the buffer, holding its converted
items, whatever the strides, negative ones included; a format that is not supported throws.
Missing: buffers whose items do not lie a whole number of items apart (refuted below). -/
theorem C88_construct_partial (z : Nat → α) (b : PyBuffer β) (ha : b.Aligned) (g : List Nat → β) (hg : b.Represents g)
    (sch : List Nat) (hs : sch.Perm (List.range (numel b.shape))) :
    (∀ conv, ∃ t, rtOfBuffer z (some conv) b sch = .ok t ∧ t.IsTensor ∧ t.dims = b.shape ∧ t.Represents fun i => conv (g i)) ∧
    (rtOfBuffer z none b sch).isError = true := by
  refine ⟨fun conv => ?_, rfl⟩
  have ht := rtNew_isTensor z b.shape
  have : Inhabited α := ⟨z 0⟩
  obtain ⟨f, hf⟩ := exists_represents ht.wf
  exact bufLoop_eq (fun _ x => x) conv ht hf ha hg rfl hs

/-- **C88 (assignment, partial).** `t.assign(buffer)`: `t` takes the buffer's shape and items, whatever shape it had.
Missing: as above, and formats that are not supported (refuted below). -/
theorem C88_assign_partial (z : Nat → α) (t : Strided α) (b : PyBuffer β) (ha : b.Aligned) (g : List Nat → β)
    (hg : b.Represents g) (conv : β → α) (sch : List Nat) (hs : sch.Perm (List.range (numel b.shape))) :
    ∃ t', rtAssignBuffer z (some conv) t b sch = .ok (t', none) ∧ t'.IsTensor ∧ t'.dims = b.shape ∧
      t'.Represents fun i => conv (g i) := by
  have ht : Strided.IsTensor (Strided.mk (vecResize z (dimsToStrides b.shape).1 t.data) 0 b.shape (dimsToStrides b.shape).2) :=
    ⟨rfl, rfl, by simp [vecResize_length, dimsToStrides_fst]⟩
  have : Inhabited α := ⟨z 0⟩
  obtain ⟨f, hf⟩ := exists_represents ht.wf
  obtain ⟨t', e, h1, h2, h3⟩ := bufLoop_eq (fun _ x => x) conv ht hf ha hg rfl hs
  refine ⟨t', ?_, h1, h2, h3⟩
  simp only [rtAssignBuffer, e, Outcome.ok_bind]
  rfl

/-- **C88 (arithmetic, partial).** `t OP= buffer` combines each element with the item of the same index; another shape or a
format that is not supported throws.
Missing: as for the construction. -/
theorem C88_op_partial (op : α → α → α) (t : Strided α) (ht : t.IsTensor) (f : List Nat → α) (hf : t.Represents f)
    (b : PyBuffer β) (ha : b.Aligned) (g : List Nat → β) (hg : b.Represents g) (sch : List Nat)
    (hs : sch.Perm (List.range (numel t.dims))) :
    (∀ conv, t.dims = b.shape → ∃ t', rtOpBuffer op (some conv) t b sch = .ok t' ∧ t'.IsTensor ∧ t'.dims = t.dims ∧
      t'.Represents fun i => op (f i) (conv (g i))) ∧
    (∀ conv : Option (β → α), t.dims ≠ b.shape → (rtOpBuffer op conv t b sch).isError = true) ∧
    (rtOpBuffer op none t b sch).isError = true := by
  refine ⟨fun conv hd => ?_, fun conv hd => ?_, ?_⟩
  · obtain ⟨t', e, h⟩ := bufLoop_eq op conv ht hf ha hg hd hs
    refine ⟨t', ?_, h⟩
    rw [rtOpBuffer, if_neg (by simp [hd]), if_neg (by simpa using hd)]
    exact e
  · simp only [rtOpBuffer, if_pos hd]
    split <;> rfl
  · simp only [rtOpBuffer]
    split
    · rfl
    split <;> rfl

/-- The buffer of a NumPy array `[10, 20, 30][::-1]` of 8-byte numbers: the pointer is at the last one, the stride −8. -/
def revBuffer : PyBuffer Nat :=
  { items := fun o => if o = 0 then some 30 else if o = -8 then some 20 else if o = -16 then some 10 else none,
    shape := [3], strides := [-8], itemsize := 8 }

example : revBuffer.Aligned ∧ revBuffer.Represents (fun i => 30 - 10 * i.headD 0) ∧
    rtOfBuffer (fun _ => 0) (some id) revBuffer [2, 0, 1] = .ok { data := [30, 20, 10], off := 0, dims := [3], strides := [1] } := by
  refine ⟨⟨rfl, by decide, by decide⟩, ?_, by decide +kernel⟩
  intro i hi
  match i, hi with
  | [0], _ => decide
  | [1], _ => decide
  | [2], _ => decide
  | [n + 3], hi => exact absurd hi.1 (by simp)

/-- The 8-byte field of records of 12 bytes, as a NumPy structured array exports it: the items 10, 20, 30 lie 12 bytes
apart; what lies 8 and 16 bytes after the first (part of another field, part of the next item) reads as 77 and 88. -/
def recordBuffer : PyBuffer Nat :=
  { items := fun o => if o = 0 then some 10 else if o = 12 then some 20 else if o = 24 then some 30 else
      if o = 8 then some 77 else if o = 16 then some 88 else none,
    shape := [3], strides := [12], itemsize := 8 }

/-- **C88 (refuted, records).** The stride 12 is rounded to 1 item, so that the field of an array of records is read from
the wrong bytes. -/
theorem C88_record_refuted : (∀ i, InBox i [3] → recordBuffer.items (byteOffset i recordBuffer.strides) = some (10 + 10 * i.headD 0)) ∧
    rtOfBuffer (fun _ => 0) (some id) recordBuffer [0, 1, 2] = .ok { data := [10, 77, 88], off := 0, dims := [3], strides := [1] } := by
  refine ⟨?_, by decide +kernel⟩
  intro i hi
  match i, hi with
  | [0], _ => decide
  | [1], _ => decide
  | [2], _ => decide
  | [n + 3], hi => exact absurd hi.1 (by simp)

/-- **C88 (refuted, failed assignments).** `t.assign(buffer)` with a format that is not supported throws, and has changed the
shape and discarded elements. -/
theorem C88_failed_assign_refuted : ∃ t', rtAssignBuffer (fun _ => 0) (none : Option (Nat → Nat)) t23 revBuffer [0, 1, 2] =
    .ok (t', some "Can not convert format descriptor") ∧ t'.dims = [3] ∧ t'.data = [0, 1, 2] ∧ t23.data = [0, 1, 2, 3, 4, 5] :=
  ⟨_, rfl, by decide, by decide, by decide⟩

/-! ### C89: views of buffers -/

/-- **C89 (partial).** `RuntimeTensorView(buffer)` of a buffer of the same type, with at least one axis: the view of the
buffer's memory with the buffer's layout; so its elements are the items, and writing to it writes to the exporter.
Another type throws.
Missing: buffers without axes, strides that are not a whole number of items (refuted below), negative strides. -/
theorem C89_view_partial (s : Strided α) (w : s.WF) (hr : s.dims ≠ []) (sz : Nat) (hsz : 0 < sz) :
    (∃ v, rtvOfBuffer true s.data s.off s.dims (s.strides.map fun n => ((sz * n : Nat) : Int)) sz = .ok v ∧ v.WF ∧ v.view = s) ∧
    (rtvOfBuffer false s.data s.off s.dims (s.strides.map fun n => ((sz * n : Nat) : Int)) sz).isError = true := by
  have hst : (s.strides.map fun n => ((sz * n : Nat) : Int)).map (fun x => (x.tdiv (sz : Int)).toNat) = s.strides := by
    rw [List.map_map]
    calc _ = s.strides.map id := List.map_congr_left fun n _ => by
            simp only [Function.comp, id]
            rw [Int.natCast_mul, Int.mul_tdiv_cancel_left _ (by omega), Int.toNat_natCast]
      _ = _ := List.map_id _
  refine ⟨⟨{ view := s, ixStrides := (dimsToStrides s.dims).2, size := (dimsToStrides s.dims).1 }, ?_,
    ⟨w, rfl, dimsToStrides_fst _⟩, rfl⟩, rfl⟩
  rw [rtvOfBuffer, if_neg (by simp), if_neg hr, if_neg (by omega), if_neg, hst]
  rintro ⟨x, hx, hneg⟩
  obtain ⟨n, _, rfl⟩ := List.mem_map.1 hx
  omega

example : corner.view.WF ∧ corner.view.dims ≠ [] ∧
    rtvOfBuffer true t23.data 0 [2, 2] [24, 8] 8 = .ok corner := ⟨corner_wf.view, by decide, by decide +kernel⟩

/-- **C89 (refuted).** The view of a buffer without axes, which has one item, is undefined; and the view of a field 12 bytes
apart gets the stride 1. -/
theorem C89_view_refuted : numel [] = 1 ∧ (rtvOfBuffer true [10] 0 [] [] 8).isUb = true ∧
    ∃ v, rtvOfBuffer true [10, 77, 88] 0 [3] [12] 8 = .ok v ∧ v.view.strides = [1] :=
  ⟨by decide, by decide +kernel, ⟨⟨[10, 77, 88], 0, [3], [1]⟩, [1], 3⟩, by decide +kernel, by decide⟩

/-! ### C90: buffers and views -/

/-- **C90 (partial).** `v.assign(buffer)` and `v OP= buffer` combine each element of the view with the item of the same index,
in every order of the loop, and touch nothing else; another shape or a format that is not supported throws.
Missing: buffers whose items do not lie a whole number of items apart. -/
theorem C90_view_partial (op : α → α → α) (v : RtView α) (w : v.WF) (f : List Nat → α) (hf : v.view.Represents f)
    (b : PyBuffer β) (ha : b.Aligned) (g : List Nat → β) (hg : b.Represents g) (sch : List Nat)
    (hs : sch.Perm (List.range v.size)) :
    (∀ conv, v.view.dims = b.shape → ∃ v', rtvOpBuffer op (some conv) v b sch = .ok v' ∧ v'.WF ∧ v.view.Frame v'.view ∧
      v'.view.Represents fun i => op (f i) (conv (g i))) ∧
    (∀ conv : Option (β → α), v.view.dims ≠ b.shape → (rtvOpBuffer op conv v b sch).isError = true) ∧
    (rtvOpBuffer op none v b sch).isError = true := by
  refine ⟨fun conv hd => rtvOpBuffer_eq op conv w hf ha hg hd hs, fun conv hd => ?_, ?_⟩
  · simp only [rtvOpBuffer, if_pos hd]
    split <;> rfl
  · simp only [rtvOpBuffer]
    split
    · rfl
    split <;> rfl

/-- **C90 (slices, partial).** `v[args] = buffer` stores the items of a buffer of the selected shape in the selected elements
and changes nothing else; a subscript that selects a single element throws.
Missing: as for C86 and above. -/
theorem C90_setitem_partial (v : RtView α) (w : v.WF) (f : List Nat → α) (hf : v.view.Represents f) (args : List PyArg)
    (vd : List Nat) (hn : args.length < v.view.dims.length ∨ (args.length = v.view.dims.length ∧ args.any PyArg.isSlice))
    (hg : ∀ p ∈ v.view.dims.zip args, GoodArg p.1 p.2) (h : selDims v.view.dims (pySels v.view.dims args) = some vd)
    (h0 : numel v.view.dims ≠ 0) (hd : ∀ d ∈ v.view.dims, d < 2 ^ 63) (hv : numel vd < 2 ^ 31)
    (b : PyBuffer β) (ha : b.Aligned) (hb : b.shape = vd) (g : List Nat → β) (hgb : b.Represents g) (conv : β → α)
    (sch : List Nat) (hs : sch.Perm (List.range (numel vd))) :
    ∃ v', pySetBuffer (some conv) v args b sch = .ok v' ∧ v'.WF ∧ v.view.Frame v'.view ∧
      ∀ F : List Nat → α, (∀ j, InBox j vd → F (selIndex v.view.dims (pySels v.view.dims args) j) = conv (g j)) →
        (∀ i, (∀ j, InBox j vd → selIndex v.view.dims (pySels v.view.dims args) j ≠ i) → F i = f i) →
        v'.view.Represents F := by
  obtain ⟨u, e, wu, hu, vo⟩ := pySubView_ok w.view (by omega) hg h h0 hd hv
  have hfu : u.view.Represents fun j => f (selIndex v.view.dims (pySels v.view.dims args) j) := by
    intro j hj
    rw [vo.read w.view hj, hf _ (vo.addr j hj).1]
  obtain ⟨u', e', wu', fr, r⟩ := rtvOpBuffer_eq (fun _ x => x) conv wu hfu ha hgb (by rw [hu, hb]) (sch := sch)
    (by rw [wu.size, hu]; exact hs)
  have fr' : v.view.Frame { v.view with data := u'.view.data } := by
    classical
    exact (vo.frame w.view (F := fun i => if hex : ∃ j, InBox j u.view.dims ∧ selIndex v.view.dims (pySels v.view.dims args) j = i
      then conv (g hex.choose) else f i) hf fr r (fun j hj => by
        have hex : ∃ k, InBox k u.view.dims ∧ selIndex v.view.dims (pySels v.view.dims args) k =
          selIndex v.view.dims (pySels v.view.dims args) j := ⟨j, hj, rfl⟩
        rw [dif_pos hex, vo.inj _ _ hex.choose_spec.1 hj hex.choose_spec.2])
      (fun i hi => dif_neg fun ⟨j, hj, e⟩ => hi j hj e)).1
  refine ⟨{ v with view := { v.view with data := u'.view.data } }, ?_, ⟨fr'.wf w.view, w.strides, w.size⟩, fr', ?_⟩
  · rw [pySetBuffer, if_pos hn, e]
    simp only [Outcome.ok_bind]
    rw [e']; rfl
  · intro F h1 h2
    rw [← hu] at h1 h2
    exact (vo.frame w.view hf fr r h1 h2).2

/-- **C90 (rejected).** `v[k1, k2, ...] = buffer` with an integer for every axis, and with more entries than axes, throws. -/
theorem C90_setitem_rejects (v : RtView α) (args : List PyArg) (b : PyBuffer β) (conv : Option (β → α)) (sch : List Nat)
    (hn : v.view.dims.length < args.length ∨ (args.length = v.view.dims.length ∧ args.any PyArg.isSlice = false)) :
    (pySetBuffer conv v args b sch).isError = true := by
  rw [pySetBuffer]
  rcases hn with hn | ⟨hn, ha⟩
  · rw [if_neg (by omega), if_pos hn]; rfl
  · rw [if_neg (by simp [ha]; omega), if_neg (by omega)]; rfl

/-- **C90 (export).** The buffer that a tensor or view exports has its shape and, at each index, its element. -/
theorem C90_export (s : Strided α) (w : s.WF) (f : List Nat → α) (hf : s.Represents f) (sz : Nat) (hsz : 0 < sz) :
    (rtExport sz s).Aligned ∧ (rtExport sz s).shape = s.dims ∧ (rtExport sz s).Represents f := by
  refine ⟨⟨by simp [rtExport, w.len], hsz, ?_⟩, rfl, ?_⟩
  · intro x hx
    obtain ⟨n, _, rfl⟩ := List.mem_map.1 hx
    exact ⟨n, by simp [rtExport]⟩
  · intro i hi
    have hi : InBox i s.dims := hi
    have ho : ∀ (i ss : List Nat), byteOffset i (ss.map fun n => ((sz * n : Nat) : Int)) = (sz : Int) * (dot i ss : Nat) := by
      intro i
      induction i with
      | nil => intro ss; cases ss <;> simp [byteOffset, dot]
      | cons a i ih =>
        intro ss
        cases ss with
        | nil => simp [byteOffset, dot]
        | cons s ss =>
          simp only [List.map_cons, byteOffset, dot, ih]
          push_cast
          rw [Int.mul_add, ← Int.mul_assoc, ← Int.mul_assoc, Int.mul_comm (a : Int)]
    have := (represents_iff w).1 hf i hi
    simp only [rtExport]
    rw [ho, Int.mul_ediv_cancel_left _ (by omega), if_pos ⟨Int.dvd_mul_right _ _, by omega⟩]
    rw [show (s.off : Int) + (dot i s.strides : Nat) = ((s.off + dot i s.strides : Nat) : Int) by push_cast; rfl, Int.toNat_natCast]
    exact this

/-- `t[:, 1:] = numpy.array([[1, 2], [3, 4]])[:, ::-1]` on the 2×3 tensor 0..5. -/
example : (∃ v', pySetBuffer (some id) whole23 [.slice none none none, .slice (some 1) none none]
      { items := fun o => if o = 0 then some 2 else if o = -8 then some 1 else if o = 16 then some 4 else if o = 8 then some 3 else none,
        shape := [2, 2], strides := [16, -8], itemsize := 8 } [3, 0, 2, 1] = .ok v' ∧ v'.view.data = [0, 2, 1, 3, 4, 3]) ∧
    (∃ t, rtOfBuffer (fun _ => 0) (some id) (rtExport 8 corner.view) [0, 1, 2, 3] = .ok t ∧ t.data = [0, 1, 3, 4]) :=
  ⟨⟨⟨{ t23 with data := [0, 2, 1, 3, 4, 3] }, [3, 1], 6⟩, by decide +kernel, by decide⟩,
    ⟨{ data := [0, 1, 3, 4], off := 0, dims := [2, 2], strides := [2, 1] }, by decide +kernel, by decide⟩⟩

end Einsums.Props
