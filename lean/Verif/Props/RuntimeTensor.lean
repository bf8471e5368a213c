import Verif.Proofs.RuntimeAccess
import Verif.Props.View
/-
Properties C74–C78: runtime tensors and runtime views.
-/
namespace Einsums.Props
open Spec Model

variable {α : Type}

/-! ### C74: element access -/

/-- **C74 (accepted).** A runtime tensor answers every multi-index whose components are in range, counting negative ones
from the end, with the element it denotes; for a container of indices and for separate integers. -/
theorem C74_accepts (t : Strided α) (ht : t.IsTensor) (f : List Nat → α) (hf : t.Represents f) (idx : List Int)
    (js : List Nat) (h : pyIndices t.dims idx = some js) :
    rtGet t idx = .ok (f js) ∧ rtGetInts t idx = .ok (f js) := by
  have hl := pyIndices_length h
  refine ⟨rtGet_eq ht hf h, ?_⟩
  rw [rtGetInts, if_neg (by omega), if_neg (by omega), rtGet_eq ht hf h]

/-- **C74 (rejected).** Every other multi-index, of whatever length, makes reads and writes throw. -/
theorem C74_rejects (t : Strided α) (ht : t.IsTensor) (idx : List Int) (h : pyIndices t.dims idx = none) (x : α) :
    (rtGet t idx).isError = true ∧ (rtGetInts t idx).isError = true ∧ (rtSet t idx x).isError = true := by
  obtain ⟨e, he⟩ := rtAddr_none ht.wf.len h
  have h1 : rtGet t idx = .error e := by simp [rtGet, he]
  refine ⟨by rw [h1]; rfl, ?_, by simp [rtSet, he, Outcome.isError]⟩
  rw [rtGetInts]
  split
  · rfl
  split
  · rfl
  · rw [h1]; rfl

/-- Apply a history of writes `T(index) = value`; the exceptions of rejected ones are caught. -/
def rtWriteAll (t : Strided α) : List (List Int × α) → Outcome (Strided α)
  | [] => .ok t
  | (i, x) :: ws =>
      match rtSet t i x with
      | .ok t' => rtWriteAll t' ws
      | .error _ => rtWriteAll t ws
      | .ub e => .ub e

/-- **C74 (history).** After any sequence of writes, in range or not, every element holds the last value written to it by
a valid write, or its initial value; the shape does not change and nothing is undefined. -/
theorem C74_history (t : Strided α) (ht : t.IsTensor) (init : List Nat → α) (hf : t.Represents init)
    (ws : List (List Int × α)) :
    ∃ t', rtWriteAll t ws = .ok t' ∧ t'.IsTensor ∧ t'.dims = t.dims ∧
      t'.Represents (afterWrites init (validWrites t.dims ws)) := by
  induction ws generalizing t init with
  | nil => exact ⟨t, rfl, ht, rfl, hf⟩
  | cons w ws ih =>
    obtain ⟨i, x⟩ := w
    cases h : pyIndices t.dims i with
    | none =>
      have := (C74_rejects t ht i h x).2.2
      cases hx : rtSet t i x with
      | ok _ => rw [hx] at this; simp [Outcome.isError] at this
      | ub _ => rw [hx] at this; simp [Outcome.isError] at this
      | error e =>
        obtain ⟨t', h1, h2, h3, h4⟩ := ih t ht init hf
        exact ⟨t', by simp only [rtWriteAll, hx]; exact h1, h2, h3, by simpa [validWrites, h] using h4⟩
    | some js =>
      obtain ⟨t1, e1, ht1, fr, r⟩ := rtSet_eq ht hf h x
      obtain ⟨t', h1, h2, h3, h4⟩ := ih t1 ht1 _ r
      refine ⟨t', by simp only [rtWriteAll, e1]; exact h1, h2, by rw [h3, fr.dims], ?_⟩
      rw [fr.dims] at h4
      simpa [validWrites, h, afterWrites] using h4

/-- Three writes to a 2×3 tensor; the middle one is out of range. -/
example : pyIndices [2, 3] [-1, 2] = some [1, 2] ∧ pyIndices [2, 3] [2, 0] = none ∧
    validWrites [2, 3] [([-1, 2], 7), ([2, 0], 8), ([0, 0], 9)] = [([1, 2], 7), ([0, 0], 9)] ∧
    (∃ t, rtWriteAll t23 [([-1, 2], 7), ([2, 0], 8), ([0, 0], 9)] = .ok t ∧ t.data = [9, 1, 2, 3, 4, 7]) := by
  refine ⟨by decide, by decide, by decide, _, rfl, by decide⟩

/-- **C74 (views, partial).** A runtime view does the same, for as many indices as its rank.
Missing: fewer indices, and a single `ptrdiff_t` (refuted below). -/
theorem C74_view_partial (v : RtView α) (w : v.WF) (f : List Nat → α) (hf : v.view.Represents f) (idx : List Int)
    (hl : v.view.dims.length ≤ idx.length) :
    (∀ js, pyIndices v.view.dims idx = some js →
      rtvGet v idx = .ok (f js) ∧ rtvGetInts v idx = .ok (f js) ∧
      ∀ x, ∃ v', rtvSet v idx x = .ok v' ∧ v'.WF ∧ v.view.Frame v'.view ∧
        v'.view.Represents fun i => if i = js then x else f i) ∧
    (pyIndices v.view.dims idx = none →
      (rtvGet v idx).isError = true ∧ (rtvGetInts v idx).isError = true ∧ ∀ x, (rtvSet v idx x).isError = true) := by
  constructor
  · intro js h
    have hl' := pyIndices_length h
    refine ⟨rtvGet_eq w.view hf h, ?_, fun x => rtvSet_eq w hf h x⟩
    rw [rtvGetInts, if_neg (by omega), if_neg (by omega), rtvGet_eq w.view hf h]
  · intro h
    obtain ⟨e, he⟩ := negCheck_full_none w.view.len hl h
    have h1 : rtvGet v idx = .error e := by simp [rtvGet, he]
    refine ⟨by rw [h1]; rfl, ?_, fun x => by simp [rtvSet, he, Outcome.isError]⟩
    rw [rtvGetInts]
    split
    · rfl
    split
    · rfl
    · rw [h1]; rfl

/-- The first row of `t23`, as a runtime view. -/
def row0 : RtView Nat := { view := { t23 with dims := [3], strides := [1] }, ixStrides := [1], size := 3 }

theorem row0_wf : row0.WF := by
  refine ⟨⟨rfl, ?_, ?_⟩, rfl, rfl⟩
  · intro i hi
    match i, hi with
    | [a], hi => have : a < 3 := hi.1; simp [row0, t23]; omega
  · intro i j hi hj e
    match i, j, hi, hj with
    | [a], [b], _, _ => simpa [row0] using e

/-- `row0` is what `T(0, All)` returns. -/
example : rtArgs true t23 [.at 0, .all] = .ok row0 ∧ rtvGet row0 [-1] = .ok 2 ∧ (rtvGet row0 [3]).isError = true := by
  decide +kernel

/-- **C74 (refuted for views).** A 2×3 view takes one index in a container, and the row view `V` of 3 elements answers
`V(4)` with an element of the next row; `V(7)` is undefined. -/
theorem C74_view_refuted :
    rtvGet (rtvWhole t23 6) [1] = .ok 3 ∧ pyIndices [2, 3] [1] = none ∧
    rtvGet1 row0 4 = .ok 4 ∧ (rtvGet1 row0 7).isUb = true ∧ pyIndices row0.view.dims [4] = none := by
  decide

/-! ### C75: slices -/

/-- **C75 (partial).** `T(args...)` with integers, `All` and `Range`s on a runtime tensor or runtime view, missing
trailing arguments meaning `All`: a sane view of the stated shape whose element `j` is the stated element, for reading
and for writing.
Missing: negative bounds of ranges, empty ranges and empty tensors (refuted below), views of 2^31 elements or more. -/
theorem C75_slice_partial (isTensor : Bool) (t : Strided α) (w : t.WF) (f : List Nat → α) (hf : t.Represents f)
    (args : List Sel) (vd : List Nat) (hn : args.length ≤ t.dims.length)
    (h : selDims t.dims (padAll t.dims.length args) = some vd) (hr : ForwardRanges args) (h0 : numel t.dims ≠ 0)
    (hd : ∀ d ∈ t.dims, d < 2 ^ 63) (hv : numel vd < 2 ^ 31) :
    ∃ v, rtArgs isTensor t args = .ok v ∧ v.WF ∧ v.view.dims = vd ∧ v.view.data = t.data ∧
      (∀ j, InBox j vd → rtvGet v (toIdx j) = .ok (f (selIndex t.dims (padAll t.dims.length args) j))) ∧
      ∀ j x, InBox j vd → ∃ v', rtvSet v (toIdx j) x = .ok v' ∧
        Strided.Represents { t with data := v'.view.data }
          fun i => if i = selIndex t.dims (padAll t.dims.length args) j then x else f i := by
  obtain ⟨v, h1, h2, h3, h4, h5⟩ := rtSlice_eq isTensor w (by simp) (slicesMean_args hn h hr (numel_ne_zero.1 h0) hd) h h0 hd
  have wv := h5.wf w
  have hg : v.view.Represents fun j => f (selIndex t.dims (padAll t.dims.length args) j) := by
    intro j hj
    rw [h5.read w hj, hf _ (h5.addr j hj).1]
  have wf : v.WF := ⟨wv, by rw [h3, h2], by rw [h4, h2, C05_size_partial _ hv]⟩
  refine ⟨v, by rw [rtArgs, if_neg (by omega)]; exact h1, wf, h2, h5.data, ?_, ?_⟩
  · intro j hj
    rw [← h2] at hj
    exact rtvGet_eq wv hg (pyIndices_toIdx hj)
  · intro j x hj
    rw [← h2] at hj
    obtain ⟨a1, a2⟩ := h5.addr j hj
    have hb := wv.bound j hj
    obtain ⟨t', e', fr, r⟩ := ptrModify_eq w hf a1 fun _ => x
    refine ⟨{ v with view := { v.view with data := t'.data } }, ?_, ?_⟩
    · simp only [rtvSet]
      rw [negCheck_full wv.len (pyIndices_toIdx hj)]
      simp only [Outcome.ok_bind, Int.toNat_natCast]
      rw [ptrModify, if_pos (by rw [← a2, ← h5.data]; exact hb)] at e'
      cases e'
      rw [ptrModify, if_pos hb]
      simp only [Outcome.ok_bind, h5.data, a2]; rfl
    · have : t' = { t with data := t'.data } := by
        obtain ⟨a, b, c, d⟩ := t'
        simp only [Strided.mk.injEq, true_and]
        exact ⟨fr.off, fr.dims, fr.strides⟩
      rw [this] at r
      exact r

/-- `T(Range{0,2}, -1)` on a 2×2×3 tensor. -/
example : selDims t223.dims (padAll 3 [.range 0 2, .at (-1)]) = some [2, 3] ∧ ForwardRanges [.range 0 2, .at (-1)] ∧
    selIndex t223.dims (padAll 3 [.range 0 2, .at (-1)]) [1, 2] = [1, 1, 2] ∧
    (∃ v, rtArgs true t223 [.range 0 2, .at (-1)] = .ok v ∧ v.view.dims = [2, 3] ∧ rtvGet v [1, 2] = .ok 11) := by
  refine ⟨by decide, ?_, by decide, ⟨{ t223 with off := 3, dims := [2, 3], strides := [6, 1] }, [3, 1], 6⟩,
    by decide +kernel, by decide, by decide⟩
  intro a b h
  simp at h; omega

/-- **C75 (integers).** Fewer integers than the rank on a const tensor or view, each in range: the view of the remaining
axes. -/
theorem C75_ints_partial (isTensor : Bool) (t : Strided α) (w : t.WF) (f : List Nat → α) (hf : t.Represents f)
    (idx : List Int) (vd : List Nat) (hn : idx.length ≤ t.dims.length) (hi : ∀ i ∈ idx, IsInt64 i)
    (h : selDims t.dims (padAll t.dims.length (idx.map .at)) = some vd) (h0 : numel t.dims ≠ 0)
    (hd : ∀ d ∈ t.dims, d < 2 ^ 63) (hv : numel vd < 2 ^ 31) :
    ∃ v, rtInts isTensor t idx = .ok v ∧ v.WF ∧ v.view.dims = vd ∧ v.view.data = t.data ∧
      ∀ j, InBox j vd → rtvGet v (toIdx j) = .ok (f (selIndex t.dims (padAll t.dims.length (idx.map .at)) j)) := by
  obtain ⟨v, h1, h2, h3, h4, h5⟩ := rtSlice_eq isTensor w (by simpa using hn) (slicesMean_ints h hn hi) h h0 hd
  have wv := h5.wf w
  have hg : v.view.Represents fun j => f (selIndex t.dims (padAll t.dims.length (idx.map .at)) j) := by
    intro j hj
    rw [h5.read w hj, hf _ (h5.addr j hj).1]
  refine ⟨v, h1, ⟨wv, by rw [h3, h2], by rw [h4, h2, C05_size_partial _ hv]⟩, h2, h5.data, ?_⟩
  intro j hj
  rw [← h2] at hj
  exact rtvGet_eq wv hg (pyIndices_toIdx hj)

example : selDims t223.dims (padAll 3 [.at (-2)]) = some [2, 3] ∧ IsInt64 (-2) ∧
    (∃ v, rtInts true t223 [-2] = .ok v ∧ rtvGet v [1, 1] = .ok 4) := by
  refine ⟨by decide, by simp [IsInt64], ⟨{ t223 with dims := [2, 3], strides := [3, 1] }, [3, 1], 6⟩,
    by decide +kernel, by decide⟩

/-- **C75 (rejected, partial).** Too many arguments, or an argument outside its axis, make the call throw. -/
theorem C75_rejects_partial (isTensor : Bool) (t : Strided α) (w : t.WF) (args : List Sel) (hd : ∀ d ∈ t.dims, d < 2 ^ 63)
    (h : t.dims.length < args.length ∨
      ∃ (i : Nat) (a : Sel) (d : Nat), args[i]? = some a ∧ t.dims[i]? = some d ∧ ArgOutside d a) :
    (rtArgs isTensor t args).isError = true := by
  rw [rtArgs]
  split
  · rfl
  rename_i hn
  rcases h with h | ⟨i, a, d, ha, hdi, ho⟩
  · omega
  have hmem := List.mem_of_getElem? hdi
  have hd' := hd d hmem
  have hz : ((t.dims.zip args).map fun p => argSlice p.1 p.2)[i]? = some (argSlice d a) := by
    have : (t.dims.zip args)[i]? = some (d, a) := List.getElem?_zip_eq_some.2 ⟨hdi, ha⟩
    rw [List.getElem?_map, this]; rfl
  obtain ⟨e, he⟩ := rtSlice_rejects isTensor w (xs := (t.dims.zip args).map fun p => argSlice p.1 p.2)
    (.inr ⟨i, _, hz, d, hdi, by
      cases a with
      | all => exact ho.elim
      | «at» k =>
        obtain ⟨⟨h1, h1'⟩, h2⟩ := ho
        left
        refine ⟨rfl, ?_, ?_⟩
        · simp only [argSlice, IsInt64]; split <;> omega
        · simp only [argSlice]; rw [pyIndex_eq_none]; split <;> omega
      | range a b => exact .inr ho⟩)
  rw [he]; rfl

/-- **C75 (integers, rejected).** An integer out of range makes the partial access throw. -/
theorem C75_ints_rejects (isTensor : Bool) (t : Strided α) (w : t.WF) (idx : List Int) (hi : ∀ i ∈ idx, IsInt64 i)
    (h : t.dims.length < idx.length ∨
      ∃ (n : Nat) (i : Int) (d : Nat), idx[n]? = some i ∧ t.dims[n]? = some d ∧ pyIndex d i = none) :
    (rtInts isTensor t idx).isError = true := by
  obtain ⟨e, he⟩ := rtSlice_rejects isTensor w (xs := idx.map fun i => ((-1 : Int), i)) (by
    rcases h with h | ⟨n, i, d, h1, h2, h3⟩
    · left; simpa using h
    · right
      exact ⟨n, (-1, i), by rw [List.getElem?_map, h1]; rfl, d, h2, .inl ⟨rfl, hi i (List.mem_of_getElem? h1), h3⟩⟩)
  rw [rtInts, he]; rfl

/-- **C75 (defined).** No arguments whatever make the slice of a sane tensor or view undefined. -/
theorem C75_defined (isTensor : Bool) (t : Strided α) (w : t.WF) (args : List Sel) :
    (rtArgs isTensor t args).isUb = false := by
  rw [rtArgs]
  split
  · rfl
  · exact rtSlice_defined isTensor w _

example : ArgOutside 2 (.at 2) ∧ ArgOutside 2 (.at (-5)) ∧ ArgOutside 3 (.range 1 4) ∧ ArgOutside 3 (.range 2 2) ∧
    (rtArgs true t23 [.at 2]).isError = true ∧ (rtArgs true t23 [.all, .range 1 4]).isError = true := by
  refine ⟨?_, ?_, ?_, ?_, by decide, by decide⟩ <;> (simp only [ArgOutside, IsInt64]; omega)

/-- **C75 (refuted, negative range end).** `T(Range{0,-1}, All)` on a 2×3 tensor denotes the first row and throws: the
bounds are unsigned, so that the tests for negative bounds never hold. -/
theorem C75_negative_end_refuted : selDims t23.dims [.range 0 (-1), .all] = some [1, 3] ∧
    (rtArgs true t23 [.range 0 (-1), .all]).isError = true := by decide

/-- **C75 (refuted, start −1).** `T(Range{-1,1}, All)` on a 2×3 tensor is taken for `T(1, All)`. -/
theorem C75_minus_one_refuted : selDims t23.dims [.range (-1) 1, .all] = none ∧
    ∃ v, rtArgs true t23 [.range (-1) 1, .all] = .ok v ∧ v.view.dims = [3] ∧ rtvGet v [0] = .ok 3 :=
  ⟨by decide, ⟨{ t23 with off := 3, dims := [3], strides := [1] }, [1], 3⟩, by decide +kernel, by decide, by decide⟩

/-- **C75 (refuted, integers below −d).** `T(-3, All)` on a 2×3 tensor is out of range and returns the last row: the
dimension is added twice. -/
theorem C75_wrapped_twice_refuted : selDims t23.dims [.at (-3), .all] = none ∧
    ∃ v, rtArgs true t23 [.at (-3), .all] = .ok v ∧ v.view.dims = [3] ∧ rtvGet v [0] = .ok 3 :=
  ⟨by decide, ⟨{ t23 with off := 3, dims := [3], strides := [1] }, [1], 3⟩, by decide +kernel, by decide, by decide⟩

/-- **C75 (refuted, empty tensors).** `T(All, All)` on a 0×3 tensor throws. -/
theorem C75_empty_refuted : selDims (rtNew (fun _ => 0) [0, 3]).dims [.all, .all] = some [0, 3] ∧
    (rtArgs true (rtNew (fun _ => 0) [0, 3]) [.all, .all]).isError = true := by decide

/-! ### C76: filling and compound assignment -/

/-- **C76 (views, fill and scalars).** `zero`, `set_all` and `V OP= b` on a runtime view update exactly the elements of the
view, once each, in every order of the loop; the storage outside the view is untouched. -/
theorem C76_view_map (g : α → α) (v : RtView α) (w : v.WF) (f : List Nat → α) (hf : v.view.Represents f) (sch : List Nat)
    (hs : sch.Perm (List.range v.size)) :
    ∃ v', rtvMap g v sch = .ok v' ∧ v'.WF ∧ v.view.Frame v'.view ∧ v'.view.Represents fun i => g (f i) :=
  rtvMap_eq w hf g hs

/-- **C76 (views, elementwise).** `V OP= B` combines each element with the element of `B` at the same index; when the
shapes differ it throws. -/
theorem C76_view_zip (op : α → α → α) (v : RtView α) (w : v.WF) (f : List Nat → α) (hf : v.view.Represents f)
    (b : Strided α) (wb : b.WF) (g : List Nat → α) (hg : b.Represents g) (sch : List Nat)
    (hs : sch.Perm (List.range v.size)) :
    (v.view.dims = b.dims → ∃ v', rtvZip op v b sch = .ok v' ∧ v'.WF ∧ v.view.Frame v'.view ∧
      v'.view.Represents fun i => op (f i) (g i)) ∧
    (v.view.dims ≠ b.dims → (rtvZip op v b sch).isError = true) := by
  refine ⟨fun hd => rtvZip_eq w hf wb hg hd op hs, fun hd => ?_⟩
  rw [rtvZip]
  split
  · rfl
  · rfl

/-- **C76 (tensors).** `T OP= B` for runtime tensors of the same shape, and `T OP= V` for a runtime view of the same shape:
elementwise, in every order.  A view of another shape throws, and so does a tensor of another size. -/
theorem C76_tensor_partial (op : α → α → α) (t : Strided α) (ht : t.IsTensor) (f : List Nat → α) (hf : t.Represents f)
    (sch : List Nat) (hs : sch.Perm (List.range (numel t.dims))) :
    (∀ (b : Strided α) (g : List Nat → α), b.IsTensor → b.Represents g → t.dims = b.dims →
      ∃ t', rtCompoundTensor op t b sch = .ok t' ∧ t'.IsTensor ∧ t'.dims = t.dims ∧ t'.Represents fun i => op (f i) (g i)) ∧
    (∀ b : Strided α, b.IsTensor → numel t.dims ≠ numel b.dims → (rtCompoundTensor op t b sch).isError = true) ∧
    (∀ (v : RtView α) (g : List Nat → α), v.WF → v.view.Represents g → t.dims = v.view.dims →
      ∃ t', rtCompoundView op t v sch = .ok t' ∧ t'.IsTensor ∧ t'.dims = t.dims ∧ t'.Represents fun i => op (f i) (g i)) ∧
    (∀ v : RtView α, t.dims ≠ v.view.dims → (rtCompoundView op t v sch).isError = true) := by
  refine ⟨fun b g hb hg hd => rtCompoundTensor_eq op ht hb hd hf hg hs, ?_,
    fun v g w hg hd => rtCompoundView_eq op ht w hd hf hg hs, ?_⟩
  · intro b hb hne
    rw [rtCompoundTensor, if_pos (by rw [ht.length, hb.length]; exact hne)]; rfl
  · intro v hne
    rw [rtCompoundView]
    split
    · rfl
    · rw [if_pos (Ne.symm hne)]; rfl

/-- The corner `T(Range{0,2}, Range{0,2})` of `t23`. -/
def corner : RtView Nat := { view := { t23 with dims := [2, 2] }, ixStrides := [2, 1], size := 4 }

theorem corner_wf : corner.WF := by
  refine ⟨⟨rfl, ?_, ?_⟩, rfl, rfl⟩
  · intro i hi
    match i, hi with
    | [a, b], hi =>
      have h1 : a < 2 := hi.1
      have h2 : b < 2 := hi.2.1
      simp [corner, t23]; omega
  · intro i j hi hj e
    match i, j, hi, hj with
    | [a, b], [c, d], hi, hj =>
      have h1 : a < 2 := hi.1
      have h2 : b < 2 := hi.2.1
      have h3 : c < 2 := hj.1
      have h4 : d < 2 := hj.2.1
      simp only [corner, t23, dot_cons, dot_nil_left] at e
      simp only [List.cons.injEq, and_true]
      omega

/-- The corner is what the slice returns; filling it in a scrambled order leaves the third column alone. -/
example : rtArgs true t23 [.range 0 2, .range 0 2] = .ok corner ∧ [2, 0, 3, 1].Perm (List.range corner.size) ∧
    (∃ v', rtvMap (fun _ => 9) corner [2, 0, 3, 1] = .ok v' ∧ v'.view.data = [9, 9, 2, 9, 9, 5]) := by
  refine ⟨by decide, by decide, _, rfl, by decide⟩

/-- **C76 (refuted for tensors of the same size).** A 2×3 tensor may be added to a 3×2 tensor. -/
theorem C76_shape_refuted : ∃ t b t' : Strided Nat, t.IsTensor ∧ b.IsTensor ∧ t.dims ≠ b.dims ∧
    rtCompoundTensor (· + ·) t b (List.range 6) = .ok t' :=
  ⟨t23, { data := [0, 1, 2, 3, 4, 5], off := 0, dims := [3, 2], strides := [2, 1] }, _,
    ⟨rfl, by decide, by decide⟩, ⟨rfl, by decide, by decide⟩, by decide, rfl⟩

/-- **C76 (refuted for large views).** The view `T(All, All)` of any 65536×65536 tensor has `_size` 0, so that `set_all`
returns and changes nothing. -/
theorem C76_large_refuted (t : Strided α) (ht : t.IsTensor) (hd : t.dims = [65536, 65536]) (x : α) :
    ∃ v, rtArgs true t [.all, .all] = .ok v ∧ v.view.dims = [65536, 65536] ∧
      rtvMap (fun _ => x) v (List.range v.size) = .ok v := by
  obtain ⟨v, h1, h2, h3, h4, h5⟩ := rtSlice_eq true ht.wf (args := [.all, .all]) (vd := [65536, 65536])
    (xs := (t.dims.zip [.all, .all]).map fun p => argSlice p.1 p.2) (by simp)
    (slicesMean_args (vd := [65536, 65536]) (by rw [hd]; decide) (by rw [hd]; decide) (by intro a b h; simp at h)
      (by rw [hd]; decide) (by rw [hd]; decide)) (by rw [hd]; decide) (by rw [hd]; decide) (by rw [hd]; decide)
  have hs : v.size = 0 := by rw [h4]; decide
  refine ⟨v, by rw [rtArgs, if_neg (by rw [hd]; decide)]; exact h1, h2, ?_⟩
  rw [hs]; rfl

/-! ### C77: construction and assignment -/

/-- **C77 (from a tensor).** A runtime tensor made from, or assigned, a `Tensor` of less than 2^31 elements is equal to
it. -/
theorem C77_of_tensor_partial (t : Strided α) (ht : t.IsTensor) (h : numel t.dims < 2 ^ 31) : rtOfTensor t = .ok t := by
  rw [rtOfTensor, C05_size_partial _ h, if_neg (by rw [ht.length]; omega), ← ht.length, List.take_length]
  rw [show (0 : Nat) = t.off from ht.off.symm]

/-- **C77 (from a view).** A runtime tensor made from a view has the view's shape and elements, in every order of the
loop. -/
theorem C77_of_view (z : Nat → α) (v : Strided α) (w : v.WF) (g : List Nat → α) (hg : v.Represents g) (sch : List Nat)
    (hs : sch.Perm (List.range (numel v.dims))) :
    ∃ t, rtOfView z v sch = .ok t ∧ t.IsTensor ∧ t.dims = v.dims ∧ t.Represents g :=
  rtOfView_eq z w hg hs

/-- **C77 (assignment).** `T = S` for runtime tensors, and `T = V` for a runtime view of the same element type, whatever
shape `T` had before: `T` gets the shape and the elements of the source. -/
theorem C77_assign (z : Nat → α) (dst : Strided α) (hd : dst.IsTensor) (g : List Nat → α) (sch : List Nat) :
    (∀ src : Strided α, src.IsTensor → src.Represents g → sch.Perm (List.range (numel src.dims)) →
      ∃ t, rtAssign z dst src sch = .ok t ∧ t.IsTensor ∧ t.dims = src.dims ∧ t.Represents g) ∧
    (∀ src : RtView α, src.WF → src.view.Represents g → sch.Perm (List.range (numel src.view.dims)) →
      ∃ t, rtAssignView z dst src sch = .ok t ∧ t.IsTensor ∧ t.dims = src.view.dims ∧ t.Represents g) :=
  ⟨fun _ ht hg hs => rtAssign_eq z dst ht hg hs, fun _ w hg hs => rtAssignView_eq z hd w hg hs⟩

/-- **C77 (assignment to a view).** `V = B` for a runtime tensor `B` or any view `B` of the same shape: the elements of
`V` become those of `B`, nothing else changes; another shape throws. -/
theorem C77_assign_to_view (v : RtView α) (w : v.WF) (f : List Nat → α) (hf : v.view.Represents f) (g : List Nat → α)
    (b : Strided α) (hg : b.Represents g) (sch : List Nat) (hs : sch.Perm (List.range v.size)) :
    (v.view.dims = b.dims → b.WF → ∃ v', rtvZip (fun _ x => x) v b sch = .ok v' ∧ v'.WF ∧ v.view.Frame v'.view ∧
      v'.view.Represents g) ∧
    (v.view.dims = b.dims → b.IsTensor → ∃ v', rtvAssignTensor v b sch = .ok v' ∧ v'.WF ∧ v.view.Frame v'.view ∧
      v'.view.Represents g) ∧
    (v.view.dims ≠ b.dims → (rtvZip (fun _ x => x) v b sch).isError = true ∧ (rtvAssignTensor v b sch).isError = true) := by
  refine ⟨fun hd wb => rtvZip_eq w hf wb hg hd _ hs, fun hd ht => rtvAssignTensor_eq w hf ht hg hd hs, fun hd => ?_⟩
  rw [rtvZip, rtvAssignTensor]
  split
  · exact ⟨rfl, rfl⟩
  · exact ⟨rfl, rfl⟩

/-- **C77 (other views, partial).** Assigning a `TensorView`, or a runtime view of another element type, to a runtime
tensor copies shape and elements if the view has row-major strides.
Missing: every other view (refuted below). -/
theorem C77_assign_strided_partial (z : Nat → α) (dst : Strided α) (g : List Nat → α) (sch : List Nat) :
    (∀ src : Strided α, src.strides = (dimsToStrides src.dims).2 → src.Represents g → numel src.dims < 2 ^ 31 →
      sch.Perm (List.range (numel src.dims)) →
      ∃ t, rtAssignTensorView z dst src sch = .ok t ∧ t.IsTensor ∧ t.dims = src.dims ∧ t.Represents g) ∧
    (∀ src : RtView α, src.WF → src.view.strides = (dimsToStrides src.view.dims).2 → src.view.Represents g →
      sch.Perm (List.range (numel src.view.dims)) →
      ∃ t, rtAssignViewConv z dst src sch = .ok t ∧ t.IsTensor ∧ t.dims = src.view.dims ∧ t.Represents g) := by
  constructor
  · intro src hst hg hn hs
    rw [rtAssignTensorView, hst]
    exact rtAssignStrided_eq z dst (C05_size_partial _ hn) (fun i hi => hg i hi) hs
  · intro src w hst hg hs
    rw [rtAssignViewConv, hst]
    exact rtAssignStrided_eq z dst w.size (fun i hi => rtvGet_eq w.view hg (pyIndices_toIdx hi)) hs

/-- Copies of the corner of `t23`, and of all of it, in a scrambled order. -/
example : (∃ t, rtOfView (fun _ => 0) corner.view [3, 1, 0, 2] = .ok t ∧ t.dims = [2, 2] ∧ t.data = [0, 1, 3, 4]) ∧
    (∃ t, rtAssignView (fun _ => 0) t223 corner [3, 1, 0, 2] = .ok t ∧ t.dims = [2, 2] ∧ t.data = [0, 1, 3, 4]) ∧
    rtAssign (fun _ => 0) t223 t23 [5, 4, 3, 2, 1, 0] = .ok t23 ∧
    rtAssignTensorView (fun _ => 0) t223 t23 [5, 4, 3, 2, 1, 0] = .ok t23 ∧ rtOfTensor t23 = .ok t23 := by
  refine ⟨⟨_, rfl, by decide, by decide⟩, ⟨_, rfl, by decide, by decide⟩, by decide, by decide, by decide⟩

/-- **C77 (refuted for strided views).** Assigning the 2×2 corner `[[0,1],[3,4]]` of a 2×3 tensor: as a `TensorView` the
copy holds 0, 1, 2, 3 and keeps the strides of the view, so that its element (1,1) throws; as a runtime view of another
element type the assignment throws. -/
theorem C77_assign_strided_refuted : corner.WF ∧
    (∃ t, rtAssignTensorView (fun _ => 0) t23 corner.view [0, 1, 2, 3] = .ok t ∧ t.dims = [2, 2] ∧ t.data = [0, 1, 2, 3] ∧
      corner.view.read [1, 1] = .ok 4 ∧ (rtGet t [1, 1]).isError = true) ∧
    (rtAssignViewConv (fun _ => 0) t23 corner [0, 1, 2, 3]).isError = true :=
  ⟨corner_wf, ⟨_, rfl, by decide, by decide, by decide, by decide⟩, by decide⟩

/-! ### C78: views with other dimensions -/

/-- **C78 (partial).** A runtime view of a runtime tensor with other dimensions of the same product: the element at a
row-major position is the tensor's element at that position.
Missing: views of strided views, and other numbers of elements (refuted below). -/
theorem C78_reshape_partial (t : Strided α) (ht : t.IsTensor) (f : List Nat → α) (hf : t.Represents f) (dims : List Nat)
    (h : numel dims = numel t.dims) :
    (rtvReshape t dims).WF ∧ (rtvReshape t dims).view.dims = dims ∧
    ∀ i j, InBox i t.dims → InBox j dims → rowMajor i t.dims = rowMajor j dims →
      rtvGet (rtvReshape t dims) (toIdx j) = .ok (f i) := by
  have hT : (rtvReshape t dims).view.IsTensor := ⟨ht.off, rfl, by rw [show (rtvReshape t dims).view.data = t.data from rfl, ht.length, ← h]; rfl⟩
  refine ⟨⟨hT.wf, rfl, by simp [rtvReshape, dimsToStrides_fst]⟩, rfl, ?_⟩
  intro i j hi hj e
  have h1 := (represents_iff ht.wf).1 hf i hi
  rw [ht.strides, dot_strides_eq hi.length, e] at h1
  simp only [rtvGet]
  rw [negCheck_full hT.wf.len (pyIndices_toIdx (ds := (rtvReshape t dims).view.dims) hj)]
  simp only [Outcome.ok_bind, Int.toNat_natCast, ptrRead]
  have hd : dot j (rtvReshape t dims).view.strides = rowMajor j dims := dot_strides_eq hj.length
  rw [hd, show (rtvReshape t dims).view.data = t.data from rfl, show (rtvReshape t dims).view.off = t.off from rfl, h1]

/-- **C78 (rank 1).** `to_rank_1_view` of a runtime tensor of rank at least 1 has as many elements as the tensor, in
row-major order. -/
theorem C78_rank1 (t : Strided α) (ht : t.IsTensor) (h0 : t.dims ≠ []) (f : List Nat → α) (hf : t.Represents f) :
    (rtRank1 t).WF ∧ (rtRank1 t).view.dims = [numel t.dims] ∧
    ∀ i, InBox i t.dims → rtvGet (rtRank1 t) [(rowMajor i t.dims : Int)] = .ok (f i) := by
  have hl : linearSize t.strides t.dims = numel t.dims := by
    rw [ht.strides, ← transformStrides_eq, linearSize_eq h0]
  rw [rtRank1, hl]
  obtain ⟨h1, h2, h3⟩ := C78_reshape_partial t ht f hf [numel t.dims] (by simp)
  refine ⟨h1, h2, fun i hi => ?_⟩
  exact h3 i [rowMajor i t.dims] hi ⟨rowMajor_lt hi, trivial⟩ (by simp)

example : rtvGet (rtvReshape t23 [3, 2]) [1, 1] = .ok 3 ∧ rowMajor [1, 0] [2, 3] = rowMajor [1, 1] [3, 2] ∧
    rtvGet (rtRank1 t23) [-1] = .ok 5 := by decide

/-- **C78 (refuted).** The 2×2 corner of a 2×3 tensor, viewed with dimensions 4: its element 2 is the tensor's element
(0,2), outside the corner.  Viewing 6 elements with dimensions 3×3 is accepted, and reading the last element is undefined.
The rank-1 view of a rank-0 tensor is empty. -/
theorem C78_reshape_refuted :
    rtvGet corner [1, 0] = .ok 3 ∧ rtvGet (rtvReshape corner.view [4]) [2] = .ok 2 ∧
    (rtvGet (rtvReshape t23 [3, 3]) [2, 2]).isUb = true ∧
    (rtNew (fun _ => 0) []).data.length = 1 ∧ (rtRank1 (rtNew (fun _ => 0) [])).view.dims = [0] := by decide

end Einsums.Props
