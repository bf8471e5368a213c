import Verif.Spec.ViewOptions
import Verif.Proofs.View
import Verif.Proofs.Flatten
import Verif.Proofs.Size
import Verif.Props.Laguerre
/-
C174: the options of a view of a tensor: which elements a view shows, whatever options are given in whatever order.
-/
namespace Einsums.Props
open Spec Model

variable {α : Type}

/-! ### The search for an option -/

theorem tuplePosition_find (d : ViewOpt) : ∀ (args : List ViewOpt) (p : Int), ∃ k : Nat,
    tuplePosition d.ty ((args ++ [d]).map ViewOpt.ty) p false = p + 1 + k ∧
    (args ++ [d])[k]? = some ((args.find? (fun o => decide (o.ty = d.ty))).getD d)
  | [], p => ⟨0, by simp [tuplePosition], by simp⟩
  | a :: args, p => by
    by_cases h : a.ty = d.ty
    · exact ⟨0, by simp [tuplePosition, h], by simp [h]⟩
    · obtain ⟨k, h1, h2⟩ := tuplePosition_find d args (p + 1)
      refine ⟨k + 1, ?_, ?_⟩
      · simp only [List.cons_append, List.map_cons, tuplePosition, h, decide_false]
        rw [h1]; push_cast; ring
      · simpa [h] using h2

/-- **C174, the search**: `arguments::get` gives the first argument of the type of the default, and the default if there is
none, whatever the other arguments. -/
theorem C174_get (d : ViewOpt) (args : List ViewOpt) :
    argumentsGet d args = .ok ((args.find? (fun o => decide (o.ty = d.ty))).getD d) := by
  obtain ⟨k, h1, h2⟩ := tuplePosition_find d args (-1)
  unfold argumentsGet
  simp only
  rw [h1, if_neg (by omega), show ((-1 : Int) + 1 + (k : Int)).toNat = k by omega, h2]

theorem get_stride (d : List Int) (args : List ViewOpt) :
    argumentsGet (.stride d) args = .ok (.stride ((askedStride d.length args).getD d)) := by
  rw [C174_get]
  congr 1
  induction args with
  | nil => rfl
  | cons a args ih =>
    cases a with
    | stride s =>
      by_cases h : s.length = d.length
      · simp [ViewOpt.ty, askedStride, h]
      · simpa [ViewOpt.ty, askedStride, h] using ih
    | offset o => simpa [ViewOpt.ty, askedStride] using ih
    | other v => simpa [ViewOpt.ty, askedStride] using ih

theorem get_offset (d : List Int) (args : List ViewOpt) :
    argumentsGet (.offset d) args = .ok (.offset ((askedOffset d.length args).getD d)) := by
  rw [C174_get]
  congr 1
  induction args with
  | nil => rfl
  | cons a args ih =>
    cases a with
    | offset s =>
      by_cases h : s.length = d.length
      · simp [ViewOpt.ty, askedOffset, h]
      · simpa [ViewOpt.ty, askedOffset, h] using ih
    | stride o => simpa [ViewOpt.ty, askedOffset] using ih
    | other v => simpa [ViewOpt.ty, askedOffset] using ih

/-- Only the options asked for matter. -/
theorem viewInit_congr (fl : ℚ → ℚ) (t : Strided α) (dims : List Int) (o o' : List ViewOpt)
    (hs : ∀ r, askedStride r o = askedStride r o') (ho : ∀ r, askedOffset r o = askedOffset r o') :
    viewInit fl t dims o = viewInit fl t dims o' := by
  simp only [viewInit, viewAutoDim, viewDefaultStrides, get_stride, get_offset, hs, ho]

theorem askedStride_some {r : Nat} {s : List Int} : ∀ {os : List ViewOpt}, askedStride r os = some s →
    ViewOpt.stride s ∈ os ∧ s.length = r
  | [], h => by simp [askedStride] at h
  | .stride s' :: os, h => by
    by_cases e : s'.length = r
    · simp only [askedStride, e, if_true, Option.some.injEq] at h
      subst h
      exact ⟨List.mem_cons_self .., e⟩
    · simp only [askedStride, e, if_false] at h
      exact ⟨List.mem_cons_of_mem _ (askedStride_some h).1, (askedStride_some h).2⟩
  | .offset o :: os, h => by
    simp only [askedStride] at h
    exact ⟨List.mem_cons_of_mem _ (askedStride_some h).1, (askedStride_some h).2⟩
  | .other o :: os, h => by
    simp only [askedStride] at h
    exact ⟨List.mem_cons_of_mem _ (askedStride_some h).1, (askedStride_some h).2⟩

theorem askedStride_none {r : Nat} {s : List Int} : ∀ {os : List ViewOpt}, askedStride r os = none →
    ViewOpt.stride s ∈ os → s.length ≠ r
  | .stride s' :: os, h, hm => by
    by_cases e : s'.length = r
    · simp [askedStride, e] at h
    · simp only [askedStride, e, if_false] at h
      rcases List.mem_cons.mp hm with hm | hm
      · cases hm; exact e
      · exact askedStride_none h hm
  | .offset o :: os, h, hm => by
    simp only [askedStride] at h
    exact askedStride_none h (by simpa using hm)
  | .other o :: os, h, hm => by
    simp only [askedStride] at h
    exact askedStride_none h (by simpa using hm)

theorem askedOffset_some {r : Nat} {s : List Int} : ∀ {os : List ViewOpt}, askedOffset r os = some s →
    ViewOpt.offset s ∈ os ∧ s.length = r
  | [], h => by simp [askedOffset] at h
  | .offset s' :: os, h => by
    by_cases e : s'.length = r
    · simp only [askedOffset, e, if_true, Option.some.injEq] at h
      subst h
      exact ⟨List.mem_cons_self .., e⟩
    · simp only [askedOffset, e, if_false] at h
      exact ⟨List.mem_cons_of_mem _ (askedOffset_some h).1, (askedOffset_some h).2⟩
  | .stride o :: os, h => by
    simp only [askedOffset] at h
    exact ⟨List.mem_cons_of_mem _ (askedOffset_some h).1, (askedOffset_some h).2⟩
  | .other o :: os, h => by
    simp only [askedOffset] at h
    exact ⟨List.mem_cons_of_mem _ (askedOffset_some h).1, (askedOffset_some h).2⟩

theorem askedOffset_none {r : Nat} {s : List Int} : ∀ {os : List ViewOpt}, askedOffset r os = none →
    ViewOpt.offset s ∈ os → s.length ≠ r
  | .offset s' :: os, h, hm => by
    by_cases e : s'.length = r
    · simp [askedOffset, e] at h
    · simp only [askedOffset, e, if_false] at h
      rcases List.mem_cons.mp hm with hm | hm
      · cases hm; exact e
      · exact askedOffset_none h hm
  | .stride o :: os, h, hm => by
    simp only [askedOffset] at h
    exact askedOffset_none h (by simpa using hm)
  | .other o :: os, h, hm => by
    simp only [askedOffset] at h
    exact askedOffset_none h (by simpa using hm)

theorem ty_unique : ∀ {os : List ViewOpt} {a b : ViewOpt}, (os.map ViewOpt.ty).Nodup → a ∈ os → b ∈ os →
    a.ty = b.ty → a = b
  | o :: os, a, b, hn, ha, hb, e => by
    obtain ⟨h1, h2⟩ := List.nodup_cons.mp hn
    rcases List.mem_cons.mp ha with ha | ha <;> rcases List.mem_cons.mp hb with hb | hb
    · rw [ha, hb]
    · exact absurd (List.mem_map.mpr ⟨b, hb, by rw [← e, ha]⟩) h1
    · exact absurd (List.mem_map.mpr ⟨a, ha, by rw [e, hb]⟩) h1
    · exact ty_unique h2 ha hb e

/-- **C174, order of the options**: if no two options have the same type, their order does not matter. -/
theorem C174_order (fl : ℚ → ℚ) (t : Strided α) (dims : List Int) (o o' : List ViewOpt) (hp : o.Perm o')
    (hn : (o.map ViewOpt.ty).Nodup) : viewInit fl t dims o = viewInit fl t dims o' := by
  have hn' : (o'.map ViewOpt.ty).Nodup := (hp.map _).nodup_iff.mp hn
  refine viewInit_congr fl t dims o o' ?_ ?_
  · intro r
    cases h : askedStride r o with
    | none =>
      cases h' : askedStride r o' with
      | none => rfl
      | some s =>
        obtain ⟨hm, hl⟩ := askedStride_some h'
        exact absurd hl (askedStride_none h (hp.mem_iff.mpr hm))
    | some s =>
      obtain ⟨hm, hl⟩ := askedStride_some h
      cases h' : askedStride r o' with
      | none => exact absurd hl (askedStride_none h' (hp.mem_iff.mp hm))
      | some s' =>
        obtain ⟨hm', hl'⟩ := askedStride_some h'
        have := ty_unique hn' (hp.mem_iff.mp hm) hm' (by simp [ViewOpt.ty, hl, hl'])
        cases this; rfl
  · intro r
    cases h : askedOffset r o with
    | none =>
      cases h' : askedOffset r o' with
      | none => rfl
      | some s =>
        obtain ⟨hm, hl⟩ := askedOffset_some h'
        exact absurd hl (askedOffset_none h (hp.mem_iff.mpr hm))
    | some s =>
      obtain ⟨hm, hl⟩ := askedOffset_some h
      cases h' : askedOffset r o' with
      | none => exact absurd hl (askedOffset_none h' (hp.mem_iff.mp hm))
      | some s' =>
        obtain ⟨hm', hl'⟩ := askedOffset_some h'
        have := ty_unique hn' (hp.mem_iff.mp hm) hm' (by simp [ViewOpt.ty, hl, hl'])
        cases this; rfl

/-! ### The view -/

theorem no_auto (ds : List Nat) : (toIdx ds).filter (· == -1) = [] := by
  rw [List.filter_eq_nil_iff]
  intro x hx
  obtain ⟨n, _, rfl⟩ := List.mem_map.mp hx
  simp only [beq_iff_eq]
  show ¬ ((n : Int) = -1)
  omega

theorem any_neg_ofNat (l : List Nat) : (l.map Int.ofNat).any (· < 0) = false := by
  rw [List.any_eq_false]
  intro x hx
  obtain ⟨n, _, rfl⟩ := List.mem_map.mp hx
  simp only [decide_eq_true_eq, not_lt]
  exact Int.natCast_nonneg n

theorem toNat_ofNat (l : List Nat) : (l.map Int.ofNat).map Int.toNat = l := by
  induction l with
  | nil => rfl
  | cons a l ih => simpa using ih

theorem foldl_mul_ofNat (l : List Nat) : ∀ a : Nat,
    (l.map Int.ofNat).foldl (· * ·) (a : Int) = ((l.foldl (· * ·) a : Nat) : Int) := by
  induction l with
  | nil => intro a; rfl
  | cons x l ih =>
    intro a
    simp only [List.map_cons, List.foldl_cons]
    rw [← ih (a * x)]
    congr 1

/-- The offset asked for as numbers, or zeros. -/
theorem zeros_toIdx (n : Nat) : List.replicate n (0 : Int) = toIdx (List.replicate n 0) := by
  simp [toIdx]

theorem dot_zeros (n : Nat) (ss : List Nat) : dot (List.replicate n 0) ss = 0 := by
  induction n generalizing ss with
  | zero => simp
  | succ n ih => cases ss with
    | nil => simp [List.replicate_succ]
    | cons s ss => simp [List.replicate_succ, ih]

/-- **C174 (partial), a box of a tensor**: a view of the same rank with an `Offset` of that rank and no `Stride` of that rank,
among any other options in any order, of a tensor or view `t`, with dimensions that keep the box inside `t`, is that box: its element `j`
is the element of `t` at the offset plus `j`.  Missing: options of another rank (`C174_ignored_refuted`). -/
theorem C174_box_partial (fl : ℚ → ℚ) (t : Strided α) (w : t.WF) (bs : List (Nat × Nat)) (hb : BoxIn t.dims bs)
    (opts : List ViewOpt) (hs : askedStride t.dims.length opts = none)
    (ho : askedOffset t.dims.length opts = some (toIdx (bs.map (·.1)))) :
    ∃ v, viewInit fl t (toIdx (bs.map fun r => r.2 - r.1)) opts = .ok v ∧
      v.dims = bs.map (fun r => r.2 - r.1) ∧
      ∀ j, InBox j v.dims → v.read (toIdx j) = t.read (toIdx (shift (bs.map (·.1)) j)) := by
  obtain ⟨v, h1, h2, h3⟩ := boxView w hb
  have hl : (toIdx (bs.map fun r => r.2 - r.1)).length = t.dims.length := by
    simp [toIdx, hb.length]
  refine ⟨v, ?_, by rw [h2], fun j hj => h3.read w hj⟩
  rw [← h1]
  unfold viewInit
  simp only [no_auto, List.length_nil]
  rw [if_neg (by omega), if_neg (by omega), if_neg (by omega)]
  simp only [Outcome.ok_bind, viewDefaultStrides, if_pos hl, get_stride, get_offset, List.length_map,
    List.length_replicate, w.len, hs, ho, Option.getD_none, Option.getD_some, ViewOpt.values]
  rw [if_neg (by rw [any_neg_ofNat]; simp), toNat_ofNat]

/-- **C174, explicit strides**: with a `Stride` of the rank of the view, and the `Offset` asked for if any, of any rank of the view and
of the parent, the view has exactly these strides, and starts at the element of the parent at the offset: its element
`j` is at the position of that element plus the sum of `j` times the strides. -/
theorem C174_strides (fl : ℚ → ℚ) (t : Strided α) (nds s : List Nat) (hr : 0 < nds.length)
    (offs : List Nat) (opts : List ViewOpt)
    (hs : askedStride nds.length opts = some (toIdx s))
    (ho : (askedOffset t.dims.length opts).getD (List.replicate t.dims.length 0) = toIdx offs)
    (hin : t.off + dot offs t.strides ≤ t.data.length) (hlen : t.strides.length = t.dims.length) :
    viewInit fl t (toIdx nds) opts =
      .ok { data := t.data, off := t.off + dot offs t.strides, dims := nds, strides := s } := by
  rw [← mkView_ok (dims := nds) (strides := s) hin]
  have hsl : s.length = nds.length := by simpa [toIdx] using (askedStride_some hs).2
  have hnl : (toIdx nds).length = nds.length := by simp [toIdx]
  have hneg : ¬ ((toIdx s).headD 0 = -1) := by
    cases s with
    | nil => simp [toIdx]
    | cons a s =>
      simp only [toIdx, List.map_cons, List.headD_cons]
      show ¬ ((a : Int) = -1)
      omega
  have hd : ∃ d, viewDefaultStrides t (toIdx nds) opts = .ok d ∧ d.length = nds.length := by
    unfold viewDefaultStrides
    split
    · rename_i h
      exact ⟨_, rfl, by simp [hlen, ← h, toIdx]⟩
    · split
      · refine ⟨_, rfl, ?_⟩
        simp [length_transformStrides, toIdx]
      · refine ⟨toIdx s, ?_, by simp [toIdx, hsl]⟩
        rw [get_stride]
        have e : (-1 :: List.replicate ((toIdx nds).length - 1) (0 : Int)).length = nds.length := by
          simp only [List.length_cons, List.length_replicate, hnl]; omega
        rw [e, hs]
        simp only [Outcome.ok_bind, Option.getD_some, ViewOpt.values]
        exact if_neg hneg
  obtain ⟨d, hd1, hd2⟩ := hd
  unfold viewInit
  simp only [no_auto, List.length_nil]
  rw [if_neg (by omega), if_neg (by omega), if_neg (by omega)]
  simp only [Outcome.ok_bind, hd1, get_stride, get_offset, hd2, hs, List.length_replicate, ho,
    Option.getD_some, ViewOpt.values]
  have h1 : (toIdx s).any (· < 0) = false := any_neg_ofNat s
  have h2 : (toIdx s).map Int.toNat = s := toNat_ofNat s
  rw [if_neg (by rw [h1]; simp), h2]

/-- What a view of another rank without options is. -/
theorem viewInit_plain (fl : ℚ → ℚ) (t : Strided α) (nds : List Nat) (opts : List ViewOpt)
    (hd : nds.length ≠ t.dims.length) (hn : numel nds = numel t.dims) (h0 : t.off ≤ t.data.length)
    (hs : askedStride nds.length opts = none) (ho : askedOffset t.dims.length opts = none) :
    viewInit fl t (toIdx nds) opts =
      .ok { data := t.data, off := t.off, dims := nds, strides := (dimsToStrides nds).2 } := by
  have hl : (toIdx nds).length ≠ t.dims.length := by simpa [toIdx] using hd
  have hf : (toIdx nds).foldl (· * ·) 1 = ((t.dims.foldl (· * ·) 1 : Nat) : Int) := by
    have := foldl_mul_ofNat nds 1
    simp only [toIdx]
    rw [show ((1 : Nat) : Int) = 1 from rfl] at this
    rw [this, foldl_mul_eq, foldl_mul_eq, hn]
  have hm : (toIdx nds).map Int.toNat = nds := toNat_ofNat nds
  have hk := mkView_ok (t := t) (dims := nds) (offs := List.replicate t.dims.length 0)
    (strides := transformStrides nds) (by rw [dot_zeros]; omega)
  rw [dot_zeros, Nat.add_zero, ← zeros_toIdx] at hk
  rw [← transformStrides_eq, ← hk]
  unfold viewInit
  simp only [no_auto, List.length_nil]
  rw [if_neg (by omega), if_neg (by omega), if_neg (by omega)]
  simp only [Outcome.ok_bind, viewDefaultStrides, if_neg hl, if_pos hf, hm, get_stride, get_offset,
    List.length_map, List.length_replicate, length_transformStrides, hs, ho, Option.getD_none, ViewOpt.values]
  rw [if_neg (by rw [any_neg_ofNat]; simp), toNat_ofNat]

/-- **C174 (partial), another shape**: a view of another rank with as many elements, of a tensor or view that is laid out row-major without
gaps, without a `Stride` and an `Offset` that fit, has the same elements in the same row-major order.  Missing: views with gaps, where it
shows other elements (`C174_shape_refuted`). -/
theorem C174_shape_partial (fl : ℚ → ℚ) (t : Strided α) (hrm : t.RowMajor) (nds : List Nat) (opts : List ViewOpt)
    (hd : nds.length ≠ t.dims.length) (hn : numel nds = numel t.dims)
    (hs : askedStride nds.length opts = none) (ho : askedOffset t.dims.length opts = none) :
    ∃ v, viewInit fl t (toIdx nds) opts = .ok v ∧ v.dims = nds ∧
      ∀ i j, InBox i t.dims → InBox j nds → rowMajor i t.dims = rowMajor j nds →
        v.read (toIdx j) = t.read (toIdx i) := by
  have hfit := hrm.fits
  refine ⟨_, viewInit_plain fl t nds opts hd hn (by omega) hs ho, rfl, ?_⟩
  intro i j hi hj he
  have h1 := rowMajor_lt hi
  have b1 : t.off + dot i t.strides < t.data.length := by
    rw [hrm.strides, dot_strides_eq hi.length]; omega
  have e : t.off + dot j (dimsToStrides nds).2 = t.off + dot i t.strides := by
    rw [hrm.strides, dot_strides_eq hi.length, dot_strides_eq hj.length, he]
  rw [read_eq (t := t) (pyIndices_toIdx hi) b1,
    read_eq (t := { data := t.data, off := t.off, dims := nds, strides := (dimsToStrides nds).2 })
      (pyIndices_toIdx hj) (by simp only; omega)]
  congr 1
  simp only [e]

/-- **C174, strides needed**: a view of another rank with another number of elements, without a `Stride` of its rank, is
always refused. -/
theorem C174_refused (fl : ℚ → ℚ) (t : Strided α) (nds : List Nat) (opts : List ViewOpt) (hr : 0 < nds.length)
    (hd : nds.length ≠ t.dims.length) (hn : numel nds ≠ numel t.dims)
    (hs : askedStride nds.length opts = none) :
    viewInit fl t (toIdx nds) opts =
      .error "Unable to automatically deduce stride information. Stride must be passed in." := by
  have hnl : (toIdx nds).length = nds.length := by simp [toIdx]
  have hf : ¬ ((toIdx nds).foldl (· * ·) 1 = ((t.dims.foldl (· * ·) 1 : Nat) : Int)) := by
    have := foldl_mul_ofNat nds 1
    simp only [toIdx]
    rw [show ((1 : Nat) : Int) = 1 from rfl] at this
    rw [this, foldl_mul_eq, foldl_mul_eq]
    intro h
    exact hn (by simpa using Int.ofNat.inj h)
  unfold viewInit
  simp only [no_auto, List.length_nil]
  rw [if_neg (by omega), if_neg (by omega), if_neg (by omega)]
  simp only [Outcome.ok_bind, viewDefaultStrides]
  rw [if_neg (by rw [hnl]; exact hd), if_neg hf, get_stride]
  have e : (-1 :: List.replicate ((toIdx nds).length - 1) (0 : Int)).length = nds.length := by
    simp only [List.length_cons, List.length_replicate, hnl]; omega
  rw [e, hs]
  simp only [Outcome.ok_bind, Option.getD_none, ViewOpt.values, List.headD_cons, if_true]
  rfl

/-! ### A computed dimension -/

/-- **C174, refused dimensions**: with more than one −1, or one in a view of more than one dimension, the view is refused, whatever the
options. -/
theorem C174_auto_refused (fl : ℚ → ℚ) (t : Strided α) (dims : List Int) (opts : List ViewOpt)
    (h1 : -1 ∈ dims) (h2 : 1 < dims.length) : (viewInit fl t dims opts).isError = true := by
  have hpos : 0 < (dims.filter (· == -1)).length :=
    List.length_pos_of_mem (List.mem_filter.mpr ⟨h1, by simp⟩)
  unfold viewInit
  simp only
  by_cases h : (dims.filter (· == -1)).length > 1
  · rw [if_pos h]; rfl
  · rw [if_neg h, if_pos ⟨by omega, h2⟩]; rfl

theorem view_end (t : Strided α) (ds offs : List Int) (l : List Nat) :
    (if (ViewOpt.stride (toIdx l)).values.any (· < 0) then .ub "negative stride"
      else mkView t ds (ViewOpt.offset offs).values ((ViewOpt.stride (toIdx l)).values.map Int.toNat)) =
    mkView t ds offs l := by
  have h1 : (ViewOpt.stride (toIdx l)).values.any (· < 0) = false := any_neg_ofNat l
  have h2 : (ViewOpt.stride (toIdx l)).values.map Int.toNat = l := toNat_ofNat l
  rw [h1, h2]
  rfl

/-- The constructor with options is the view of `C69` with the offset and the stride asked for. -/
theorem viewInit_auto (fl : ℚ → ℚ) (t : Strided α) (hlen : t.strides.length = t.dims.length)
    (o : List Nat) (stride : Option Nat) (opts : List ViewOpt)
    (ho : (askedOffset t.dims.length opts).getD (List.replicate t.dims.length 0) = toIdx o)
    (hs : askedStride 1 opts = stride.map fun s : Nat => [(s : Int)]) (hpos : ∀ s, stride = some s → 0 < s) :
    viewInit fl t [-1] opts = autoView fl t o stride := by
  have hs1 : (askedStride 1 opts).getD [1] = [((stride.getD 1 : Nat) : Int)] := by
    rw [hs]; cases stride <;> rfl
  have h0 : (toIdx o).headD 0 = ((o.headD 0 : Nat) : Int) := by cases o <;> rfl
  have hp : 0 < stride.getD 1 := by
    cases stride with
    | none => simp
    | some s => exact hpos s rfl
  have hne : stride ≠ some 0 := fun e => absurd (hpos 0 e) (by omega)
  unfold viewInit autoView
  simp only [show (([-1] : List Int).filter (· == -1)).length = 1 by decide]
  rw [if_neg (by omega), if_neg (by simp), if_pos trivial]
  unfold viewAutoDim
  rw [get_offset, get_stride]
  simp only [Outcome.ok_bind, ViewOpt.values, List.length_replicate, ho, List.length_cons, List.length_nil,
    Nat.zero_add, hs1, h0, List.headD_cons, Int.toNat_natCast]
  rw [if_neg (by omega)]
  by_cases hlt : sizeMethod t.dims < o.headD 0
  · rw [if_pos (by exact_mod_cast hlt), if_pos hlt]; rfl
  rw [if_neg (by exact_mod_cast hlt), if_neg hlt, if_neg (by omega), if_neg hne]
  generalize autoDim fl (sizeMethod t.dims) (o.headD 0) (stride.getD 1) = d
  simp only [Outcome.ok_bind]
  unfold viewDefaultStrides
  simp only [List.length_cons, List.length_nil, Nat.zero_add, List.foldl_cons, List.foldl_nil, one_mul]
  by_cases hr : t.dims.length = 1
  · rw [if_pos hr.symm, if_pos hr]
    obtain ⟨x, hx⟩ := List.length_eq_one_iff.mp (hlen.trans hr)
    have hv : (askedStride 1 opts).getD [Int.ofNat x] = toIdx [stride.getD x] := by
      rw [hs]; cases stride <;> rfl
    simp only [Outcome.ok_bind, get_stride,
      hx, List.headD_cons, List.map_cons, List.map_nil, List.length_cons, List.length_nil, Nat.zero_add, hv]
    exact view_end t [d] (toIdx o) [stride.getD x]
  · rw [if_neg (fun e => hr e.symm), if_neg hr]
    by_cases he : d = ((t.dims.foldl (· * ·) 1 : Nat) : Int)
    · rw [if_pos he, if_pos he]
      have hv : (askedStride 1 opts).getD (List.map Int.ofNat (transformStrides (List.map Int.toNat [d]))) =
          toIdx [stride.getD 1] := by
        rw [hs]; cases stride <;> rfl
      simp only [Outcome.ok_bind, get_stride, List.length_map,
        length_transformStrides, List.length_cons, List.length_nil, Nat.zero_add, hv]
      exact view_end t [d] (toIdx o) [stride.getD 1]
    · rw [if_neg he, if_neg he, get_stride]
      simp only [List.length_cons, List.length_replicate, Nat.sub_self, Nat.zero_add, hs]
      cases stride with
      | none => rfl
      | some s =>
        have hv : (askedStride 1 opts).getD [(s : Int)] = toIdx [s] := by rw [hs]; rfl
        have hc : ¬ ((s : Int) = -1) := by omega
        rw [Outcome.ok_bind]
        have e1 : (if (ViewOpt.stride ((Option.map (fun s : Nat => [(s : Int)]) (some s)).getD
            (-1 :: List.replicate 0 0))).values.headD 0 = -1 then
            (Outcome.error "Unable to automatically deduce stride information. Stride must be passed in." :
              Outcome (List Int))
          else .ok (ViewOpt.stride ((Option.map (fun s : Nat => [(s : Int)]) (some s)).getD
            (-1 :: List.replicate 0 0))).values) = .ok [(s : Int)] := if_neg hc
        rw [e1, Outcome.ok_bind, get_stride, Outcome.ok_bind,
          show (askedStride [(s : Int)].length opts).getD [(s : Int)] = toIdx [s] from hv]
        exact view_end t [d] (toIdx o) [s]

/-- **C174 (partial), a computed dimension**: the view with dimension −1 of a contiguous vector of `N` elements, with an offset `o` and a stride `s` among
any options in any order, has an element `k` exactly if `o + k s < N`, and it is that element of the vector, if `N` and `s` are
below 2^24 (`C69`).  Missing: larger ones (`C69_auto_dimension_refuted`) and parents of more than one dimension
(`C174_auto_refuted`). -/
theorem C174_auto_partial (fl : ℚ → ℚ) (hfl : NearestFloat fl) (t : Strided α) (N : Nat)
    (hd : t.dims = [N]) (ht : t.RowMajor) (o s : Nat) (ho : o ≤ N) (hs : 0 < s) (hN : N < 2 ^ 24)
    (hs24 : s < 2 ^ 24) (opts : List ViewOpt) (hao : askedOffset 1 opts = some [(o : Int)])
    (has : askedStride 1 opts = some [(s : Int)]) :
    ∃ v d, viewInit fl t [-1] opts = .ok v ∧ v.dims = [d] ∧ v.data = t.data ∧ (∀ k, k < d ↔ o + k * s < N) ∧
      ∀ k : Nat, k < d → v.read [(k : Int)] = t.read [((o + k * s : Nat) : Int)] := by
  obtain ⟨v, d, h1, h2⟩ := C69_auto_dimension_partial fl hfl t N hd ht o s ho hs hN hs24
  refine ⟨v, d, ?_, h2⟩
  rw [← h1]
  refine viewInit_auto fl t ?_ [o] (some s) opts ?_ has ?_
  · rw [ht.strides, hd]; simp [dimsToStrides]
  · rw [hd]
    show (askedOffset 1 opts).getD _ = _
    rw [hao]; rfl
  · intro s' e; cases e; exact hs

/-! ### What does not hold -/

/-- **C174, options of another rank refuted**: an `Offset` with another number of entries than the parent has dimensions is ignored without
notice, in every view of every tensor: the view starts where it would start without it.  So is a `Stride` with another number of
entries than the view has dimensions, where the dimensions are given. -/
theorem C174_ignored_refuted (fl : ℚ → ℚ) (t : Strided α) (dims : List Int) (pre opts : List ViewOpt) :
    (∀ o : List Int, o.length ≠ t.dims.length →
      viewInit fl t dims (pre ++ .offset o :: opts) = viewInit fl t dims (pre ++ opts)) ∧
    (∀ s : List Int, s.length ≠ dims.length → (∀ d ∈ dims, d ≠ -1) → 0 < dims.length →
      t.strides.length = t.dims.length →
      viewInit fl t dims (pre ++ .stride s :: opts) = viewInit fl t dims (pre ++ opts)) := by
  have hsa : ∀ (r : Nat) (o : List Int), askedStride r (pre ++ .offset o :: opts) = askedStride r (pre ++ opts) := by
    intro r o
    induction pre with
    | nil => rfl
    | cons a pre ih => cases a <;> simp [askedStride, ih]
  have hoa : ∀ (r : Nat) (s : List Int), askedOffset r (pre ++ .stride s :: opts) = askedOffset r (pre ++ opts) := by
    intro r s
    clear hsa
    induction pre with
    | nil => rfl
    | cons a pre ih => cases a <;> simp [askedOffset, ih]
  constructor
  · intro o h
    have hob : askedOffset t.dims.length (pre ++ .offset o :: opts) = askedOffset t.dims.length (pre ++ opts) := by
      clear hsa hoa
      induction pre with
      | nil => simp [askedOffset, h]
      | cons a pre ih => cases a <;> simp [askedOffset, ih]
    simp only [viewInit, viewAutoDim, viewDefaultStrides, get_stride, get_offset, hsa, List.length_replicate, hob]
  · intro s h hna hr hlen
    have hsb : askedStride dims.length (pre ++ .stride s :: opts) = askedStride dims.length (pre ++ opts) := by
      clear hsa hoa
      induction pre with
      | nil => simp [askedStride, h]
      | cons a pre ih => cases a <;> simp [askedStride, ih]
    have hf : dims.filter (· == -1) = [] := by
      rw [List.filter_eq_nil_iff]
      intro d hd
      simpa using hna d hd
    have hdl : (-1 :: List.replicate (dims.length - 1) (0 : Int)).length = dims.length := by
      simp only [List.length_cons, List.length_replicate]; omega
    have hdef : viewDefaultStrides t dims (pre ++ .stride s :: opts) = viewDefaultStrides t dims (pre ++ opts) := by
      unfold viewDefaultStrides
      rw [get_stride, get_stride, hdl, hsb]
    have hdlen : ∀ d, viewDefaultStrides t dims (pre ++ opts) = .ok d → d.length = dims.length := by
      intro d hd
      unfold viewDefaultStrides at hd
      split at hd
      · rename_i e
        have := Outcome.ok.inj hd
        subst this
        simp [hlen, e]
      · split at hd
        · have := Outcome.ok.inj hd
          subst this
          simp [length_transformStrides]
        · rw [get_stride, hdl] at hd
          simp only [Outcome.ok_bind, ViewOpt.values] at hd
          by_cases hc : ((askedStride dims.length (pre ++ opts)).getD
              (-1 :: List.replicate (dims.length - 1) 0)).headD 0 = -1
          · have := (if_pos hc).symm.trans hd
            cases this
          · have := Outcome.ok.inj ((if_neg hc).symm.trans hd)
            subst this
            cases e : askedStride dims.length (pre ++ opts) with
            | none => simpa using hdl
            | some x => simpa using (askedStride_some e).2
    unfold viewInit
    simp only [hf, List.length_nil]
    rw [if_neg (by omega), if_neg (by omega), if_neg (by omega), if_neg (by omega), if_neg (by omega),
      if_neg (by omega)]
    simp only [Outcome.ok_bind, hdef]
    cases e : viewDefaultStrides t dims (pre ++ opts) with
    | error m => rfl
    | ub m => rfl
    | ok d =>
      have hl := hdlen d e
      simp only [Outcome.ok_bind, get_stride, get_offset, hl, hsb, hoa]

/-- A 4 × 4 tensor with the elements 0 to 15 and its upper left 2 × 2 corner. -/
def corner4 : Strided Nat := { data := List.range 16, off := 0, dims := [2, 2], strides := [4, 1] }

/-- **C174, shapes of views with gaps refuted**: the four elements of the 2 × 2 corner of a 4 × 4 tensor are 0, 1, 4, 5; the view of the corner with
one dimension of 4 shows 0, 1, 2, 3. -/
theorem C174_shape_refuted (fl : ℚ → ℚ) : ∃ v, viewInit fl corner4 [4] [] = .ok v ∧
    corner4.read [1, 0] = .ok 4 ∧ v.read [2] = .ok 2 :=
  ⟨_, viewInit_plain fl corner4 [4] [] (by decide) (by decide) (by decide) rfl rfl, by decide, by decide⟩

/-- A 3 × 3 tensor. -/
def square3 : Strided Nat := { data := List.range 9, off := 0, dims := [3, 3], strides := [3, 1] }

/-- **C174, computed dimension refuted**: the dimension computed for −1 counts the first entry of the offset as a number of elements, so the rest of a 3 × 3
tensor from its second row on is taken to have 8 elements instead of 6, and reading the seventh leaves the storage. -/
theorem C174_auto_refuted : ∃ v, viewInit id square3 [-1] [.offset [1, 0], .stride [1]] = .ok v ∧
    v.dims = [8] ∧ v.read [5] = .ok 8 ∧ v.read [6] = .ub "access outside the storage" := by
  have hz : sizeMethod square3.dims = 9 := by decide
  have ha : autoDim id 9 1 1 = 8 := by simp [autoDim]
  have h : viewAutoDim id square3 [.offset [1, 0], .stride [1]] = .ok [8] := by
    unfold viewAutoDim
    rw [get_offset, get_stride]
    simp only [hz]
    show Outcome.ok [autoDim id 9 1 1] = _
    rw [ha]
  refine ⟨{ data := List.range 9, off := 3, dims := [8], strides := [1] }, ?_, rfl, by decide, by decide⟩
  unfold viewInit
  simp only [show (([-1] : List Int).filter (· == -1)).length = 1 by decide]
  rw [if_neg (by omega), if_neg (by simp), if_pos trivial, h]
  decide

/-- A case of `C174_box_partial` with the options in either order, one of them not looked for. -/
example : ∃ v, viewInit id square3 [2, 2] [.other [7], .offset [1, 1]] = .ok v ∧ v.read [1, 1] = .ok 8 := by
  have w : square3.WF := Model.Strided.IsTensor.wf ⟨rfl, by decide, by decide⟩
  obtain ⟨v, h1, h2, h3⟩ := C174_box_partial id square3 w [(1, 3), (1, 3)] ⟨by decide, by decide, by decide, by decide, by decide, by decide, trivial⟩
    [.other [7], .offset [1, 1]] rfl rfl
  refine ⟨v, h1, ?_⟩
  rw [show ([1, 1] : List Int) = toIdx [1, 1] from rfl, h3 [1, 1] (by rw [h2]; decide)]
  decide

/-- A case of `C174_strides`: the diagonal. -/
example : viewInit id square3 [3] [.stride [4]] =
    .ok { data := List.range 9, off := 0, dims := [3], strides := [4] } :=
  C174_strides id square3 [3] [4] (by decide) [0, 0] [.stride [4]] rfl rfl (by decide) rfl

/-- A case of `C174_shape_partial`. -/
example : ∃ v, viewInit id square3 [9] [] = .ok v ∧ v.read [5] = .ok 5 := by
  obtain ⟨v, h1, _, h3⟩ := C174_shape_partial id square3 ⟨by decide, by decide⟩ [9] [] (by decide) (by decide) rfl rfl
  refine ⟨v, h1, ?_⟩
  rw [show ([5] : List Int) = toIdx [5] from rfl, h3 [1, 2] [5] (by decide) (by decide) (by decide)]
  decide

/-- A case of `C174_refused`. -/
example : (viewInit id square3 [5] []).isError = true := by
  rw [show ([5] : List Int) = toIdx [5] from rfl,
    C174_refused id square3 [5] [] (by decide) (by decide) (by decide) rfl]
  rfl

/-- A case of `C174_order`. -/
example : viewInit id square3 [2] [.stride [4], .offset [1, 0]] =
    viewInit id square3 [2] [.offset [1, 0], .stride [4]] :=
  C174_order id square3 [2] _ _ (List.Perm.swap ..) (by decide)

/-- A case of `C174_auto_partial`: every third of ten elements from the second on, the options in the other order. -/
example (fl : ℚ → ℚ) (hfl : NearestFloat fl) : ∃ v d,
    viewInit fl { data := List.range 10, off := 0, dims := [10], strides := [1] } [-1] [.stride [3], .offset [1]] =
      .ok v ∧ v.dims = [d] ∧ v.data = List.range 10 ∧ (∀ k, k < d ↔ 1 + k * 3 < 10) ∧
      ∀ k : Nat, k < d → v.read [(k : Int)] =
        ({ data := List.range 10, off := 0, dims := [10], strides := [1] } : Strided Nat).read [((1 + k * 3 : Nat) : Int)] :=
  C174_auto_partial fl hfl _ 10 rfl ⟨by decide, by decide⟩ 1 3 (by decide) (by decide) (by decide) (by decide)
    [.stride [3], .offset [1]] rfl rfl

end Einsums.Props
