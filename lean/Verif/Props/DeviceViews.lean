import Verif.Props.DeviceRef
import Verif.Props.View
import Verif.Model.DeviceViews

/-
C170: views of device tensors.
-/
namespace Einsums.Props
open Spec Model

section
variable {R : Type}

/-- A device tensor in memory as elements with strides. -/
theorem strided_of_holds {M : DevMem R} {Ts : List DevTensor} {f : Nat → List Nat → R} (h : DevHolds M Ts f) {k : Nat} {t : DevTensor}
    (hk : Ts[k]? = some t) : ∃ B, M[t.buf]? = some B ∧ B.data.length = numel t.dims ∧ (⟨B.data, 0, t.dims, t.strides⟩ : Strided R).IsTensor ∧
      ∀ i, InBox i t.dims → B.data[dot i t.strides]? = some (f k i) := by
  obtain ⟨_, hs, data, hd, hl, hv⟩ := h.values k t hk
  refine ⟨_, hd, hl, ⟨rfl, hs, hl⟩, fun i hi => ?_⟩
  rw [hs, dot_strides_eq hi.length]
  exact hv i hi

/-- Reading an in-range element of a view. -/
theorem devView_value {v : DevView} {M : DevMem R} {B : DevBuffer R} (hB : M[v.buf]? = some B) {j : List Nat} (hj : InBox j v.dims) {x : R}
    (hx : B.data[v.off + dot j v.strides]? = some x) : v.value M (toIdx j) = .ok x := by
  unfold DevView.value
  rw [if_neg (by rw [show (toIdx j).length = j.length by simp [toIdx], hj.length]; omega)]
  simp only [hB]
  rw [innerProduct_norm (pyIndices_toIdx hj)]
  rw [if_neg (by omega)]
  have : ((v.off : Int) + ((dot j v.strides : Nat) : Int)).toNat = v.off + dot j v.strides := by omega
  rw [this, hx]

/-- A device view is made as a host view is. -/
theorem devView_of_mkView {M : DevMem R} {buf off : Nat} {B : DevBuffer R} (hB : M[buf]? = some B) {pd ps : List Nat} {dims offsets : List Int}
    {strides : List Nat} {v : Strided R} (h : mkView ⟨B.data, off, pd, ps⟩ dims offsets strides = .ok v) :
    devView M buf off ps dims offsets strides = .ok ⟨buf, v.off, v.dims, v.strides⟩ := by
  unfold mkView at h
  unfold devView
  simp only [hB]
  simp only at h
  split at h
  · cases h
  · rename_i h1
    rw [if_neg h1]
    split at h
    · cases h
    · rename_i h2
      rw [if_neg h2]
      cases h
      rfl


/-- A new allocation leaves the tensors as they are. -/
theorem holds_append {M : DevMem R} {Ts : List DevTensor} {f : Nat → List Nat → R} (h : DevHolds M Ts f) (N : DevMem R) :
    DevHolds (M ++ N) Ts f := by
  refine ⟨fun k t hk => ?_, h.apart⟩
  obtain ⟨h1, h2, data, h3, h4⟩ := h.values k t hk
  exact ⟨h1, h2, data, by rw [List.getElem?_append_left (List.getElem?_eq_some_iff.1 h3).1, h3], h4⟩

/-- The view that `T(Range, ...)` gives. -/
theorem ranges_ok {M : DevMem R} {Ts : List DevTensor} {f : Nat → List Nat → R} (h : DevHolds M Ts f) {k : Nat} {t : DevTensor}
    (hk : Ts[k]? = some t) {rs : List (Int × Int)} {bs : List (Nat × Nat)} (hd : Denotes t.dims rs bs) (hb : BoxIn t.dims bs) :
    t.ranges M rs = .ok ⟨t.buf, dot (bs.map (·.1)) t.strides, bs.map (fun r => r.2 - r.1), t.strides⟩ := by
  obtain ⟨B, hB, _, hI, _⟩ := strided_of_holds h hk
  obtain ⟨v, h1, h2, _⟩ := boxView hI.wf hb
  have h1' := ranges_eq (t := (⟨B.data, 0, t.dims, t.strides⟩ : Strided R)) hd hb
  rw [h1] at h1'
  unfold Strided.ranges at h1'
  unfold DevTensor.ranges
  split at h1'
  · cases h1'
  · rename_i hl
    rw [if_neg hl]
    have := devView_of_mkView hB h1'
    rw [h2] at this
    simpa using this

/-- Indices inside a box lie inside the tensor. -/
theorem inBox_of_box {ds : List Nat} {bs : List (Nat × Nat)} (hb : BoxIn ds bs) {j : List Nat}
    (hj : InBox j (bs.map fun r => r.2 - r.1)) : InBox j ds := by
  induction ds generalizing bs j with
  | nil => cases bs with
    | nil => simpa using hj
    | cons => exact hb.elim
  | cons d ds ih => cases bs with
    | nil => exact hb.elim
    | cons b bs =>
      obtain ⟨a, b⟩ := b
      obtain ⟨h1, h2, h3, h4⟩ := hb
      cases j with
      | nil => simp at hj
      | cons x js =>
        simp only [List.map_cons, InBox_cons] at hj ⊢
        exact ⟨by omega, ih h4 hj.2⟩

/-- The elements from the first of a box on that a copy takes lie inside the tensor exactly if the box ends before the last row or begins
at the start of a row. -/
theorem box_span {d : Nat} {ds : List Nat} {a b : Nat} {bs : List (Nat × Nat)} (hb : BoxIn (d :: ds) ((a, b) :: bs)) :
    dot (a :: bs.map (·.1)) (dimsToStrides (d :: ds)).2 + numel ds * (b - a) ≤ numel (d :: ds) ↔ (b < d ∨ ∀ r ∈ bs, r.1 = 0) := by
  obtain ⟨h1, h2, h3, h4⟩ := hb
  have hst := h4.starts
  rw [dot_strides_eq (by simp [hst.length]), rowMajor_cons, numel_cons]
  have hlt := rowMajor_lt hst
  have hz : rowMajor (bs.map (·.1)) ds = 0 ↔ ∀ r ∈ bs, r.1 = 0 := by
    constructor
    · intro e r hr
      have : InBox (List.replicate ds.length 0) ds ∧ rowMajor (List.replicate ds.length 0) ds = 0 := by
        clear h4 hlt e
        revert hst
        generalize bs.map (·.1) = l
        intro hst
        induction ds generalizing l with
        | nil => simp
        | cons x xs ih =>
          cases l with
          | nil => simp at hst
          | cons y ys =>
            simp only [InBox_cons] at hst
            obtain ⟨i1, i2⟩ := ih ys hst.2
            simp only [List.length_cons, List.replicate_succ, InBox_cons, rowMajor_cons, i2]
            exact ⟨⟨by omega, i1⟩, by simp⟩
      have := rowMajor_inj hst this.1 (by rw [e, this.2])
      have hm : r.1 ∈ bs.map (·.1) := List.mem_map_of_mem hr
      rw [this] at hm
      exact (List.mem_replicate.1 hm).2
    · intro e
      have : bs.map (·.1) = List.replicate bs.length 0 := by
        rw [List.eq_replicate_iff]
        exact ⟨by simp, fun x hx => by obtain ⟨r, hr, rfl⟩ := List.mem_map.1 hx; exact e r hr⟩
      rw [this]
      clear * -
      induction ds generalizing bs with
      | nil => cases bs <;> simp [rowMajor]
      | cons x xs ih => cases bs with
        | nil => simp
        | cons y ys => simp [List.replicate_succ, ih]
  rw [← hz]
  generalize hN : numel ds = N at *
  generalize rowMajor (bs.map (·.1)) ds = o at *
  obtain ⟨c, rfl⟩ := Nat.exists_eq_add_of_le h2
  obtain ⟨e, rfl⟩ := Nat.exists_eq_add_of_le h3
  rw [show a + c - a = c by omega]
  have e1 : (a + c + e) * N = a * N + N * c + e * N := by
    rw [Nat.add_mul, Nat.add_mul, Nat.mul_comm c N]
  rw [e1]
  constructor
  · intro hh
    by_cases he : e = 0
    · subst he; right; omega
    · left; omega
  · rintro (hh | hh)
    · have : N ≤ e * N := by
        have : 1 ≤ e := by omega
        exact Nat.le_mul_of_pos_left N (by omega)
      omega
    · omega

/-- **C170 (copies, partial: boxes that end before the last row or begin at the start of a row).** A copy of a box view has its dimensions
and its values, and the tensors are unaffected. -/
theorem C170_copy_partial {Ts : List DevTensor} {M : DevMem R} {f : Nat → List Nat → R} (h : DevHolds M Ts f) {k : Nat} {t : DevTensor}
    (hk : Ts[k]? = some t) {d : Nat} {ds : List Nat} (hds : t.dims = d :: ds) {rs : List (Int × Int)} {a b : Nat} {bs : List (Nat × Nat)}
    (hd : Denotes t.dims rs ((a, b) :: bs)) (hb : BoxIn t.dims ((a, b) :: bs)) (hc : b < d ∨ ∀ r ∈ bs, r.1 = 0) :
    ∃ v M' c, t.ranges M rs = .ok v ∧ v.copy M = .ok (M', c) ∧ DevHolds M' Ts f ∧ c.dims = v.dims ∧
      ∀ j, InBox j v.dims → c.value M' (toIdx j) = .ok (f k (shift (a :: bs.map (·.1)) j)) ∧
        v.value M' (toIdx j) = .ok (f k (shift (a :: bs.map (·.1)) j)) := by
  have hv := ranges_ok h hk hd hb
  obtain ⟨B, hB, hlen, hI, hval⟩ := strided_of_holds h hk
  obtain ⟨_, hst, _⟩ := h.values k t hk
  have hs := (box_span (hds ▸ hb)).2 hc
  have hst' : t.strides = numel ds :: (dimsToStrides ds).2 := by rw [hst, hds, dimsToStrides_snd_cons]
  have hsz : linearSize t.strides (List.map (fun r : Nat × Nat => r.2 - r.1) ((a, b) :: bs)) = numel ds * (b - a) := by
    rw [hst']; rfl
  have hoff : dot (List.map (·.1) ((a, b) :: bs)) t.strides + numel ds * (b - a) ≤ B.data.length := by
    rw [hlen, hds, hst, hds]; exact hs
  refine ⟨_, M ++ [⟨false, (B.data.drop (dot (List.map (·.1) ((a, b) :: bs)) t.strides)).take (numel ds * (b - a))⟩],
    ⟨M.length, 0, List.map (fun r : Nat × Nat => r.2 - r.1) ((a, b) :: bs), t.strides⟩, hv, ?_, holds_append h _, rfl, ?_⟩
  · unfold DevView.copy
    simp only [hB]
    rw [hsz, if_pos hoff]
  · intro j hj
    have hj' := inBox_of_box hb hj
    have hin := hb.shift hj
    have hx := hval _ hin
    rw [dot_shift (by simpa using hj.length.symm)] at hx
    have hjl : dot j t.strides < numel ds * (b - a) := by
      cases j with
      | nil => simp at hj
      | cons x js =>
        rw [hds] at hj'
        simp only [List.map_cons, InBox_cons] at hj hj'
        rw [hst, hds, dot_strides_eq (by simp [hj'.2.length]), rowMajor_cons]
        have := rowMajor_lt hj'.2
        have h5 : (x + 1) * numel ds ≤ (b - a) * numel ds := Nat.mul_le_mul_right _ hj.1
        rw [Nat.mul_comm (numel ds)]
        rw [Nat.add_mul] at h5
        omega
    constructor
    · refine devView_value (v := ⟨M.length, 0, List.map (fun r : Nat × Nat => r.2 - r.1) ((a, b) :: bs), t.strides⟩)
        (B := ⟨false, (B.data.drop (dot (List.map (·.1) ((a, b) :: bs)) t.strides)).take (numel ds * (b - a))⟩) (by simp) hj ?_
      simp only [Nat.zero_add]
      rw [List.getElem?_take_of_lt hjl, List.getElem?_drop]
      exact hx
    · refine devView_value (B := B) ?_ hj hx
      simp only
      rw [List.getElem?_append_left (List.getElem?_eq_some_iff.1 hB).1, hB]

/-- **C170 (copies, refuted).** A box view of a tensor that reaches into the last row and does not begin at the start of a row, such as a
column of a matrix other than the first, cannot be copied: the copy reads past the end of the allocation. -/
theorem C170_copy_refuted {Ts : List DevTensor} {M : DevMem R} {f : Nat → List Nat → R} (h : DevHolds M Ts f) {k : Nat} {t : DevTensor}
    (hk : Ts[k]? = some t) {d : Nat} {ds : List Nat} (hds : t.dims = d :: ds) {rs : List (Int × Int)} {a : Nat} {bs : List (Nat × Nat)}
    (hd : Denotes t.dims rs ((a, d) :: bs)) (hb : BoxIn t.dims ((a, d) :: bs)) (hc : ∃ r ∈ bs, r.1 ≠ 0) :
    ∃ v, t.ranges M rs = .ok v ∧ ∃ e, v.copy M = .ub e := by
  refine ⟨_, ranges_ok h hk hd hb, ?_⟩
  obtain ⟨B, hB, hlen, hI, hval⟩ := strided_of_holds h hk
  obtain ⟨_, hst, _⟩ := h.values k t hk
  have hs := (not_congr (box_span (hds ▸ hb))).2 (by
    rintro (h1 | h1)
    · omega
    · obtain ⟨r, hr, h2⟩ := hc
      exact h2 (h1 r hr))
  have hst' : t.strides = numel ds :: (dimsToStrides ds).2 := by rw [hst, hds, dimsToStrides_snd_cons]
  have hsz : linearSize t.strides (List.map (fun r : Nat × Nat => r.2 - r.1) ((a, d) :: bs)) = numel ds * (d - a) := by
    rw [hst']; rfl
  unfold DevView.copy
  simp only [hB]
  rw [hsz, if_neg]
  · exact ⟨_, rfl⟩
  · rw [hlen, hds, hst, hds]; exact hs

end

section
variable {R : Type} [Zero R] [Add R] [Sub R] [Mul R] [Div R]

/-- A view whose elements are elements of a tensor, after any program of assignments to elements of tensors. -/
theorem view_history (hc : ∀ a b : R, a + b = b + a) {Ts : List DevTensor} (hn : ∀ t ∈ Ts, numel t.dims < 2 ^ 31) {M : DevMem R}
    {f f' : Nat → List Nat → R} (h : DevHolds M Ts f) (p : List (RefStmt R)) (hs : specRefs Ts p f = some f') {k : Nat} {t : DevTensor}
    (hk : Ts[k]? = some t) {v : DevView} (hb : v.buf = t.buf) {φ : List Nat → List Nat}
    (ha : ∀ j, InBox j v.dims → InBox (φ j) t.dims ∧ v.off + dot j v.strides = dot (φ j) t.strides) :
    ∃ M', runRefs Ts p M = .ok M' ∧ DevHolds M' Ts f' ∧ ∀ j, InBox j v.dims → v.value M' (toIdx j) = .ok (f' k (φ j)) := by
  obtain ⟨M', hr, hh, _⟩ := C162_history_partial hc hn p h hs
  refine ⟨M', hr, hh, fun j hj => ?_⟩
  obtain ⟨B, hB, _, _, hv⟩ := strided_of_holds hh hk
  obtain ⟨h1, h2⟩ := ha j hj
  exact devView_value (by rw [hb]; exact hB) hj (by rw [h2]; exact hv _ h1)

/-- **C170 (sub-tensors, partial).** On a device tensor in every mode, `T(args...)` with the `Range`s before the integers gives a view with
the stated dimensions.  After every program of assignments to elements of device tensors, `V(j...)` is the value that the selected element
of the tensor then has. -/
theorem C170_sub_partial (hc : ∀ a b : R, a + b = b + a) {Ts : List DevTensor} (hn : ∀ t ∈ Ts, numel t.dims < 2 ^ 31) {M : DevMem R}
    {f : Nat → List Nat → R} (h : DevHolds M Ts f) {k : Nat} {t : DevTensor} (hk : Ts[k]? = some t) (args pre post : List Sel)
    (vd : List Nat) (hsel : selDims t.dims args = some vd) (hne : numel vd ≠ 0) (e : args = pre ++ post) (hpre : ∀ k, Sel.at k ∉ pre)
    (hpost : ∀ a b, Sel.range a b ∉ post) :
    ∃ v, t.sub M args = .ok v ∧ v.dims = vd ∧ ∀ (p : List (RefStmt R)) (f' : Nat → List Nat → R), specRefs Ts p f = some f' →
      ∃ M', runRefs Ts p M = .ok M' ∧ ∀ j, InBox j vd → v.value M' (toIdx j) = .ok (f' k (selIndex t.dims args j)) := by
  obtain ⟨B, hB, _, hI, _⟩ := strided_of_holds h hk
  obtain ⟨v, h1, h2, h3⟩ := sub_viewOf hI.wf hsel hne e
    (by intro a ha; cases a <;> simp_all [isAt]) (by intro a ha; cases a <;> simp_all [isRange])
  refine ⟨⟨t.buf, v.off, v.dims, v.strides⟩, ?_, h2, fun p f' hs => ?_⟩
  · unfold Strided.sub at h1
    unfold DevTensor.sub
    split at h1
    · cases h1
    · rename_i hl
      rw [if_neg hl]
      exact devView_of_mkView hB h1
  · obtain ⟨M', r1, _, r2⟩ := view_history hc hn h p hs hk (v := ⟨t.buf, v.off, v.dims, v.strides⟩) rfl
      (φ := selIndex t.dims args) (fun j hj => by
        obtain ⟨a, b⟩ := h3.addr j hj
        exact ⟨a, by simpa using b⟩)
    exact ⟨M', r1, fun j hj => r2 j (by rw [show (DevView.mk t.buf v.off v.dims v.strides).dims = v.dims from rfl, h2]; exact hj)⟩

/-- **C170 (boxes).** With one `Range` per axis, each starting inside its axis and ending at or after its start and no later than the axis,
the view has the stated shape, and after every program of assignments to elements of device tensors `V(j...)` is the value that the element
`start + j` of the tensor then has. -/
theorem C170_ranges (hc : ∀ a b : R, a + b = b + a) {Ts : List DevTensor} (hn : ∀ t ∈ Ts, numel t.dims < 2 ^ 31) {M : DevMem R}
    {f : Nat → List Nat → R} (h : DevHolds M Ts f) {k : Nat} {t : DevTensor} (hk : Ts[k]? = some t) (rs : List (Int × Int))
    (bs : List (Nat × Nat)) (hd : Denotes t.dims rs bs) (hb : BoxIn t.dims bs) :
    ∃ v, t.ranges M rs = .ok v ∧ v.dims = bs.map (fun r => r.2 - r.1) ∧ ∀ (p : List (RefStmt R)) (f' : Nat → List Nat → R),
      specRefs Ts p f = some f' →
      ∃ M', runRefs Ts p M = .ok M' ∧ ∀ j, InBox j v.dims → v.value M' (toIdx j) = .ok (f' k (shift (bs.map (·.1)) j)) := by
  obtain ⟨B, hB, _, hI, _⟩ := strided_of_holds h hk
  obtain ⟨v, h1, h2, h3⟩ := boxView hI.wf hb
  have h1' := ranges_eq (t := (⟨B.data, 0, t.dims, t.strides⟩ : Strided R)) hd hb
  rw [h1] at h1'
  refine ⟨⟨t.buf, v.off, v.dims, v.strides⟩, ?_, by rw [h2], fun p f' hs => ?_⟩
  · unfold Strided.ranges at h1'
    unfold DevTensor.ranges
    split at h1'
    · cases h1'
    · rename_i hl
      rw [if_neg hl]
      exact devView_of_mkView hB h1'
  · obtain ⟨M', r1, _, r2⟩ := view_history hc hn h p hs hk (v := ⟨t.buf, v.off, v.dims, v.strides⟩) rfl
      (φ := shift (bs.map (·.1))) (fun j hj => by
        obtain ⟨a, b⟩ := h3.addr j hj
        exact ⟨a, by simpa using b⟩)
    exact ⟨M', r1, r2⟩

/-- **C170 (flattening a tensor).** `to_rank_1_view` of a device tensor has as many elements as the tensor, and after every program of
assignments to elements of device tensors the element with the row-major number of `i` is the value that the tensor then has at `i`. -/
theorem C170_flat (hc : ∀ a b : R, a + b = b + a) {Ts : List DevTensor} (hn : ∀ t ∈ Ts, numel t.dims < 2 ^ 31) {M : DevMem R}
    {f : Nat → List Nat → R} (h : DevHolds M Ts f) {k : Nat} {t : DevTensor} (hk : Ts[k]? = some t) (hd : t.dims ≠ []) :
    t.flat.dims = [numel t.dims] ∧ ∀ (p : List (RefStmt R)) (f' : Nat → List Nat → R), specRefs Ts p f = some f' →
      ∃ M', runRefs Ts p M = .ok M' ∧ ∀ i, InBox i t.dims → t.flat.value M' [((rowMajor i t.dims : Nat) : Int)] = .ok (f' k i) := by
  obtain ⟨_, hst, _⟩ := h.values k t hk
  have hsz : linearSize t.strides t.dims = numel t.dims := by rw [hst, ← transformStrides_eq, linearSize_eq hd]
  have hone : (if t.dims.length = 1 then t.strides else transformStrides [linearSize t.strides t.dims]) = [1] := by
    split
    · rename_i hl
      obtain ⟨d, e⟩ := List.length_eq_one_iff.1 hl
      rw [hst, e]
      simp [dimsToStrides]
    · simp [transformStrides]
  have hflat : t.flat = ⟨t.buf, 0, [numel t.dims], [1]⟩ := by
    unfold DevTensor.flat
    simp only
    rw [hone, hsz]
  refine ⟨by rw [hflat], fun p f' hs => ?_⟩
  obtain ⟨M', hr, hh, _⟩ := C162_history_partial hc hn p h hs
  refine ⟨M', hr, fun i hi => ?_⟩
  obtain ⟨B, hB, _, _, hv⟩ := strided_of_holds hh hk
  have hlt := rowMajor_lt hi
  rw [hflat]
  have := devView_value (v := ⟨t.buf, 0, [numel t.dims], [1]⟩) (M := M') hB (j := [rowMajor i t.dims]) (by simpa [InBox] using hlt)
    (x := f' k i) (by
      have e := hv i hi
      rw [hst, dot_strides_eq hi.length] at e
      simpa [dot] using e)
  simpa [toIdx] using this

/-- **C170 (copies, refuted).** A copy of a view is no longer a view of the tensor: after assigning a new value to an element of the tensor,
the view has the new value and its copy the old one. -/
theorem C170_detached_refuted (hc : ∀ a b : R, a + b = b + a) {Ts : List DevTensor} (hn : ∀ t ∈ Ts, numel t.dims < 2 ^ 31) {M : DevMem R}
    {f : Nat → List Nat → R} (h : DevHolds M Ts f) {k : Nat} {t : DevTensor} (hk : Ts[k]? = some t) {d : Nat} {ds : List Nat}
    (hds : t.dims = d :: ds) {rs : List (Int × Int)} {a b : Nat} {bs : List (Nat × Nat)} (hd : Denotes t.dims rs ((a, b) :: bs))
    (hb : BoxIn t.dims ((a, b) :: bs)) (hcp : b < d ∨ ∀ r ∈ bs, r.1 = 0) (x : R) :
    ∃ v M' c, t.ranges M rs = .ok v ∧ v.copy M = .ok (M', c) ∧ ∀ j, InBox j v.dims → ∃ M'',
      runRefs Ts [.set k (toIdx (shift (a :: bs.map (·.1)) j)) x] M' = .ok M'' ∧ v.value M'' (toIdx j) = .ok x ∧
        c.value M'' (toIdx j) = .ok (f k (shift (a :: bs.map (·.1)) j)) := by
  obtain ⟨v, M', c, e1, e2, hh, e3, e4⟩ := C170_copy_partial h hk hds hd hb hcp
  refine ⟨v, M', c, e1, e2, fun j hj => ?_⟩
  have hv := ranges_ok h hk hd hb
  rw [e1] at hv
  have hv := Outcome.ok.inj hv
  have hj' : InBox j (((a, b) :: bs).map fun r => r.2 - r.1) := by rw [hv] at hj; exact hj
  have hin : InBox (shift (a :: bs.map (·.1)) j) t.dims := hb.shift hj'
  have hsp : specRefs Ts [.set k (toIdx (shift (a :: bs.map (·.1)) j)) x] f = some (setAt f (k, shift (a :: bs.map (·.1)) j) x) := by
    simp only [specRefs, RefStmt.spec, placeOf, hk, pyIndices_toIdx hin, Option.map_some, Option.bind_some]
  obtain ⟨M'', hr, hh2, _, hoth⟩ := C162_history_partial hc hn _ hh hsp
  refine ⟨M'', hr, ?_, ?_⟩
  · obtain ⟨B, hB, _, _, hval⟩ := strided_of_holds hh2 hk
    refine devView_value (B := B) (by rw [hv]; exact hB) hj ?_
    have := hval _ hin
    rw [show a :: bs.map (·.1) = ((a, b) :: bs).map (·.1) from rfl, dot_shift (by simpa using hj'.length.symm)] at this
    rw [hv]
    simp only
    rw [this]
    simp [setAt]
  · have hbuf : c.buf = M.length := by
      unfold DevView.copy at e2
      split at e2
      · cases e2
      · simp only at e2
        split at e2
        · have := (Prod.mk.inj (Outcome.ok.inj e2)).2
          rw [← this]
        · cases e2
    have hne : ∀ u ∈ Ts, u.buf ≠ c.buf := by
      intro u hu e
      obtain ⟨l, hl⟩ := List.getElem?_of_mem hu
      obtain ⟨_, _, data, h3, _⟩ := h.values l u hl
      have := (List.getElem?_eq_some_iff.1 h3).1
      omega
    have := (e4 j hj).1
    unfold DevView.value at this ⊢
    rw [hoth _ hne]
    exact this

omit [Zero R] [Add R] [Sub R] [Mul R] [Div R] in
/-- The last stride of a tensor is 1. -/
theorem last_stride {ds : List Nat} (h : ds ≠ []) : (dimsToStrides ds).2.getLast? = some 1 := by
  induction ds with
  | nil => exact absurd rfl h
  | cons d ds ih =>
    rw [dimsToStrides_snd_cons]
    cases ds with
    | nil => simp
    | cons e es =>
      rw [List.getLast?_cons_of_ne_nil (by rw [dimsToStrides_snd_cons]; simp)]
      exact ih (by simp)

/-- **C170 (flattening a view, partial: whole rows).** For a view of the rows `a` to `b` of a tensor of at least two dimensions,
`to_rank_1_view` has as many elements as the view, and after every program of assignments to elements of device tensors the element with
the row-major number of `j` is the value that the tensor then has at the place that `j` has in the view. -/
theorem C170_view_flat_partial (hc : ∀ a b : R, a + b = b + a) {Ts : List DevTensor} (hn : ∀ t ∈ Ts, numel t.dims < 2 ^ 31) {M : DevMem R}
    {f : Nat → List Nat → R} (h : DevHolds M Ts f) {k : Nat} {t : DevTensor} (hk : Ts[k]? = some t) {d : Nat} {ds : List Nat}
    (hds : t.dims = d :: ds) (hr : ds ≠ []) {rs : List (Int × Int)} {a b : Nat} (hd : Denotes t.dims rs ((a, b) :: ds.map (0, ·)))
    (hb : BoxIn t.dims ((a, b) :: ds.map (0, ·))) :
    ∃ v w, t.ranges M rs = .ok v ∧ v.flat M = .ok (M, w) ∧ v.dims = (b - a) :: ds ∧ w.dims = [numel v.dims] ∧
      ∀ (p : List (RefStmt R)) (f' : Nat → List Nat → R), specRefs Ts p f = some f' →
      ∃ M', runRefs Ts p M = .ok M' ∧ ∀ i is, InBox (i :: is) v.dims →
        w.value M' [((rowMajor (i :: is) v.dims : Nat) : Int)] = .ok (f' k ((a + i) :: is)) := by
  have hv := ranges_ok h hk hd hb
  obtain ⟨_, hst, _⟩ := h.values k t hk
  have hst' : t.strides = numel ds :: (dimsToStrides ds).2 := by rw [hst, hds, dimsToStrides_snd_cons]
  have hvd : List.map (fun r : Nat × Nat => r.2 - r.1) ((a, b) :: ds.map (0, ·)) = (b - a) :: ds := by
    simp [Function.comp_def]
  have hoff : dot (List.map (·.1) ((a, b) :: ds.map (0, ·))) t.strides = a * numel ds := by
    have := hb.starts
    rw [hds] at this
    rw [hst, hds, dot_strides_eq this.length, List.map_cons, rowMajor_cons, List.map_map]
    have : rowMajor (ds.map ((fun x => x.1) ∘ fun x => ((0, x) : Nat × Nat))) ds = 0 := by
      clear * -
      induction ds with
      | nil => rfl
      | cons x xs ih => simpa using ih
    rw [this]; simp
  rw [hvd, hoff] at hv
  have hlast : t.strides.getLast? = some 1 := by rw [hst, hds]; exact last_stride (by simp)
  refine ⟨⟨t.buf, a * numel ds, (b - a) :: ds, t.strides⟩, ⟨t.buf, a * numel ds, [numel ((b - a) :: ds)], [1]⟩, hv, ?_, rfl, rfl, fun p f' hs => ?_⟩
  · unfold DevView.flat
    rw [if_neg (by simpa using hr), if_neg (by simpa using hlast)]
    simp only [hst', linearSize, numel_cons, Nat.mul_comm]
  · obtain ⟨M', hr1, hh, _⟩ := C162_history_partial hc hn p h hs
    refine ⟨M', hr1, fun i is hi => ?_⟩
    obtain ⟨B, hB, _, _, hval⟩ := strided_of_holds hh hk
    have hlt := rowMajor_lt hi
    simp only [InBox_cons] at hi
    obtain ⟨_, _, hbd, _⟩ := hds ▸ hb
    have hin : InBox ((a + i) :: is) t.dims := by rw [hds]; exact ⟨by omega, hi.2⟩
    have hx := hval _ hin
    rw [hst, dot_strides_eq hin.length, hds, rowMajor_cons, Nat.add_mul] at hx
    have := devView_value (v := ⟨t.buf, a * numel ds, [numel ((b - a) :: ds)], [1]⟩) (M := M') hB (j := [rowMajor (i :: is) ((b - a) :: ds)])
      (by simpa [InBox] using hlt) (x := f' k ((a + i) :: is)) (by
        simp only [dot, rowMajor_cons]
        rw [← hx]
        congr 1
        omega)
    simpa [toIdx] using this

omit [Zero R] [Add R] [Sub R] [Mul R] [Div R] in
/-- **C170 (flattening a view, refuted).** `to_rank_1_view` of a view of some of the columns of a matrix does not throw and does not have
the elements of the view: it has as many as the rows of the view have in the matrix. -/
theorem C170_view_flat_refuted {Ts : List DevTensor} {M : DevMem R} {f : Nat → List Nat → R} (h : DevHolds M Ts f) {k : Nat}
    {t : DevTensor} (hk : Ts[k]? = some t) {d0 d1 : Nat} (hds : t.dims = [d0, d1]) {rs : List (Int × Int)} {a b x y : Nat}
    (hd : Denotes t.dims rs [(a, b), (x, y)]) (hb : BoxIn t.dims [(a, b), (x, y)]) (hab : a < b) (hxy : y - x < d1) :
    ∃ v w, t.ranges M rs = .ok v ∧ v.flat M = .ok (M, w) ∧ numel v.dims = (b - a) * (y - x) ∧ w.dims = [(b - a) * d1] ∧
      w.dims ≠ [numel v.dims] := by
  have hv := ranges_ok h hk hd hb
  obtain ⟨_, hst, _⟩ := h.values k t hk
  have hst' : t.strides = [d1, 1] := by rw [hst, hds]; simp [dimsToStrides_snd_cons]
  refine ⟨_, ⟨t.buf, dot (List.map (·.1) [(a, b), (x, y)]) t.strides, [(b - a) * d1], [1]⟩, hv, ?_, by simp, rfl, ?_⟩
  · unfold DevView.flat
    rw [if_neg (by simp), if_neg (by simp [hst'])]
    simp [hst', linearSize, Nat.mul_comm]
  · intro e
    simp only [List.map_cons, List.map_nil, numel_cons, numel_nil, Nat.mul_one, List.cons.injEq, and_true] at e
    have := Nat.eq_of_mul_eq_mul_left (by omega) e
    omega

omit [Zero R] [Add R] [Sub R] [Mul R] [Div R] in
/-- **C170 (flattening a view, refuted).** `to_rank_1_view` of a view of one dimension is a copy (so `C170_copy_refuted` and
`C170_detached_refuted` hold of it). -/
theorem C170_rank1_refuted {v : DevView} (hv : v.dims.length = 1) (M : DevMem R) : v.flat M = v.copy M := by
  unfold DevView.flat
  rw [if_pos hv]

end

/-! A concrete case: a 3×2 matrix on the device and a 2×2×3 tensor in mapped host memory. -/

private def vwMem : DevMem Int := [⟨false, [1, 2, 3, 4, 5, 6]⟩, ⟨true, [0, 1, 2, 3, 4, 5, 6, 7, 8, 9, 10, 11]⟩]
private def vwTs : List DevTensor := [⟨0, .devOnly, [3, 2], [2, 1]⟩, ⟨1, .mapped, [2, 2, 3], [6, 3, 1]⟩]
private def vwVals : Nat → List Nat → Int
  | 0, [i, j] => 1 + 2 * i + j
  | 1, [i, j, k] => 6 * i + 3 * j + k
  | _, _ => 0

private theorem vwHolds : DevHolds vwMem vwTs vwVals := by
  constructor
  · intro k t hk
    match k, hk with
    | 0, hk =>
      obtain rfl : _ = t := by simpa [vwTs] using hk
      refine ⟨by decide, by decide, [1, 2, 3, 4, 5, 6], rfl, rfl, ?_⟩
      intro i hi
      have hm := mem_box.2 hi
      have : ∀ i ∈ box [3, 2], ([1, 2, 3, 4, 5, 6] : List Int)[rowMajor i [3, 2]]? = some (vwVals 0 i) := by decide
      exact this i hm
    | 1, hk =>
      obtain rfl : _ = t := by simpa [vwTs] using hk
      refine ⟨by decide, by decide, [0, 1, 2, 3, 4, 5, 6, 7, 8, 9, 10, 11], rfl, rfl, ?_⟩
      intro i hi
      have hm := mem_box.2 hi
      have : ∀ i ∈ box [2, 2, 3], ([0, 1, 2, 3, 4, 5, 6, 7, 8, 9, 10, 11] : List Int)[rowMajor i [2, 2, 3]]? = some (vwVals 1 i) := by
        decide
      exact this i hm
    | n + 2, hk => simp [vwTs] at hk
  · intro k l t u hk hl e
    match k, l, hk, hl with
    | 0, 0, _, _ => rfl
    | 1, 1, _, _ => rfl
    | 0, 1, hk, hl => simp [vwTs] at hk hl; subst hk hl; simp at e
    | 1, 0, hk, hl => simp [vwTs] at hk hl; subst hk hl; simp at e
    | n + 2, _, hk, _ => simp [vwTs] at hk
    | _, n + 2, _, hl => simp [vwTs] at hl

/-- **C170 (sub-tensors, refuted).** With an integer before a `Range`, the element at `[0, 0]` of `T(1, Range{0, 2}, All)` is
`T(0, 0, 0)` instead of `T(1, 0, 0)`. -/
theorem C170_sub_refuted : ∃ (M : DevMem Int) (Ts : List DevTensor) (f : Nat → List Nat → Int) (t : DevTensor) (v : DevView),
    DevHolds M Ts f ∧ Ts[1]? = some t ∧ selDims t.dims [.at 1, .range 0 2, .all] = some [2, 3] ∧
    t.sub M [.at 1, .range 0 2, .all] = .ok v ∧ v.dims = [2, 3] ∧
    selIndex t.dims [.at 1, .range 0 2, .all] [0, 0] = [1, 0, 0] ∧ v.value M [0, 0] = .ok (f 1 [0, 0, 0]) ∧
    f 1 [0, 0, 0] ≠ f 1 [1, 0, 0] :=
  ⟨vwMem, vwTs, vwVals, _, _, vwHolds, rfl, by decide, rfl, by decide, by decide, by decide, by decide⟩

/-- `T(2, 1) += 10; U(1, 1, 0) = T(2, 1)`. -/
private def vwProg : List (RefStmt Int) := [.compound 0 [2, 1] .add 10, .setRef 1 [1, 1, 0] 0 [-1, 1]]

example : ∃ f', specRefs vwTs vwProg vwVals = some f' ∧ f' 0 [2, 1] = 16 ∧ f' 1 [1, 1, 0] = 16 ∧ f' 0 [0, 1] = 2 := ⟨_, rfl, by decide⟩

/-- `U(Range{1, 2}, All, 0)` shows the new value. -/
example : ∃ v, (DevTensor.mk 1 .mapped [2, 2, 3] [6, 3, 1]).sub vwMem [.range 1 2, .all, .at 0] = .ok v ∧ v.dims = [1, 2] ∧
    ∃ M', runRefs vwTs vwProg vwMem = .ok M' ∧ v.value M' [0, 1] = .ok 16 := by
  obtain ⟨v, h1, h2, h3⟩ := C170_sub_partial Int.add_comm (by decide) vwHolds (k := 1) rfl [.range 1 2, .all, .at 0] [.range 1 2, .all]
    [.at 0] [1, 2] (by decide) (by decide) rfl (by simp) (by simp)
  obtain ⟨M', h4, h5⟩ := h3 vwProg _ rfl
  exact ⟨v, h1, h2, M', h4, h5 [0, 1] (by decide)⟩

example : Denotes [3, 2] [(1, -1), (1, 2)] [(1, 2), (1, 2)] ∧ BoxIn [3, 2] [(1, 2), (1, 2)] := by
  simp [Denotes, BoxIn, rangeEnd]
/-- The copy of `T(Range{1, 2}, Range{1, 2})`. -/
example : ∃ v M' c, (DevTensor.mk 0 .devOnly [3, 2] [2, 1]).ranges vwMem [(1, -1), (1, 2)] = .ok v ∧ v.copy vwMem = .ok (M', c) ∧
    c.value M' [0, 0] = .ok 4 := ⟨_, _, _, rfl, rfl, by decide⟩
/-- The second column of the matrix cannot be copied. -/
example : ∃ v, (DevTensor.mk 0 .devOnly [3, 2] [2, 1]).ranges vwMem [(0, 3), (1, 2)] = .ok v ∧ ∃ e, v.copy vwMem = .ub e :=
  C170_copy_refuted vwHolds (k := 0) rfl (d := 3) (ds := [2]) rfl (a := 0) (bs := [(1, 2)])
    (by simp [Denotes, rangeEnd]) (by simp [BoxIn]) ⟨(1, 2), by simp, by simp⟩
/-- The last two rows of the matrix, flattened. -/
example : ∃ v w, (DevTensor.mk 0 .devOnly [3, 2] [2, 1]).ranges vwMem [(1, 3), (0, 2)] = .ok v ∧ v.flat vwMem = .ok (vwMem, w) ∧
    v.dims = [2, 2] ∧ w.dims = [4] ∧ w.value vwMem [3] = .ok 6 := ⟨_, _, rfl, rfl, by decide, by decide, by decide⟩
example : Denotes [3, 2] [(1, 3), (0, 2)] ((1, 3) :: [2].map (0, ·)) ∧ BoxIn [3, 2] ((1, 3) :: [2].map (0, ·)) := by
  simp [Denotes, BoxIn, rangeEnd]
/-- The first column of the matrix, flattened, has six elements. -/
example : ∃ v w, (DevTensor.mk 0 .devOnly [3, 2] [2, 1]).ranges vwMem [(0, 3), (0, 1)] = .ok v ∧ v.flat vwMem = .ok (vwMem, w) ∧
    numel v.dims = 3 ∧ w.dims = [6] := ⟨_, _, rfl, rfl, by decide, by decide⟩
/-- The matrix, flattened, after the program. -/
example : (DevTensor.mk 0 .devOnly [3, 2] [2, 1]).flat.dims = [6] ∧ ∃ M', runRefs vwTs vwProg vwMem = .ok M' ∧
    (DevTensor.mk 0 .devOnly [3, 2] [2, 1]).flat.value M' [5] = .ok 16 := by
  obtain ⟨h1, h2⟩ := C170_flat Int.add_comm (by decide) vwHolds (k := 0) rfl (by simp)
  obtain ⟨M', h3, h4⟩ := h2 vwProg _ rfl
  exact ⟨h1, M', h3, h4 [2, 1] (by decide)⟩

end Einsums.Props
