import Verif.Proofs.IndexCheck
import Verif.Spec.Tensor
/-
Lemmas about strided storage.
-/
namespace Einsums
open Spec Model

/-! ### Constructor -/

theorem transformStrides_eq (ds : List Nat) : transformStrides ds = (dimsToStrides ds).2 := by
  unfold transformStrides dimsToStrides
  rw [List.foldl_reverse]

theorem linearSize_eq {ds : List Nat} (h : ds ≠ []) : linearSize (transformStrides ds) ds = numel ds := by
  cases ds with
  | nil => exact (h rfl).elim
  | cons d ds =>
    rw [transformStrides_eq, dimsToStrides_snd_cons]
    simp [linearSize, Nat.mul_comm]

theorem length_transformStrides (ds : List Nat) : (transformStrides ds).length = ds.length := by
  rw [transformStrides_eq, length_dimsToStrides]

theorem cartesian_eq_box (ds : List Nat) : cartesian ds = box ds := by
  induction ds with
  | nil => rfl
  | cons d ds ih => simp [cartesian, box, ih]

/-! ### Well-formed strided storage -/

theorem Model.Strided.Frame.refl (t : Strided α) : t.Frame t := ⟨rfl, rfl, rfl, rfl, fun _ _ => rfl⟩

theorem Model.Strided.Frame.trans {a b c : Strided α} (h : a.Frame b) (g : b.Frame c) : a.Frame c where
  off := g.off.trans h.off
  dims := g.dims.trans h.dims
  strides := g.strides.trans h.strides
  length := g.length.trans h.length
  outside := by
    intro p hp
    rw [g.outside p, h.outside p hp]
    rw [h.dims, h.off, h.strides]; exact hp

theorem Model.Strided.Frame.wf {a b : Strided α} (h : a.Frame b) (w : a.WF) : b.WF where
  len := by rw [h.dims, h.strides]; exact w.len
  bound := by rw [h.dims, h.strides, h.off, h.length]; exact w.bound
  inj := by rw [h.dims, h.strides]; exact w.inj

@[simp] theorem length_toIdx (i : List Nat) : (toIdx i).length = i.length := by simp [toIdx]

theorem pyIndices_toIdx {js ds : List Nat} (h : InBox js ds) : pyIndices ds (toIdx js) = some js := by
  induction js generalizing ds with
  | nil => cases ds <;> simp_all [toIdx, pyIndices]
  | cons j js ih => cases ds with
    | nil => exact h.elim
    | cons d ds =>
      simp only [toIdx, List.map_cons]
      rw [pyIndices_cons]
      exact ⟨j, js, rfl, pyIndex_eq_some.2 ⟨h.1, Or.inl rfl⟩, ih h.2⟩

theorem pyIndices_length {ds : List Nat} {is : List Int} {js : List Nat}
    (h : pyIndices ds is = some js) : is.length = ds.length := by
  induction ds generalizing is js with
  | nil => cases is <;> simp_all [pyIndices]
  | cons d ds ih => cases is with
    | nil => simp [pyIndices] at h
    | cons i is =>
      obtain ⟨j, js', rfl, h1, h2⟩ := pyIndices_cons.1 h
      simp [ih h2]

theorem innerProduct_norm {ds ss : List Nat} {is : List Int} {js : List Nat}
    (h : pyIndices ds is = some js) : innerProduct (normIdx ds is) ss = (dot js ss : Nat) := by
  induction ds generalizing is js ss with
  | nil => cases is <;> simp_all [pyIndices]; simp [normIdx, innerProduct]
  | cons d ds ih => cases is with
    | nil => simp [pyIndices] at h
    | cons i is =>
      obtain ⟨j, js', rfl, h1, h2⟩ := pyIndices_cons.1 h
      cases ss with
      | nil => simp [innerProduct]
      | cons s ss =>
        have hj := pyIndex_eq_some.1 h1
        have e : (if i < 0 then (d : Int) + i else i) = j := by split <;> omega
        simp [normIdx, innerProduct, e, ih h2]

theorem addr_eq {t : Strided α} {is : List Int} {js : List Nat} (h : pyIndices t.dims is = some js)
    (hb : t.off + dot js t.strides < t.data.length) :
    t.addr is = .ok (t.off + dot js t.strides) := by
  unfold Strided.addr
  rw [if_neg (by simp [pyIndices_length h]), innerProduct_norm h]
  simp only
  rw [if_pos (by omega)]
  congr 1

theorem read_eq {t : Strided α} {is : List Int} {js : List Nat} (h : pyIndices t.dims is = some js)
    (hb : t.off + dot js t.strides < t.data.length) :
    t.read is = .ok t.data[t.off + dot js t.strides] := by
  unfold Strided.read
  rw [addr_eq h hb]
  simp [List.getElem?_eq_getElem hb]

theorem write_eq {t : Strided α} {is : List Int} {js : List Nat} (h : pyIndices t.dims is = some js)
    (hb : t.off + dot js t.strides < t.data.length) (v : α) :
    t.write is v = .ok { t with data := t.data.set (t.off + dot js t.strides) v } := by
  unfold Strided.write
  rw [addr_eq h hb]; rfl

/-- Reading with Python-style indices is reading at the normalised indices. -/
theorem read_normalise {t : Strided α} (w : t.WF) {is : List Int} {js : List Nat}
    (h : pyIndices t.dims is = some js) : t.read is = t.read (toIdx js) := by
  have hb := pyIndices_inBox h
  rw [read_eq h (w.bound js hb), read_eq (pyIndices_toIdx hb) (w.bound js hb)]

theorem write_normalise {t : Strided α} (w : t.WF) {is : List Int} {js : List Nat} (v : α)
    (h : pyIndices t.dims is = some js) : t.write is v = t.write (toIdx js) v := by
  have hb := pyIndices_inBox h
  rw [write_eq h (w.bound js hb), write_eq (pyIndices_toIdx hb) (w.bound js hb)]

theorem represents_iff {t : Strided α} (w : t.WF) {f : List Nat → α} :
    t.Represents f ↔ ∀ j, InBox j t.dims → t.data[t.off + dot j t.strides]? = some (f j) := by
  constructor
  · intro h j hj
    have := h j hj
    rw [read_eq (pyIndices_toIdx hj) (w.bound j hj)] at this
    rw [List.getElem?_eq_getElem (w.bound j hj)]
    simpa using this
  · intro h j hj
    rw [read_eq (pyIndices_toIdx hj) (w.bound j hj)]
    have := h j hj
    rw [List.getElem?_eq_getElem (w.bound j hj)] at this
    simpa using this

theorem exists_represents [Inhabited α] {t : Strided α} (w : t.WF) : ∃ f, t.Represents f :=
  ⟨fun j => t.data.getD (t.off + dot j t.strides) default, (represents_iff w).2 (by
    intro j hj
    rw [List.getD_eq_getElem?_getD, List.getElem?_eq_getElem (w.bound j hj)]; rfl)⟩

/-- A write at an in-range multi-index updates the function at exactly that point. -/
theorem write_represents {t : Strided α} (w : t.WF) {f : List Nat → α} (hf : t.Represents f)
    {j : List Nat} (hj : InBox j t.dims) (v : α) :
    ∃ t', t.write (toIdx j) v = .ok t' ∧ t.Frame t' ∧
      t'.Represents (fun i => if i = j then v else f i) := by
  refine ⟨_, write_eq (pyIndices_toIdx hj) (w.bound j hj) v, ⟨rfl, rfl, rfl, by simp, ?_⟩, ?_⟩
  · intro p hp
    simp only
    rw [List.getElem?_set_ne]
    exact (hp j hj).symm
  · rw [represents_iff]
    · intro i hi
      simp only
      rw [List.getElem?_set]
      by_cases e : i = j
      · subst e; simp [w.bound i hi]
      · rw [if_neg, if_neg e]
        · exact (represents_iff w).1 hf i hi
        · intro h
          exact e (w.inj i j hi hj (by omega))
    · exact ⟨w.len, by simpa using w.bound, w.inj⟩

theorem copyLoop_represents {src dst : Strided α} {g f : List Nat → α} (hs : src.Represents g)
    (w : dst.WF) (hd : dst.Represents f) (l : List (List Nat))
    (hl : ∀ i ∈ l, InBox i src.dims ∧ InBox i dst.dims) :
    ∃ dst', copyLoop src l dst = .ok dst' ∧ dst.Frame dst' ∧
      dst'.Represents (fun i => if i ∈ l then g i else f i) := by
  induction l generalizing dst f with
  | nil => exact ⟨dst, rfl, Strided.Frame.refl _, by simpa using hd⟩
  | cons i l ih =>
    have hi := hl i (by simp)
    obtain ⟨t1, h1, fr1, r1⟩ := write_represents w hd hi.2 (g i)
    obtain ⟨t2, h2, fr2, r2⟩ := ih (fr1.wf w) r1 (by
      intro k hk; rw [fr1.dims]; exact hl k (by simp [hk]))
    refine ⟨t2, ?_, fr1.trans fr2, ?_⟩
    · simp only [copyLoop]
      rw [hs i hi.1]
      simp only [Outcome.ok_bind]
      rw [h1]; simpa using h2
    · intro k hk
      rw [r2 k hk]
      congr 1
      by_cases e1 : k ∈ l
      · simp [e1]
      · by_cases e2 : k = i <;> simp [e1, e2]

/-! ### Row-major tensors -/

theorem Model.Strided.IsTensor.wf {t : Strided α} (h : t.IsTensor) : t.WF where
  len := by rw [h.strides, length_dimsToStrides]
  bound := by
    intro idx hi
    rw [h.off, h.strides, h.length, dot_strides_eq hi.length, Nat.zero_add]
    exact rowMajor_lt hi
  inj := by
    intro i j hi hj e
    rw [h.strides, dot_strides_eq hi.length, dot_strides_eq hj.length] at e
    exact rowMajor_inj hi hj e

theorem vecResize_length (z : Nat → α) (n : Nat) (l : List α) : (vecResize z n l).length = n := by
  simp [vecResize]; omega

theorem isTensor_mk' (z : Nat → α) {dims : List Nat} (h : dims ≠ []) : (Strided.mk' z dims).IsTensor where
  off := rfl
  strides := transformStrides_eq dims
  length := by simp [Strided.mk', vecResize_length, linearSize_eq h]

theorem Model.Strided.IsTensor.represents_iff {t : Strided α} (h : t.IsTensor) {f : List Nat → α} :
    t.Represents f ↔ t.data = (box t.dims).map f := by
  rw [Einsums.represents_iff h.wf]
  constructor
  · intro hr
    apply List.ext_getElem?
    intro p
    by_cases hp : p < numel t.dims
    · have hsp := sentinelToIndices_spec hp
      have := hr _ hsp.1
      rw [h.off, h.strides, dot_strides_eq hsp.1.length, hsp.2, Nat.zero_add] at this
      rw [this, List.getElem?_map]
      have h2 := getElem_box_rowMajor hsp.1
      rw [hsp.2] at h2
      rw [h2]; rfl
    · rw [List.getElem?_eq_none (by rw [h.length]; omega),
        List.getElem?_eq_none (by simp [length_box]; omega)]
  · intro hd j hj
    rw [h.off, h.strides, dot_strides_eq hj.length, Nat.zero_add, hd, List.getElem?_map,
      getElem_box_rowMajor hj]
    rfl

end Einsums
