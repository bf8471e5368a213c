import Verif.Proofs.RuntimeSlice
/-
Lemmas about element access, construction and assignment of runtime tensors.
-/
namespace Einsums
open Spec Model

variable {α : Type}

theorem negCheck_full {strides dims : List Nat} {idx : List Int} {js : List Nat} (hs : strides.length = dims.length)
    (h : pyIndices dims idx = some js) :
    indicesToSentinelNegativeCheck strides dims idx = .ok (dot js strides : Nat) := by
  have hl := pyIndices_length h
  exact Props.C02_accepts _ _ idx js hs (by omega) (by rw [hl, List.take_length]; exact h)

theorem negCheck_full_none {strides dims : List Nat} {idx : List Int} (hs : strides.length = dims.length)
    (hl : dims.length ≤ idx.length) (h : pyIndices dims idx = none) :
    ∃ e, indicesToSentinelNegativeCheck strides dims idx = .error e := by
  apply negCheck_error hs
  by_cases e : dims.length < idx.length
  · exact .inl e
  · right
    rw [show idx.length = dims.length by omega, List.take_length]; exact h

theorem rtvGet_eq {v : RtView α} (w : v.view.WF) {f : List Nat → α} (hf : v.view.Represents f) {idx : List Int}
    {js : List Nat} (h : pyIndices v.view.dims idx = some js) : rtvGet v idx = .ok (f js) := by
  simp only [rtvGet]
  rw [negCheck_full w.len h]
  simp only [Outcome.ok_bind, Int.toNat_natCast]
  exact ptrRead_eq w hf (pyIndices_inBox h)

theorem rtvSet_eq {v : RtView α} (w : v.WF) {f : List Nat → α} (hf : v.view.Represents f) {idx : List Int}
    {js : List Nat} (h : pyIndices v.view.dims idx = some js) (x : α) :
    ∃ v', rtvSet v idx x = .ok v' ∧ v'.WF ∧ v.view.Frame v'.view ∧
      v'.view.Represents fun i => if i = js then x else f i := by
  obtain ⟨t', h1, fr, r⟩ := ptrModify_eq w.view hf (pyIndices_inBox h) fun _ => x
  refine ⟨{ v with view := t' }, ?_, ⟨fr.wf w.view, ?_, ?_⟩, fr, r⟩
  · simp only [rtvSet]
    rw [negCheck_full w.view.len h]
    simp only [Outcome.ok_bind, Int.toNat_natCast]
    rw [h1]; rfl
  · simp only [fr.dims]; exact w.strides
  · simp only [fr.dims]; exact w.size

theorem rtAddr_eq {t : Strided α} (ht : t.IsTensor) {idx : List Int} {js : List Nat} (h : pyIndices t.dims idx = some js) :
    rtAddr t idx = .ok (dot js t.strides) := by
  have hl := pyIndices_length h
  have hb := ht.wf.bound js (pyIndices_inBox h)
  rw [ht.off] at hb
  simp only [rtAddr]
  rw [if_neg (by omega), negCheck_full ht.wf.len h]
  simp only [Outcome.ok_bind, Int.toNat_natCast]
  rw [if_pos (by omega)]

theorem rtAddr_none {t : Strided α} (hs : t.strides.length = t.dims.length) {idx : List Int} (h : pyIndices t.dims idx = none) :
    ∃ e, rtAddr t idx = .error e := by
  simp only [rtAddr]
  split
  · exact ⟨_, rfl⟩
  · obtain ⟨e, he⟩ := negCheck_full_none hs (by omega) h
    exact ⟨e, by rw [he]; rfl⟩

theorem rtGet_eq {t : Strided α} (ht : t.IsTensor) {f : List Nat → α} (hf : t.Represents f) {idx : List Int} {js : List Nat}
    (h : pyIndices t.dims idx = some js) : rtGet t idx = .ok (f js) := by
  have := (represents_iff ht.wf).1 hf js (pyIndices_inBox h)
  rw [ht.off, Nat.zero_add] at this
  simp only [rtGet]
  rw [rtAddr_eq ht h]
  simp only [Outcome.ok_bind, this]

theorem rtSet_eq {t : Strided α} (ht : t.IsTensor) {f : List Nat → α} (hf : t.Represents f) {idx : List Int} {js : List Nat}
    (h : pyIndices t.dims idx = some js) (x : α) :
    ∃ t', rtSet t idx x = .ok t' ∧ t'.IsTensor ∧ t.Frame t' ∧ t'.Represents fun i => if i = js then x else f i := by
  have hb := pyIndices_inBox h
  obtain ⟨t', h1, fr, r⟩ := ptrModify_eq ht.wf hf hb fun _ => x
  refine ⟨t', ?_, frame_isTensor ht fr, fr, r⟩
  have hlt := ht.wf.bound js hb
  rw [ptrModify, if_pos hlt] at h1
  cases h1
  simp only [rtSet]
  rw [rtAddr_eq ht h]
  simp only [Outcome.ok_bind, ht.off, Nat.zero_add]
  congr 2
  rw [List.set_eq_modify]

/-! ### Construction and assignment -/

theorem rtOfView_eq (z : Nat → α) {v : Strided α} (w : v.WF) {g : List Nat → α} (hg : v.Represents g) {sch : List Nat}
    (hs : sch.Perm (List.range (numel v.dims))) :
    ∃ t, rtOfView z v sch = .ok t ∧ t.IsTensor ∧ t.dims = v.dims ∧ t.Represents g := by
  have ht := rtNew_isTensor z v.dims
  obtain ⟨t', e, h1, h2, h3⟩ := storeLoop ht (sch := sch) hs
    (fun (t : Strided α) (i : Nat) => do
      let o ← ordLoop i t.strides v.strides
      ptrRead v o) g (z 0) (by
    intro i hi t1 hd hst
    have hi' : i < numel v.dims := hi
    rw [hst]
    have : (rtNew z v.dims).strides = (dimsToStrides v.dims).2 := rfl
    rw [this, ordLoop_eq w.len hi']
    simp only [Outcome.ok_bind]
    exact ptrRead_eq w hg (sentinelToIndices_spec hi').1)
  refine ⟨t', ?_, h1, h2, h3⟩
  rw [← e]
  simp only [rtOfView, bind_assoc]

theorem rtAssign_eq (z : Nat → α) (dst : Strided α) {src : Strided α} (ht : src.IsTensor) {g : List Nat → α}
    (hg : src.Represents g) {sch : List Nat} (hs : sch.Perm (List.range (numel src.dims))) :
    ∃ t, rtAssign z dst src sch = .ok t ∧ t.IsTensor ∧ t.dims = src.dims ∧ t.Represents g := by
  have ht0 : Strided.IsTensor { data := vecResize z src.data.length dst.data, off := 0, dims := src.dims, strides := src.strides } :=
    ⟨rfl, ht.strides, by simp [vecResize_length, ht.length]⟩
  obtain ⟨t', e, h1, h2, h3⟩ := storeLoop ht0 (sch := sch) hs
    (fun (_ : Strided α) (i : Nat) => ptrRead src i) g (z 0) (by
    intro i hi t1 _ _
    have hi' : i < numel src.dims := hi
    have := ptrRead_eq ht.wf hg (sentinelToIndices_spec hi').1
    rw [isTensor_dot ht hi'] at this
    exact this)
  exact ⟨t', e, h1, h2, h3⟩

theorem rtAssignView_eq (z : Nat → α) {dst : Strided α} (hd : dst.IsTensor) {src : RtView α} (w : src.WF) {g : List Nat → α}
    (hg : src.view.Represents g) {sch : List Nat} (hs : sch.Perm (List.range (numel src.view.dims))) :
    ∃ t, rtAssignView z dst src sch = .ok t ∧ t.IsTensor ∧ t.dims = src.view.dims ∧ t.Represents g := by
  have key : ∀ t0 : Strided α, t0.IsTensor → t0.dims = src.view.dims →
      ∃ t, sch.foldlM (fun (t : Strided α) (i : Nat) => do
        let x ← rtvGet src (toIdx (sentinelToIndices i t.strides))
        ptrModify t i fun _ => x) t0 = .ok t ∧ t.IsTensor ∧ t.dims = src.view.dims ∧ t.Represents g := by
    intro t0 h0 hd0
    obtain ⟨t', e, h1, h2, h3⟩ := storeLoop h0 (sch := sch) (by rw [hd0]; exact hs)
      (fun (t : Strided α) (i : Nat) => rtvGet src (toIdx (sentinelToIndices i t.strides))) g (z 0) (by
      intro i hi t1 _ hst
      have hb := (sentinelToIndices_spec hi).1
      rw [hst, h0.strides]
      exact rtvGet_eq w.view hg (by rw [← hd0]; exact pyIndices_toIdx hb))
    exact ⟨t', e, h1, by rw [h2, hd0], h3⟩
  simp only [rtAssignView]
  by_cases e : dst.dims = src.view.dims
  · rw [if_neg (by simpa using e)]
    exact key dst hd e
  · rw [if_pos (by simpa using e)]
    exact key _ ⟨rfl, rfl, by simp [vecResize_length, w.size]⟩ rfl

theorem rtAssignStrided_eq (z : Nat → α) (dst : Strided α) {dims : List Nat} {size : Nat} {get : List Int → Outcome α}
    {g : List Nat → α} (hsz : size = numel dims) (hg : ∀ i, InBox i dims → get (toIdx i) = .ok (g i))
    {sch : List Nat} (hs : sch.Perm (List.range (numel dims))) :
    ∃ t, rtAssignStrided z dst dims (dimsToStrides dims).2 size get sch = .ok t ∧ t.IsTensor ∧ t.dims = dims ∧
      t.Represents g := by
  have ht0 : Strided.IsTensor { data := vecResize z size dst.data, off := 0, dims := dims, strides := (dimsToStrides dims).2 } :=
    ⟨rfl, rfl, by simp [vecResize_length, hsz]⟩
  obtain ⟨t', e, h1, h2, h3⟩ := storeLoop ht0 (sch := sch) hs
    (fun (t : Strided α) (i : Nat) => get (toIdx (sentinelToIndices i t.strides))) g (z 0) (by
    intro i hi t1 _ hst
    rw [hst]
    exact hg _ (sentinelToIndices_spec hi).1)
  exact ⟨t', e, h1, h2, h3⟩

theorem rtCompoundTensor_eq (op : α → α → α) {t b : Strided α} (ht : t.IsTensor) (hb : b.IsTensor) (hd : t.dims = b.dims)
    {f g : List Nat → α} (hf : t.Represents f) (hg : b.Represents g) {sch : List Nat}
    (hs : sch.Perm (List.range (numel t.dims))) :
    ∃ t', rtCompoundTensor op t b sch = .ok t' ∧ t'.IsTensor ∧ t'.dims = t.dims ∧ t'.Represents fun i => op (f i) (g i) := by
  obtain ⟨C', e, fr, r⟩ := elementLoop ht.wf hf hs
    (fun (t : Strided α) (i : Nat) => do
      let x ← ptrRead b i
      ptrModify t i fun y => op y x) (fun j y => op y (g j)) (by
    intro i hi C1 f1 hd1 hst w1 r1 j
    have hj := (sentinelToIndices_spec hi).1
    obtain ⟨C2, e2, fr2, r2⟩ := ptrModify_eq w1 r1 (j := j) (by rw [hd1]; exact hj) fun y => op y (g j)
    refine ⟨C2, ?_, fr2, r2⟩
    have hr := ptrRead_eq hb.wf hg (j := j) (by rw [← hd]; exact hj)
    have hj' : dot j b.strides = i := by
      have := isTensor_dot hb (i := i) (by rw [← hd]; exact hi)
      rw [← hd] at this; exact this
    rw [hj'] at hr
    rw [hr]
    simp only [Outcome.ok_bind]
    rw [hst, isTensor_dot ht hi] at e2
    exact e2)
  refine ⟨C', ?_, frame_isTensor ht fr, fr.dims, r⟩
  simp only [rtCompoundTensor]
  rw [if_neg (by rw [ht.length, hb.length, hd]; simp), e]

theorem rtCompoundView_eq (op : α → α → α) {t : Strided α} (ht : t.IsTensor) {v : RtView α} (w : v.WF)
    (hd : t.dims = v.view.dims) {f g : List Nat → α} (hf : t.Represents f) (hg : v.view.Represents g) {sch : List Nat}
    (hs : sch.Perm (List.range (numel t.dims))) :
    ∃ t', rtCompoundView op t v sch = .ok t' ∧ t'.IsTensor ∧ t'.dims = t.dims ∧ t'.Represents fun i => op (f i) (g i) := by
  obtain ⟨C', e, fr, r⟩ := elementLoop' ht.wf hf hs
    (fun (t : Strided α) (i : Nat) => do
      let idx := toIdx (sentinelToIndices i t.strides)
      let x ← rtvGet v idx
      let y ← rtGet t idx
      rtSet t idx (op y x)) (fun j y => op y (g j)) (by
    intro i hi C1 f1 fr1 w1 r1 j
    have hj : InBox j t.dims := (sentinelToIndices_spec hi).1
    have ht1 := frame_isTensor ht fr1
    have hp := pyIndices_toIdx hj
    obtain ⟨C2, e2, _, fr2, r2⟩ := rtSet_eq ht1 r1 (by rw [fr1.dims]; exact hp) (op (f1 j) (g j))
    refine ⟨C2, ?_, fr2, r2⟩
    have hst : C1.strides = (dimsToStrides t.dims).2 := by rw [fr1.strides, ht.strides]
    simp only [hst]
    rw [rtvGet_eq w.view hg (js := j) (by rw [← hd]; exact hp)]
    simp only [Outcome.ok_bind]
    rw [rtGet_eq ht1 r1 (js := j) (by rw [fr1.dims]; exact hp)]
    exact e2)
  refine ⟨C', ?_, frame_isTensor ht fr, fr.dims, r⟩
  simp only [rtCompoundView]
  rw [if_neg (by rw [hd]; simp), if_neg (by rw [hd]; simp), e]

end Einsums
