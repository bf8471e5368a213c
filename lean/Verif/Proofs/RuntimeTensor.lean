import Verif.Spec.RuntimeTensor
import Verif.Proofs.SubView
import Verif.Proofs.Einsum
import Verif.Proofs.ElementOps
import Verif.Props.Index
/-
Lemmas about runtime tensors.
-/
namespace Einsums
open Spec Model

variable {α : Type}

/-! ### Loops over the elements -/

theorem ordLoop_eq {ds ss : List Nat} (hl : ss.length = ds.length) {p : Nat} (h : p < numel ds) :
    ordLoop p (dimsToStrides ds).2 ss = .ok (dot (sentinelToIndices p (dimsToStrides ds).2) ss) := by
  induction ds generalizing ss p with
  | nil => cases ss <;> simp_all [ordLoop, sentinelToIndices]
  | cons d ds ih =>
    cases ss with
    | nil => simp at hl
    | cons s ss =>
      rw [dimsToStrides_snd_cons]
      rw [numel_cons] at h
      have hpos : numel ds ≠ 0 := by intro e; simp [e] at h
      simp only [ordLoop, sentinelToIndices, if_neg hpos, if_pos hpos]
      rw [ih (by simpa using hl) (Nat.mod_lt _ (by omega))]
      simp only [Outcome.ok_bind, dot_cons]
      rw [Nat.mul_comm]
      rfl

theorem ptrRead_eq {t : Strided α} (w : t.WF) {f : List Nat → α} (hf : t.Represents f) {j : List Nat}
    (hj : InBox j t.dims) : ptrRead t (dot j t.strides) = .ok (f j) := by
  have := (represents_iff w).1 hf j hj
  simp [ptrRead, this]

theorem ptrModify_eq {t : Strided α} (w : t.WF) {f : List Nat → α} (hf : t.Represents f) {j : List Nat}
    (hj : InBox j t.dims) (g : α → α) :
    ∃ t', ptrModify t (dot j t.strides) g = .ok t' ∧ t.Frame t' ∧
      t'.Represents fun i => if i = j then g (f j) else f i := by
  have hb := w.bound j hj
  have fr : t.Frame { t with data := t.data.modify (t.off + dot j t.strides) g } := by
    refine ⟨rfl, rfl, rfl, by simp, ?_⟩
    intro p hp
    have hne : ¬ t.off + dot j t.strides = p := fun e => hp j hj e.symm
    simp [hne]
  refine ⟨_, by rw [ptrModify, if_pos hb], fr, ?_⟩
  rw [represents_iff (fr.wf w)]
  intro i hi
  have hfi := (represents_iff w).1 hf
  by_cases e : i = j
  · subst e; simp [hfi i hi]
  · have hne : ¬ dot j t.strides = dot i t.strides := fun h => e (w.inj i j hi hj h.symm)
    simp [hne, e, hfi i hi]

/-- A loop over all elements, in any order, that updates element `i` by `h i`. -/
theorem elementLoop' {C : Strided α} (w : C.WF) {f : List Nat → α} (hf : C.Represents f) {sch : List Nat}
    (hs : sch.Perm (List.range (numel C.dims))) (step : Strided α → Nat → Outcome (Strided α)) (h : List Nat → α → α)
    (hstep : ∀ i < numel C.dims, ∀ C1 f1, C.Frame C1 → C1.WF → C1.Represents f1 →
      let j := sentinelToIndices i (dimsToStrides C.dims).2
      ∃ C2, step C1 i = .ok C2 ∧ C1.Frame C2 ∧ C2.Represents fun k => if k = j then h j (f1 j) else f1 k) :
    ∃ C', sch.foldlM step C = .ok C' ∧ C.Frame C' ∧ C'.Represents fun i => h i (f i) := by
  have hmem : ∀ i ∈ sch, i < numel C.dims := fun i hi => List.mem_range.1 (hs.mem_iff.1 hi)
  let κ := fun i => sentinelToIndices i (dimsToStrides C.dims).2
  have hn : (sch.map κ).Nodup := by
    have hnd : sch.Nodup := hs.nodup_iff.2 List.nodup_range
    refine List.Nodup.map_on ?_ hnd
    intro a ha b hb e
    have h1 := (sentinelToIndices_spec (hmem a ha)).2
    have h2 := (sentinelToIndices_spec (hmem b hb)).2
    simp only [κ] at e
    rw [← h1, ← h2, e]
  -- carry the strides along
  have key : ∀ (l : List Nat) (C1 : Strided α) (f1 : List Nat → α), C.Frame C1 → C1.WF → C1.Represents f1 →
      (∀ i ∈ l, i < numel C.dims) → (l.map κ).Nodup →
      ∃ C' f', l.foldlM step C1 = .ok C' ∧ C1.Frame C' ∧ C'.Represents f' ∧
        (∀ b ∈ l, f' (κ b) = h (κ b) (f1 (κ b))) ∧ (∀ i, i ∉ l.map κ → f' i = f1 i) := by
    intro l
    induction l with
    | nil => intro C1 f1 _ _ r _ _; exact ⟨C1, f1, rfl, Strided.Frame.refl _, r, by simp, by simp⟩
    | cons b l ih =>
      intro C1 f1 fr w1 r hm hn
      obtain ⟨C2, e2, fr2, r2⟩ := hstep b (hm b (by simp)) C1 f1 fr w1 r
      rw [List.map_cons, List.nodup_cons] at hn
      obtain ⟨C', f', h2, fr3, r3, k1, k2⟩ := ih C2 _ (fr.trans fr2) (fr2.wf w1) r2
        (fun i hi => hm i (by simp [hi])) hn.2
      refine ⟨C', f', ?_, fr2.trans fr3, r3, ?_, ?_⟩
      · rw [List.foldlM_cons, e2]; exact h2
      · intro b' hb'
        rcases List.mem_cons.1 hb' with e | e
        · subst e
          rw [k2 _ hn.1]; simp [κ]
        · rw [k1 b' e]
          have : κ b' ≠ κ b := fun e2 => hn.1 (e2 ▸ List.mem_map_of_mem e)
          rw [if_neg this]
      · intro i hi
        simp only [List.map_cons, List.mem_cons, not_or] at hi
        rw [k2 i hi.2, if_neg hi.1]
  obtain ⟨C', f', e, fr, r, k1, _⟩ := key sch C f (Strided.Frame.refl _) w hf hmem hn
  refine ⟨C', e, fr, ?_⟩
  intro i hi
  rw [r i hi]
  rw [fr.dims] at hi
  have hm : rowMajor i C.dims ∈ sch := hs.mem_iff.2 (List.mem_range.2 (rowMajor_lt hi))
  have := k1 _ hm
  simp only [κ, sentinelToIndices_rowMajor hi] at this
  rw [this]

theorem elementLoop {C : Strided α} (w : C.WF) {f : List Nat → α} (hf : C.Represents f) {sch : List Nat}
    (hs : sch.Perm (List.range (numel C.dims))) (step : Strided α → Nat → Outcome (Strided α)) (h : List Nat → α → α)
    (hstep : ∀ i < numel C.dims, ∀ C1 f1, C1.dims = C.dims → C1.strides = C.strides → C1.WF → C1.Represents f1 →
      let j := sentinelToIndices i (dimsToStrides C.dims).2
      ∃ C2, step C1 i = .ok C2 ∧ C1.Frame C2 ∧ C2.Represents fun k => if k = j then h j (f1 j) else f1 k) :
    ∃ C', sch.foldlM step C = .ok C' ∧ C.Frame C' ∧ C'.Represents fun i => h i (f i) :=
  elementLoop' w hf hs step h fun i hi C1 f1 fr w1 r1 => hstep i hi C1 f1 fr.dims fr.strides w1 r1

theorem rtvMap_eq {v : RtView α} (w : v.WF) {f : List Nat → α} (hf : v.view.Represents f) (g : α → α) {sch : List Nat}
    (hs : sch.Perm (List.range v.size)) :
    ∃ v', rtvMap g v sch = .ok v' ∧ v'.WF ∧ v.view.Frame v'.view ∧ v'.view.Represents fun i => g (f i) := by
  rw [w.size] at hs
  obtain ⟨C', e, fr, r⟩ := elementLoop w.view hf hs
    (fun (t : Strided α) (i : Nat) => do
      let o ← ordLoop i v.ixStrides v.view.strides
      ptrModify t o g) (fun _ x => g x) (by
    intro i hi C1 f1 hd hst w1 r1 j
    have hj := (sentinelToIndices_spec hi).1
    obtain ⟨C2, e2, fr2, r2⟩ := ptrModify_eq w1 r1 (j := j) (by rw [hd]; exact hj) g
    refine ⟨C2, ?_, fr2, r2⟩
    rw [w.strides, ordLoop_eq w.view.len hi]
    simp only [Outcome.ok_bind]
    rw [← hst]; exact e2)
  refine ⟨{ v with view := C' }, ?_, ⟨fr.wf w.view, ?_, ?_⟩, fr, r⟩
  · simp only [rtvMap, e, Outcome.ok_bind]; rfl
  · simp only [fr.dims]; exact w.strides
  · simp only [fr.dims]; exact w.size

theorem rtvZip_eq {v : RtView α} (w : v.WF) {f : List Nat → α} (hf : v.view.Represents f) {src : Strided α} (ws : src.WF)
    {g : List Nat → α} (hg : src.Represents g) (hd : v.view.dims = src.dims) (op : α → α → α) {sch : List Nat}
    (hs : sch.Perm (List.range v.size)) :
    ∃ v', rtvZip op v src sch = .ok v' ∧ v'.WF ∧ v.view.Frame v'.view ∧ v'.view.Represents fun i => op (f i) (g i) := by
  rw [w.size] at hs
  obtain ⟨C', e, fr, r⟩ := elementLoop w.view hf hs
    (fun (t : Strided α) (i : Nat) => do
      let o ← ordLoop i v.ixStrides v.view.strides
      let o' ← ordLoop i v.ixStrides src.strides
      let x ← ptrRead src o'
      ptrModify t o fun y => op y x) (fun j y => op y (g j)) (by
    intro i hi C1 f1 hd1 hst w1 r1 j
    have hj := (sentinelToIndices_spec hi).1
    obtain ⟨C2, e2, fr2, r2⟩ := ptrModify_eq w1 r1 (j := j) (by rw [hd1]; exact hj) fun y => op y (g j)
    refine ⟨C2, ?_, fr2, r2⟩
    rw [w.strides, ordLoop_eq w.view.len hi, ordLoop_eq (by rw [ws.len, hd]) hi]
    simp only [Outcome.ok_bind]
    rw [ptrRead_eq ws hg (by rw [← hd]; exact hj)]
    simp only [Outcome.ok_bind]
    rw [← hst]; exact e2)
  refine ⟨{ v with view := C' }, ?_, ⟨fr.wf w.view, ?_, ?_⟩, fr, r⟩
  · simp only [rtvZip, hd, ne_eq, not_true_eq_false, if_false, e, Outcome.ok_bind]; rfl
  · simp only [fr.dims]; exact w.strides
  · simp only [fr.dims]; exact w.size

theorem isTensor_dot {t : Strided α} (h : t.IsTensor) {i : Nat} (hi : i < numel t.dims) :
    dot (sentinelToIndices i (dimsToStrides t.dims).2) t.strides = i := by
  have := sentinelToIndices_spec hi
  rw [h.strides, dot_strides_eq this.1.length, this.2]

theorem frame_isTensor {t t' : Strided α} (h : t.IsTensor) (fr : t.Frame t') : t'.IsTensor :=
  ⟨by rw [fr.off, h.off], by rw [fr.strides, fr.dims, h.strides], by rw [fr.length, fr.dims, h.length]⟩

theorem rtvAssignTensor_eq {v : RtView α} (w : v.WF) {f : List Nat → α} (hf : v.view.Represents f) {src : Strided α}
    (ht : src.IsTensor) {g : List Nat → α} (hg : src.Represents g) (hd : v.view.dims = src.dims) {sch : List Nat}
    (hs : sch.Perm (List.range v.size)) :
    ∃ v', rtvAssignTensor v src sch = .ok v' ∧ v'.WF ∧ v.view.Frame v'.view ∧ v'.view.Represents g := by
  rw [w.size] at hs
  obtain ⟨C', e, fr, r⟩ := elementLoop w.view hf hs
    (fun (t : Strided α) (i : Nat) => do
      let o ← ordLoop i v.ixStrides v.view.strides
      let x ← ptrRead src i
      ptrModify t o fun _ => x) (fun j _ => g j) (by
    intro i hi C1 f1 hd1 hst w1 r1 j
    have hj := (sentinelToIndices_spec hi).1
    obtain ⟨C2, e2, fr2, r2⟩ := ptrModify_eq w1 r1 (j := j) (by rw [hd1]; exact hj) fun _ => g j
    refine ⟨C2, ?_, fr2, r2⟩
    have hr := ptrRead_eq ht.wf hg (j := j) (by rw [← hd]; exact hj)
    have hj' : dot j src.strides = i := by
      have := isTensor_dot ht (i := i) (by rw [← hd]; exact hi)
      rw [← hd] at this; exact this
    rw [hj'] at hr
    rw [w.strides, ordLoop_eq w.view.len hi]
    simp only [Outcome.ok_bind, hr]
    rw [← hst]; exact e2)
  refine ⟨{ v with view := C' }, ?_, ⟨fr.wf w.view, ?_, ?_⟩, fr, r⟩
  · simp only [rtvAssignTensor, hd, ne_eq, not_true_eq_false, if_false, e, Outcome.ok_bind]; rfl
  · simp only [fr.dims]; exact w.strides
  · simp only [fr.dims]; exact w.size

/-! ### Construction and assignment of runtime tensors -/

theorem rtNew_isTensor (z : Nat → α) (dims : List Nat) : (rtNew z dims).IsTensor :=
  ⟨rfl, rfl, by simp [rtNew, vecResize_length, dimsToStrides_fst]⟩

/-- A loop over the storage of a runtime tensor that stores `g` of the element's index. -/
theorem storeLoop {t : Strided α} (ht : t.IsTensor) {sch : List Nat} (hs : sch.Perm (List.range (numel t.dims)))
    (get : Strided α → Nat → Outcome α) (g : List Nat → α) (d : α)
    (hget : ∀ i < numel t.dims, ∀ t1 : Strided α, t1.dims = t.dims → t1.strides = t.strides →
      get t1 i = .ok (g (sentinelToIndices i (dimsToStrides t.dims).2))) :
    ∃ t', sch.foldlM (fun (t : Strided α) (i : Nat) => do
        let x ← get t i
        ptrModify t i fun _ => x) t = .ok t' ∧ t'.IsTensor ∧ t'.dims = t.dims ∧ t'.Represents g := by
  have : Inhabited α := ⟨d⟩
  obtain ⟨f, hf⟩ := exists_represents ht.wf
  obtain ⟨C', e, fr, r⟩ := elementLoop ht.wf hf hs
    (fun (t : Strided α) (i : Nat) => do
        let x ← get t i
        ptrModify t i fun _ => x) (fun j _ => g j) (by
    intro i hi C1 f1 hd hst w1 r1 j
    have hj := (sentinelToIndices_spec hi).1
    obtain ⟨C2, e2, fr2, r2⟩ := ptrModify_eq w1 r1 (j := j) (by rw [hd]; exact hj) fun _ => g j
    refine ⟨C2, ?_, fr2, r2⟩
    rw [hget i hi C1 hd hst]
    simp only [Outcome.ok_bind]
    rw [hst, isTensor_dot ht hi] at e2
    exact e2)
  exact ⟨C', e, frame_isTensor ht fr, fr.dims, r⟩

end Einsums
