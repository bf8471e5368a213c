import Verif.Spec.Disk
import Verif.Proofs.SubView
import Verif.Proofs.BlockOps
/-
Disk tensors: a view's hyperslab holds exactly the selected elements, in the row-major order of the view.
-/
namespace Einsums
open Einsums.Model Einsums.Spec

variable {R : Type}

/-- No negative numbers among the arguments. -/
def NonNegSel (args : List Sel) : Prop :=
  ∀ a ∈ args, match a with
    | .at k => 0 ≤ k
    | .all => True
    | .range _ b => 0 ≤ b

/-- The index inside the hyperslab of element `j` of the view. -/
def slabIndex : List Sel → List Nat → List Nat
  | .at _ :: as, js => 0 :: slabIndex as js
  | _ :: as, j :: js => j :: slabIndex as js
  | _, _ => []

theorem NonNegSel.tail {a : Sel} {as : List Sel} (h : NonNegSel (a :: as)) : NonNegSel as :=
  fun b hb => h b (by simp [hb])

theorem selects_len {ds : List Nat} {args : List Sel} {vd : List Nat} (h : selDims ds args = some vd) :
    args.length = ds.length := by
  induction ds generalizing args vd with
  | nil => cases args <;> simp_all [selDims]
  | cons d ds ih =>
    cases args with
    | nil => simp [selDims] at h
    | cons a as =>
      cases a with
      | «at» k =>
        simp only [selDims] at h
        split at h
        · simp [ih h]
        · simp at h
      | all =>
        simp only [selDims, Option.map_eq_some_iff] at h
        obtain ⟨_, h', _⟩ := h
        simp [ih h']
      | range a b =>
        simp only [selDims] at h
        split at h
        case isFalse => simp at h
        simp only [Option.map_eq_some_iff] at h
        obtain ⟨_, h', _⟩ := h
        simp [ih h']

theorem slab_spec {ds : List Nat} {args : List Sel} {vd : List Nat} (h : selDims ds args = some vd)
    (hn : NonNegSel args) :
    slabFits ds (diskOffsets ds args) (diskCounts ds args) = true ∧
    numel ((diskCounts ds args).map Int.toNat) = numel vd ∧
    (((diskCounts ds args).filter fun c => decide (1 < c)).map Int.toNat) = vd.filter (fun d => decide (1 < d)) ∧
    selRank args = vd.length ∧
    (∀ j, InBox j vd → InBox (slabIndex args j) ((diskCounts ds args).map Int.toNat) ∧
      rowMajor (slabIndex args j) ((diskCounts ds args).map Int.toNat) = rowMajor j vd ∧
      shift ((diskOffsets ds args).map Int.toNat) (slabIndex args j) = selIndex ds args j ∧
      insideSlab ((diskOffsets ds args).map Int.toNat) ((diskCounts ds args).map Int.toNat)
        (selIndex ds args j) = true ∧
      unshift (selIndex ds args j) ((diskOffsets ds args).map Int.toNat) = slabIndex args j) ∧
    (∀ k, insideSlab ((diskOffsets ds args).map Int.toNat) ((diskCounts ds args).map Int.toNat) k = true →
      ∃ j, InBox j vd ∧ selIndex ds args j = k) := by
  induction ds generalizing args vd with
  | nil =>
    cases args with
    | cons a as => simp [selDims] at h
    | nil =>
      simp only [selDims, Option.some.injEq] at h
      subst h
      refine ⟨rfl, rfl, rfl, rfl, ?_, ?_⟩
      · intro j hj
        rw [InBox_nil_right.1 hj]
        exact ⟨trivial, rfl, rfl, rfl, rfl⟩
      · intro k hk
        cases k with
        | nil => exact ⟨[], trivial, rfl⟩
        | cons a k => simp [diskOffsets, diskCounts, insideSlab] at hk
  | cons d ds ih =>
    cases args with
    | nil => simp [selDims] at h
    | cons a as =>
      cases a with
      | «at» k =>
        simp only [selDims] at h
        split at h
        case isFalse => simp at h
        rename_i hs
        obtain ⟨x, hx⟩ := Option.isSome_iff_exists.1 hs
        have hx' := pyIndex_eq_some.1 hx
        have hk : 0 ≤ k := hn (.at k) (by simp)
        have hkx : k.toNat = x ∧ x < d ∧ k = x := by omega
        obtain ⟨i1, i2, i3, i4, i5, i6⟩ := ih h hn.tail
        refine ⟨?_, ?_, ?_, ?_, ?_, ?_⟩
        · simp only [diskOffsets, diskCounts, slabFits, i1, Bool.and_true, decide_eq_true_eq]
          omega
        · simp [diskCounts, i2]
        · simp [diskCounts, i3]
        · simpa [selRank] using i4
        · intro j hj
          obtain ⟨j1, j2, j3, j4, j5⟩ := i5 j hj
          simp only [diskOffsets, diskCounts, slabIndex, selIndex, List.map_cons, hx, Option.getD_some, shift,
            insideSlab, unshift, hkx.1, j3, j4, j5, rowMajor_cons, j2]
          refine ⟨⟨by simp, j1⟩, by simp, by simp, by simp, by simp⟩
        · intro k' hk'
          cases k' with
          | nil => simp [diskOffsets, diskCounts, insideSlab] at hk'
          | cons y k' =>
            simp only [diskOffsets, diskCounts, List.map_cons, insideSlab, Bool.and_eq_true,
              decide_eq_true_eq] at hk'
            obtain ⟨j, hj, e⟩ := i6 k' hk'.2
            refine ⟨j, hj, ?_⟩
            simp only [selIndex, hx, Option.getD_some, e, List.cons.injEq, and_true]
            have := hk'.1
            simp at this
            omega
      | all =>
        simp only [selDims, Option.map_eq_some_iff] at h
        obtain ⟨vd', h', rfl⟩ := h
        obtain ⟨i1, i2, i3, i4, i5, i6⟩ := ih h' hn.tail
        refine ⟨?_, ?_, ?_, ?_, ?_, ?_⟩
        · simp [diskOffsets, diskCounts, slabFits, i1]
        · simp [diskCounts, i2]
        · simp only [diskCounts, List.filter_cons]
          by_cases e : 1 < d
          · rw [if_pos (by simp; omega), if_pos (by simpa using e)]
            simp [i3]
          · rw [if_neg (by simp; omega), if_neg (by simpa using e)]
            exact i3
        · simpa [selRank] using i4
        · intro j hj
          cases j with
          | nil => exact hj.elim
          | cons y j =>
            obtain ⟨j1, j2, j3, j4, j5⟩ := i5 j hj.2
            have := hj.1
            simp only [diskOffsets, diskCounts, slabIndex, selIndex, List.map_cons, shift,
              insideSlab, unshift, j3, j4, j5, rowMajor_cons, j2, i2]
            refine ⟨⟨by simpa using this, j1⟩, trivial, by simp, by simpa using this, by simp⟩
        · intro k' hk'
          cases k' with
          | nil => simp [diskOffsets, diskCounts, insideSlab] at hk'
          | cons y k' =>
            simp only [diskOffsets, diskCounts, List.map_cons, insideSlab, Bool.and_eq_true,
              decide_eq_true_eq] at hk'
            obtain ⟨j, hj, e⟩ := i6 k' hk'.2
            refine ⟨y :: j, ⟨by simpa using hk'.1, hj⟩, ?_⟩
            simp only [selIndex, e]
      | range a b =>
        simp only [selDims] at h
        split at h
        case isFalse => simp at h
        rename_i hs
        simp only [Option.map_eq_some_iff] at h
        obtain ⟨vd', h', rfl⟩ := h
        have hb : 0 ≤ b := hn (.range a b) (by simp)
        have hr : rangeEnd d b = b := by simp [rangeEnd]; omega
        rw [hr] at hs ⊢
        obtain ⟨i1, i2, i3, i4, i5, i6⟩ := ih h' hn.tail
        refine ⟨?_, ?_, ?_, ?_, ?_, ?_⟩
        · simp only [diskOffsets, diskCounts, slabFits, i1, Bool.and_true, decide_eq_true_eq]
          omega
        · simp [diskCounts, i2]
        · simp only [diskCounts, List.filter_cons]
          by_cases e : 1 < (b - a)
          · rw [if_pos (by simpa using e), if_pos (by simp; omega)]
            simp [i3]
          · rw [if_neg (by simpa using e), if_neg (by simp; omega)]
            exact i3
        · simpa [selRank] using i4
        · intro j hj
          cases j with
          | nil => exact hj.elim
          | cons y j =>
            obtain ⟨j1, j2, j3, j4, j5⟩ := i5 j hj.2
            have := hj.1
            simp only [diskOffsets, diskCounts, slabIndex, selIndex, List.map_cons, shift,
              insideSlab, unshift, j3, j4, j5, rowMajor_cons, j2, i2]
            refine ⟨⟨by simpa using this, j1⟩, trivial, trivial, by simp; omega, by simp⟩
        · intro k' hk'
          cases k' with
          | nil => simp [diskOffsets, diskCounts, insideSlab] at hk'
          | cons y k' =>
            simp only [diskOffsets, diskCounts, List.map_cons, insideSlab, Bool.and_eq_true,
              decide_eq_true_eq] at hk'
            obtain ⟨j, hj, e⟩ := i6 k' hk'.2
            refine ⟨(y - a.toNat) :: j, ⟨by omega, hj⟩, ?_⟩
            simp only [selIndex, e, List.cons.injEq, and_true]
            omega

/-- The view's shape. -/
theorem diskDims_eq {ds : List Nat} {args : List Sel} {vd : List Nat} (h : Selects ds args vd) :
    diskDims (selRank args) (diskCounts ds args) = vd := by
  obtain ⟨h1, _, h3, h4⟩ := h
  obtain ⟨_, _, i3, i4, _, _⟩ := slab_spec h1 h4
  have : vd.filter (fun d => decide (1 < d)) = vd := List.filter_eq_self.2 (by simpa using h3)
  simp only [diskDims, i3, i4, this, Nat.sub_self, List.replicate_zero, List.append_nil]

/-- A buffer holding the elements of a tensor of the selected shape. -/
theorem read_slab {d : Dataset R} {args : List Sel} {vd : List Nat} (h : selDims d.dims args = some vd)
    (hn : NonNegSel args) {t : Strided R} (ht : t.IsTensor) (hd : t.dims = vd) :
    ∃ mem, d.read t.data (diskCounts d.dims args) (diskOffsets d.dims args) = .ok mem ∧
      ({ t with data := mem } : Strided R).IsTensor ∧
      ({ t with data := mem } : Strided R).Represents (fun j => d.elem (selIndex d.dims args j)) := by
  obtain ⟨i1, i2, _, _, i5, _⟩ := slab_spec h hn
  have hl : t.data.length = numel vd := by rw [ht.length, hd]
  refine ⟨(box ((diskCounts d.dims args).map Int.toNat)).map
      (fun j => d.elem (shift ((diskOffsets d.dims args).map Int.toNat) j)), ?_, ?_, ?_⟩
  · simp only [Dataset.read, i1, if_true]
    rw [if_pos (by omega), List.drop_eq_nil_of_le (by omega), List.append_nil]
  · exact ⟨ht.off, ht.strides, by simp only [List.length_map, length_box, i2, hd]⟩
  · rw [represents_iff]
    · intro j hj
      simp only [ht.off, ht.strides] at hj ⊢
      rw [dot_strides_eq hj.length, Nat.zero_add]
      simp only [hd] at hj ⊢
      obtain ⟨j1, j2, j3, _, _⟩ := i5 j hj
      rw [← j2, List.getElem?_map, getElem_box_rowMajor j1, Option.map_some, j3]
    · exact Strided.IsTensor.wf ⟨ht.off, ht.strides, by simp only [List.length_map, length_box, i2, hd]⟩

theorem write_slab {d : Dataset R} {args : List Sel} {vd : List Nat} (h : selDims d.dims args = some vd)
    (hn : NonNegSel args) {t : Strided R} (ht : t.IsTensor) (hd : t.dims = vd) {g : List Nat → R}
    (hg : t.Represents g) :
    ∃ d', d.write t.data (diskCounts d.dims args) (diskOffsets d.dims args) = .ok d' ∧ d'.dims = d.dims ∧
      (∀ j, InBox j vd → d'.elem (selIndex d.dims args j) = g j) ∧
      (∀ k, ¬ InRegion d.dims args k → d'.elem k = d.elem k) := by
  obtain ⟨i1, i2, _, _, i5, i6⟩ := slab_spec h hn
  have hl : t.data.length = numel vd := by rw [ht.length, hd]
  rw [represents_iff ht.wf] at hg
  simp only [Dataset.write, i1, if_true]
  rw [if_pos (by omega)]
  refine ⟨_, rfl, rfl, ?_, ?_⟩
  · intro j hj
    obtain ⟨j1, j2, j3, j4, j5⟩ := i5 j hj
    have := hg j (by rw [hd]; exact hj)
    rw [ht.off, ht.strides, dot_strides_eq (by rw [hd]; exact hj.length), Nat.zero_add, hd] at this
    simp only [j4, if_true, j5, j2, this, Option.getD_some]
  · intro k hk
    by_cases e : insideSlab ((diskOffsets d.dims args).map Int.toNat) ((diskCounts d.dims args).map Int.toNat) k = true
    · obtain ⟨j, hj, ej⟩ := i6 k e
      exact absurd ⟨vd, j, h, hj, ej⟩ hk
    · simp only [if_neg e]

/-! ### Histories -/

/-- The state of the program agrees with its history. -/
structure DiskInv (A : DiskTensor) (w : Files R) (s : DiskState R) (h : DiskHistory R) : Prop where
  disk : ∃ d, s.files A.disk.1 A.disk.2 = some d ∧ d.dims = A.dims ∧ ∀ k, InBox k A.dims → d.elem k = h.saved k
  others : ∀ f n, ¬ (f = A.disk.1 ∧ n = A.disk.2) → s.files f n = w f n
  live : ∀ id args, h.live id = some args → ∃ vd v, Selects A.dims args vd ∧ s.views id = some v ∧
    v.disk = A.disk ∧ v.counts = diskCounts A.dims args ∧ v.offsets = diskOffsets A.dims args ∧
    v.readOnly = false ∧ v.dims = vd ∧ v.tensor.IsTensor ∧ v.tensor.dims = vd ∧
    v.tensor.Represents (fun j => h.now (selIndex A.dims args j))
  disjoint : ∀ i i' args args', i ≠ i' → h.live i = some args → h.live i' = some args' →
    ∀ k, InRegion A.dims args k → ¬ InRegion A.dims args' k
  saved : ∀ k, InBox k A.dims → (∀ id args, h.live id = some args → ¬ InRegion A.dims args k) →
    h.saved k = h.now k

theorem selIndex_inBox {ds : List Nat} {args : List Sel} {vd : List Nat} (h : selDims ds args = some vd) {j : List Nat}
    (hj : InBox j vd) : InBox (selIndex ds args j) ds :=
  (selIndex_spec (ss := ds) rfl h hj).1

theorem represents_congr {t : Strided R} {f g : List Nat → R} (h : t.Represents f)
    (e : ∀ j, InBox j t.dims → f j = g j) : t.Represents g := by
  intro j hj
  rw [h j hj, e j hj]

theorem inv_view (z : Nat → R) {A : DiskTensor} {w : Files R} {s : DiskState R} {h : DiskHistory R} (I : DiskInv A w s h)
    {id : Nat} {args : List Sel} {vd : List Nat} (hl : h.live id = none) (hs : Selects A.dims args vd)
    (hd : ∀ i args', h.live i = some args' → ∀ k, InRegion A.dims args k → ¬ InRegion A.dims args' k) :
    ∃ s', diskStep z A false s (.view id args) = .ok (s', none) ∧
      DiskInv A w s' { h with live := fun i => if i = id then some args else h.live i } := by
  obtain ⟨d, hd1, hd2, hd3⟩ := I.disk
  obtain ⟨mem, hm, mt, mr⟩ := read_slab (d := d) (args := args) (vd := vd) (by rw [hd2]; exact hs.1) hs.2.2.2
    (isTensor_mk' z hs.2.1) rfl
  rw [hd2] at hm mr
  have hdims := diskDims_eq hs
  have hlen : args.length ≤ A.dims.length := by rw [selects_len hs.1]
  have hv : A.view z s.files args false
      = .ok ⟨A.disk, vd, diskCounts A.dims args, diskOffsets A.dims args, { Strided.mk' z vd with data := mem }, false⟩ := by
    simp only [DiskTensor.view, if_pos hlen, hd1, hdims, hm, Outcome.ok_bind]
  refine ⟨_, by simp only [diskStep, hv, Outcome.ok_bind]; rfl, ?_⟩
  refine ⟨⟨d, hd1, hd2, hd3⟩, I.others, ?_, ?_, ?_⟩
  · intro i args' hi
    simp only at hi
    by_cases e : i = id
    · subst e
      rw [if_pos rfl] at hi
      obtain rfl : args = args' := by simpa using hi
      refine ⟨vd, ⟨A.disk, vd, diskCounts A.dims args, diskOffsets A.dims args, { Strided.mk' z vd with data := mem }, false⟩,
        hs, by simp only [DiskState.setView, if_true], rfl, rfl, rfl, rfl, rfl, mt, rfl, ?_⟩
      refine represents_congr mr ?_
      intro j hj
      have hb := selIndex_inBox hs.1 hj
      rw [hd3 _ hb]
      exact I.saved _ hb fun i a hi hr => hd i a hi _ ⟨vd, j, hs.1, hj, rfl⟩ hr
    · rw [if_neg e] at hi
      obtain ⟨vd', v, h1, h2, h3⟩ := I.live i args' hi
      exact ⟨vd', v, h1, by simp only [DiskState.setView, if_neg e]; exact h2, h3⟩
  · intro i i' a a' hne hi hi' k
    simp only at hi hi'
    by_cases e : i = id
    · rw [if_pos e] at hi
      rw [if_neg (by omega)] at hi'
      obtain rfl : args = a := by simpa using hi
      exact hd i' a' hi' k
    · rw [if_neg e] at hi
      by_cases e' : i' = id
      · rw [if_pos e'] at hi'
        obtain rfl : args = a' := by simpa using hi'
        exact fun h1 h2 => hd i a hi k h2 h1
      · rw [if_neg e'] at hi'
        exact I.disjoint i i' a a' hne hi hi' k
  · intro k hk hn
    refine I.saved k hk fun i a hi => ?_
    have hne : i ≠ id := by rintro rfl; rw [hl] at hi; simp at hi
    exact hn i a (by simp only [if_neg hne]; exact hi)

/-- Changing the memory of one view. -/
theorem inv_memory {A : DiskTensor} {w : Files R} {s : DiskState R} {h : DiskHistory R} (I : DiskInv A w s h)
    {id : Nat} {args vd : List _} {v : DiskView R} (hl : h.live id = some args) (hs : Selects A.dims args vd)
    (hv : s.views id = some v) {t : Strided R} (ht : t.IsTensor) (hd : t.dims = vd) {f : List Nat → R}
    (hr : t.Represents (fun j => f (selIndex A.dims args j)))
    (hf : ∀ k, InBox k A.dims → ¬ InRegion A.dims args k → f k = h.now k) :
    DiskInv A w (s.setView id (some { v with tensor := t })) { h with now := f } := by
  refine ⟨I.disk, I.others, ?_, I.disjoint, ?_⟩
  · intro i args' hi
    by_cases e : i = id
    · subst e
      obtain rfl : args = args' := by rw [hl] at hi; simpa using hi
      obtain ⟨vd', v', h1, h2, h3, h4, h5, h6, h7, _, _, _⟩ := I.live i args hl
      rw [hv] at h2
      obtain rfl : v = v' := by simpa using h2
      obtain rfl : vd = vd' := by have := h1.1.symm.trans hs.1; simpa using this.symm
      exact ⟨vd, { v with tensor := t }, hs, by simp only [DiskState.setView, if_true], h3, h4, h5, h6, h7, ht, hd, hr⟩
    · obtain ⟨vd', v', h1, h2, h3, h4, h5, h6, h7, h8, h9, h10⟩ := I.live i args' hi
      refine ⟨vd', v', h1, by simp only [DiskState.setView, if_neg e]; exact h2, h3, h4, h5, h6, h7, h8, h9, ?_⟩
      refine represents_congr h10 ?_
      intro j hj
      rw [h9] at hj
      exact (hf _ (selIndex_inBox h1.1 hj) (I.disjoint i id args' args e hi hl _ ⟨vd', j, h1.1, hj, rfl⟩)).symm
  · intro k hk hn
    rw [I.saved k hk hn]
    exact (hf k hk (hn id args hl)).symm

/-- Writing one view to the file. -/
theorem inv_put {A : DiskTensor} {w : Files R} {s : DiskState R} {h : DiskHistory R} (I : DiskInv A w s h)
    {id : Nat} {args : List Sel} (hl : h.live id = some args) {f : List Nat → R}
    (hf : Patched A.dims args h.saved h.now f) :
    ∃ v w', s.views id = some v ∧ v.put s.files = .ok w' ∧
      DiskInv A w { s with files := w' } { h with saved := f } := by
  obtain ⟨vd, v, h1, h2, h3, h4, h5, h6, h7, h8, h9, h10⟩ := I.live id args hl
  obtain ⟨d, hd1, hd2, hd3⟩ := I.disk
  obtain ⟨d', e1, e2, e3, e4⟩ := write_slab (d := d) (args := args) (vd := vd) (by rw [hd2]; exact h1.1) h1.2.2.2 h8 h9
    h10
  rw [hd2] at e1 e3 e4
  refine ⟨v, s.files.set A.disk d', h2, ?_, ?_⟩
  · simp only [DiskView.put, h6, Bool.false_eq_true, if_false, h3, hd1, h4, h5, e1, Outcome.ok_bind]
  · refine ⟨⟨d', by simp [Files.set], e2.trans hd2, ?_⟩, ?_, I.live, I.disjoint, ?_⟩
    · intro k hk
      show d'.elem k = f k
      by_cases hr : InRegion A.dims args k
      · rw [(hf k hk).1 hr]
        obtain ⟨vd', j, q1, q2, rfl⟩ := hr
        obtain rfl : vd = vd' := by have := q1.symm.trans h1.1; simpa using this.symm
        exact e3 j q2
      · rw [(hf k hk).2 hr, e4 k hr, hd3 k hk]
    · intro g n hn
      simp only [Files.set, if_neg hn]
      exact I.others g n hn
    · intro k hk hn
      simp only
      rw [(hf k hk).2 (hn id args hl)]
      exact I.saved k hk hn

theorem viewSetAll_represents {t : Strided R} (ht : t.IsTensor) (x : R) :
    (t.setAll x).IsTensor ∧ (t.setAll x).Represents fun _ => x := by
  have h : (t.setAll x).IsTensor := ⟨ht.off, ht.strides, by simp [Strided.setAll, ht.length]⟩
  refine ⟨h, ?_⟩
  rw [Strided.IsTensor.represents_iff h]
  simp [Strided.setAll, ht.length, List.map_const', length_box]

theorem inv_step (z : Nat → R) {A : DiskTensor} {w : Files R} {s : DiskState R} {h h' : DiskHistory R}
    (I : DiskInv A w s h) {op : DiskOp R} {x : Option R} (st : DiskStep A.dims h op h' x) :
    ∃ s', diskStep z A false s op = .ok (s', x) ∧ DiskInv A w s' h' := by
  cases st with
  | view hl hs hd => exact inv_view z I hl hs hd
  | @get id args vd j hl hs hj =>
    obtain ⟨vd', v, h1, h2, h3, h4, h5, h6, h7, h8, h9, h10⟩ := I.live id args hl
    obtain rfl : vd = vd' := by have := h1.1.symm.trans hs.1; simpa using this.symm
    refine ⟨s, ?_, I⟩
    simp only [diskStep, DiskState.lookup, h2, Outcome.ok_bind, DiskView.get, h10 j (by rw [h9]; exact hj)]
  | @set id args vd j x hl hs hj =>
    obtain ⟨vd', v, h1, h2, h3, h4, h5, h6, h7, h8, h9, h10⟩ := I.live id args hl
    obtain rfl : vd = vd' := by have := h1.1.symm.trans hs.1; simpa using this.symm
    obtain ⟨t, e1, e2, e3⟩ := write_represents h8.wf h10 (j := j) (by rw [h9]; exact hj) x
    refine ⟨_, by simp only [diskStep, DiskState.lookup, h2, Outcome.ok_bind, DiskView.set, e1]; rfl, ?_⟩
    have ht : t.IsTensor := ⟨e2.off.trans h8.off, by rw [e2.strides, e2.dims]; exact h8.strides, by
      rw [e2.length, e2.dims]; exact h8.length⟩
    refine inv_memory I hl hs h2 ht (by rw [e2.dims, h9]) ?_ ?_
    · refine represents_congr e3 ?_
      intro i hi
      rw [e2.dims, h9] at hi
      by_cases e : i = j
      · subst e; simp
      · rw [if_neg e, if_neg]
        exact fun e' => e (selIndex_inj hs.1 hi hj e')
    · intro k hk hn
      rw [if_neg]
      rintro rfl
      exact hn ⟨vd, j, hs.1, hj, rfl⟩
  | @setAll id args x f hl hf =>
    obtain ⟨vd, v, h1, h2, h3, h4, h5, h6, h7, h8, h9, h10⟩ := I.live id args hl
    refine ⟨_, by simp only [diskStep, DiskState.lookup, h2, Outcome.ok_bind, DiskView.setAll]; rfl, ?_⟩
    obtain ⟨e1, e2⟩ := viewSetAll_represents h8 x
    refine inv_memory I hl h1 h2 e1 h9 ?_ fun k hk hn => (hf k hk).2 hn
    refine represents_congr e2 ?_
    intro j hj
    replace hj : InBox j vd := by rw [← h9]; exact hj
    exact ((hf _ (selIndex_inBox h1.1 hj)).1 ⟨vd, j, h1.1, hj, rfl⟩).symm
  | @assign id args vd t g b f hl hs ht hd hg hb hf =>
    obtain ⟨vd', v, h1, h2, h3, h4, h5, h6, h7, h8, h9, h10⟩ := I.live id args hl
    obtain rfl : vd = vd' := by have := h1.1.symm.trans hs.1; simpa using this.symm
    have ha : v.tensor.assign z t = .ok t :=
      assign_block z (r := vd.length) (List.length_pos_iff.2 hs.2.1) (.inr ⟨h8, by rw [h9]⟩) ht (by rw [hd])
    have hany : ((v.dims.zip t.dims).any fun p => p.1 != p.2) = false := by
      rw [h7, hd, List.any_eq_false]
      intro p hp
      have := List.mem_iff_getElem.1 hp
      obtain ⟨n, hn, rfl⟩ := this
      simp
    have hv : v.assign z t = .ok { v with tensor := t } := by
      unfold DiskView.assign
      rw [if_neg (by simp [h6]), if_neg (by simp [hany]), ha]
      rfl
    refine ⟨_, by simp only [diskStep, DiskState.lookup, h2, Outcome.ok_bind, hv]; rfl, ?_⟩
    refine inv_memory I hl hs h2 ht hd ?_ fun k hk hn => (hf k hk).2 hn
    refine represents_congr hg ?_
    intro j hj
    rw [hd] at hj
    rw [(hf _ (selIndex_inBox hs.1 hj)).1 ⟨vd, j, hs.1, hj, rfl⟩, hb j hj]
  | @put id args f hl hf =>
    obtain ⟨v, w', h1, h2, h3⟩ := inv_put I hl hf
    exact ⟨_, by simp only [diskStep, DiskState.lookup, h1, Outcome.ok_bind, h2], h3⟩
  | @close id args f hl hf =>
    obtain ⟨v, w', h1, h2, h3⟩ := inv_put I hl hf
    refine ⟨_, by simp only [diskStep, DiskState.lookup, h1, Outcome.ok_bind, DiskView.close, h2]; rfl, ?_⟩
    refine ⟨h3.disk, h3.others, ?_, ?_, ?_⟩
    · intro i a hi
      simp only at hi
      by_cases e : i = id
      · rw [if_pos e] at hi; simp at hi
      · rw [if_neg e] at hi
        obtain ⟨vd, v, q1, q2, q3⟩ := h3.live i a hi
        exact ⟨vd, v, q1, by simp only [DiskState.setView, if_neg e]; exact q2, q3⟩
    · intro i i' a a' hne hi hi'
      simp only at hi hi'
      have e : i ≠ id := by rintro rfl; simp at hi
      have e' : i' ≠ id := by rintro rfl; simp at hi'
      rw [if_neg e] at hi
      rw [if_neg e'] at hi'
      exact h3.disjoint i i' a a' hne hi hi'
    · intro k hk hn
      simp only
      by_cases hr : InRegion A.dims args k
      · exact (hf k hk).1 hr
      · rw [(hf k hk).2 hr]
        refine I.saved k hk fun i a hi => ?_
        by_cases e : i = id
        · subst e
          obtain rfl : args = a := by rw [hl] at hi; simpa using hi
          exact hr
        · exact hn i a (by simp only [if_neg e]; exact hi)

theorem inv_run (z : Nat → R) {A : DiskTensor} {w : Files R} {s : DiskState R} {h h' : DiskHistory R}
    (I : DiskInv A w s h) {ops : List (DiskOp R)} {xs : List (Option R)} (r : DiskRun A.dims h ops h' xs) :
    ∃ s', diskRun z A false s ops = .ok (s', xs) ∧ DiskInv A w s' h' := by
  induction r generalizing s with
  | nil => exact ⟨s, rfl, I⟩
  | cons st r ih =>
    obtain ⟨s1, e1, I1⟩ := inv_step z I st
    obtain ⟨s2, e2, I2⟩ := ih I1
    exact ⟨s2, by simp only [diskRun, e1, Outcome.ok_bind, e2], I2⟩

/-! ### Single views -/

theorem view_ok (z : Nat → R) {w : Files R} {A : DiskTensor} {d : Dataset R} (hw : w A.disk.1 A.disk.2 = some d)
    (hd : d.dims = A.dims) {args : List Sel} {vd : List Nat} (hs : Selects A.dims args vd) (ro : Bool) :
    ∃ t, A.view z w args ro = .ok ⟨A.disk, vd, diskCounts A.dims args, diskOffsets A.dims args, t, ro⟩ ∧
      t.IsTensor ∧ t.dims = vd ∧ t.Represents (fun j => d.elem (selIndex A.dims args j)) := by
  obtain ⟨mem, hm, mt, mr⟩ := read_slab (d := d) (args := args) (vd := vd) (by rw [hd]; exact hs.1) hs.2.2.2
    (isTensor_mk' z hs.2.1) rfl
  rw [hd] at hm mr
  have hlen : args.length ≤ A.dims.length := by rw [selects_len hs.1]
  refine ⟨{ Strided.mk' z vd with data := mem }, ?_, mt, rfl, mr⟩
  simp only [DiskTensor.view, if_pos hlen, hw, diskDims_eq hs, hm, Outcome.ok_bind]

theorem slabFits_neg {ds : List Nat} {args : List Sel}
    (h : ∃ a ∈ args, match a with
      | .at k => k < 0
      | .all => False
      | .range a b => a < 0 ∨ b < a) (hl : args.length ≤ ds.length) :
    slabFits ds (diskOffsets ds args) (diskCounts ds args) = false := by
  induction ds generalizing args with
  | nil =>
    obtain ⟨a, ha, _⟩ := h
    cases args <;> simp_all
  | cons d ds ih =>
    cases args with
    | nil => simp at h
    | cons a as =>
      obtain ⟨b, hb, hc⟩ := h
      rcases List.mem_cons.1 hb with rfl | hb
      · cases b with
        | «at» k =>
          simp only at hc
          simp only [diskOffsets, diskCounts, slabFits, Bool.and_eq_false_iff, decide_eq_false_iff_not]
          left; omega
        | all => exact hc.elim
        | range x y =>
          simp only at hc
          simp only [diskOffsets, diskCounts, slabFits, Bool.and_eq_false_iff, decide_eq_false_iff_not]
          left; omega
      · have := ih ⟨b, hb, hc⟩ (by simpa using hl)
        cases a <;> simp [diskOffsets, diskCounts, slabFits, this]

theorem numel_zero {ds : List Nat} (h : 0 ∈ ds) : numel ds = 0 := by
  induction ds with
  | nil => simp at h
  | cons d ds ih =>
    rcases List.mem_cons.1 h with rfl | h
    · simp
    · simp [ih h]

theorem numel_pos' {ds : List Nat} (h : ∀ d ∈ ds, 0 < d) : 0 < numel ds := by
  induction ds with
  | nil => simp
  | cons d ds ih =>
    rw [numel_cons]
    exact Nat.mul_pos (h d (by simp)) (ih fun x hx => h x (by simp [hx]))

/-! ### Whole tensors -/

/-- The arguments selecting the leading block of shape `ns`. -/
def leading (ns : List Nat) : List Sel := ns.map fun (n : Nat) => Sel.range 0 (n : Int)

theorem leading_nonneg (ns : List Nat) : NonNegSel (leading ns) := by
  intro a ha
  obtain ⟨n, _, rfl⟩ := List.mem_map.1 ha
  simp

theorem leading_counts {ds ns : List Nat} (h : ds.length = ns.length) :
    diskCounts ds (leading ns) = ns.map Int.ofNat ∧ diskOffsets ds (leading ns) = ns.map fun _ => 0 := by
  induction ds generalizing ns with
  | nil => cases ns <;> simp_all [diskCounts, diskOffsets]
  | cons d ds ih =>
    cases ns with
    | nil => simp at h
    | cons n ns =>
      obtain ⟨h1, h2⟩ := ih (ns := ns) (by simpa using h)
      simp only [leading] at h1 h2
      simp [leading, diskCounts, diskOffsets, h1, h2]

theorem leading_fits {ds ns : List Nat} :
    slabFits ds (ns.map fun _ => 0) (ns.map Int.ofNat) = true ↔ selDims ds (leading ns) = some ns := by
  induction ds generalizing ns with
  | nil => cases ns <;> simp [slabFits, leading, selDims]
  | cons d ds ih =>
    cases ns with
    | nil => simp [slabFits, leading, selDims]
    | cons n ns =>
      have := ih (ns := ns)
      simp only [leading] at this
      have hr : rangeEnd d (n : Int) = n := by simp [rangeEnd]
      simp only [List.map_cons, slabFits, leading, selDims, hr, Bool.and_eq_true, decide_eq_true_eq, this]
      by_cases e : n ≤ d
      · rw [if_pos (by omega)]
        simp [e]
      · rw [if_neg (by omega)]
        simp only [reduceCtorEq, iff_false, not_and]
        intro h
        have : (Int.ofNat n) = n := rfl
        omega

theorem leading_index {ds ns : List Nat} (h : selDims ds (leading ns) = some ns) {j : List Nat} (hj : InBox j ns) :
    selIndex ds (leading ns) j = j := by
  induction ds generalizing ns j with
  | nil =>
    cases ns with
    | nil => rw [InBox_nil_right.1 hj]; rfl
    | cons n ns => simp [leading, selDims] at h
  | cons d ds ih =>
    cases ns with
    | nil => simp [leading, selDims] at h
    | cons n ns =>
      cases j with
      | nil => exact hj.elim
      | cons x j =>
        simp only [leading, List.map_cons, selDims] at h
        split at h
        case isFalse => simp at h
        simp only [Option.map_eq_some_iff] at h
        obtain ⟨v, h1, h2⟩ := h
        obtain rfl : v = ns := by simp at h2; exact h2.2
        have := ih h1 hj.2
        simp only [leading] at this
        simp [leading, selIndex, this]

theorem leading_region {ds ns : List Nat} (h : selDims ds (leading ns) = some ns) (k : List Nat) :
    InRegion ds (leading ns) k ↔ InBox k ns := by
  constructor
  · rintro ⟨vd, j, h1, h2, rfl⟩
    obtain rfl : ns = vd := by have := h.symm.trans h1; simpa using this
    rw [leading_index h h2]; exact h2
  · intro hk
    exact ⟨ns, k, h, hk, leading_index h hk⟩

theorem leading_self (ds : List Nat) : selDims ds (leading ds) = some ds := by
  rw [← leading_fits]
  induction ds with
  | nil => rfl
  | cons d ds ih => simp only [List.map_cons, slabFits, ih, Bool.and_true, decide_eq_true_eq]; simp

end Einsums
