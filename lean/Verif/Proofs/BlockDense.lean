import Verif.Proofs.BlockOps
/-
Block tensors: conversion to a dense tensor.
-/
namespace Einsums
open Spec Model

variable {R : Type}

theorem boxIn_replicate {r d a b : Nat} (h1 : a < d) (h2 : a ≤ b) (h3 : b ≤ d) :
    BoxIn (List.replicate r d) (List.replicate r (a, b)) := by
  induction r with
  | zero => trivial
  | succ r ih => exact ⟨h1, h2, h3, ih⟩

theorem denotes_replicate {r d a b : Nat} :
    Denotes (List.replicate r d) (List.replicate r ((a : Int), (b : Int))) (List.replicate r (a, b)) := by
  induction r with
  | zero => trivial
  | succ r ih =>
    refine ⟨rfl, ?_, ih⟩
    unfold rangeEnd
    rw [if_neg (by omega)]

theorem shift_replicate {r s : Nat} {j : List Nat} (h : j.length = r) :
    shift (List.replicate r s) j = j.map (s + ·) := by
  induction j generalizing r with
  | nil => cases r <;> rfl
  | cons x j ih => cases r with
    | zero => simp at h
    | succ r => simp [List.replicate_succ, shift, ih (by simpa using h)]

theorem inBox_replicate {r n : Nat} {j : List Nat} : InBox j (List.replicate r n) ↔ j.length = r ∧ ∀ x ∈ j, x < n := by
  induction j generalizing r with
  | nil => cases r <;> simp [List.replicate_succ]
  | cons x j ih => cases r with
    | zero => simp
    | succ r =>
      rw [List.replicate_succ]
      simp only [InBox, ih, List.length_cons, Nat.add_right_cancel_iff, List.forall_mem_cons]
      tauto

/-- Elements of a block, seen in the whole tensor. -/
theorem inBlock_shift {ss : List Nat} {b r : Nat} {j : List Nat} (h : InBox j (List.replicate r (ss.getD b 0))) :
    InBlock ss b (j.map (tileStart ss b + ·)) := by
  intro x hx
  obtain ⟨y, hy, rfl⟩ := List.mem_map.1 hx
  have := (inBox_replicate.1 h).2 y hy
  unfold InInterval
  omega

theorem elem_shift [Zero R] {bs : Blocks R} {b r : Nat} (hr : 0 < r) (hb : b < bs.length) {j : List Nat}
    (h : InBox j (List.replicate r (bs.sizes.getD b 0))) :
    bs.elem (j.map (tileStart bs.sizes b + ·)) = bs[b].2 j := by
  unfold Blocks.elem
  have hj : j.length = r := (inBox_replicate.1 h).1
  rw [find_eq (by intro e; rw [List.map_eq_nil_iff] at e; subst e; simp at hj; omega) (inBlock_shift h)]
  simp [List.getD_eq_getElem?_getD, List.getElem?_eq_getElem hb, Function.comp_def]

theorem toDense_step [Zero R] {T : Block R} {r : Nat} (hr : 0 < r) {bs : Blocks R} (h : T.Models r bs) {D : Strided R}
    (hD : D.IsTensor) (dD : D.dims = List.replicate r bs.sizes.sum) {f : List Nat → R} (hf : D.Represents f) {i : Nat}
    (hi : i < bs.length) :
    ∃ D', T.denseStep D i = .ok D' ∧ D'.IsTensor ∧ D'.dims = D.dims ∧
      D'.Represents fun j => if InBlock bs.sizes i j then bs.elem j else f j := by
  obtain ⟨t, _, h2, h3⟩ := h.at (List.getElem?_eq_getElem hi)
  have hls : bs.sizes.length = bs.length := by simp [Blocks.sizes]
  have hsz := getD_sizes (List.getElem?_eq_getElem hi)
  have hend := tileStart_end (ss := bs.sizes) (t := i) (by omega)
  unfold Block.denseStep
  rw [h2, Outcome.ok_bind]
  split
  · rename_i h0
    refine ⟨D, rfl, hD, rfl, ?_⟩
    intro j hj
    rw [hf j hj]
    beta_reduce
    rw [if_neg]
    intro hc
    rw [dD] at hj
    obtain ⟨l, _⟩ := inBox_replicate.1 hj
    cases j with
    | nil => simp at l; omega
    | cons x j =>
      have := hc x (by simp)
      unfold InInterval at this
      rw [h3.dim hr] at h0
      omega
  · rename_i h0
    rw [h3.dim hr, ← hsz] at h0
    rw [h.range hi]
    simp only
    have hB : BoxIn D.dims (List.replicate r (tileStart bs.sizes i, tileStart bs.sizes i + bs.sizes.getD i 0)) := by
      rw [dD]; exact boxIn_replicate (by omega) (by omega) hend
    have hN : Denotes D.dims (List.replicate r (((tileStart bs.sizes i : Nat) : Int),
        ((tileStart bs.sizes i + bs.sizes.getD i 0 : Nat) : Int)))
        (List.replicate r (tileStart bs.sizes i, tileStart bs.sizes i + bs.sizes.getD i 0)) := by
      rw [dD]; exact denotes_replicate
    obtain ⟨v, v1, v2, v3⟩ := boxView hD.wf hB
    rw [h.rank, ranges_eq hN hB, v1, Outcome.ok_bind]
    have dv : v.dims = List.replicate r (bs.sizes.getD i 0) := by
      rw [v2]
      simp only [List.map_replicate]
      congr 1
      omega
    have dt : t.dims = v.dims := by rw [dv, h3.2.1, hsz]
    rw [List.map_replicate] at v3
    have : Inhabited R := ⟨0⟩
    obtain ⟨g0, hg0⟩ := exists_represents (v3.wf hD.wf)
    obtain ⟨v', w1, w2, w3⟩ := copyLoop_represents h3.2.2 (v3.wf hD.wf) hg0 (cartesian v.dims) (by
      intro k hk
      rw [cartesian_eq_box] at hk
      rw [dt]
      exact ⟨mem_box.1 hk, mem_box.1 hk⟩)
    rw [w1, Outcome.ok_bind]
    obtain ⟨fr, hr'⟩ := viewFrame_parent (h := fun j => if InBlock bs.sizes i j then bs.elem j else f j) hD.wf hf v3 w2 w3
      (by
        intro j hj
        rw [dv] at hj
        rw [shift_replicate (inBox_replicate.1 hj).1, if_pos (inBlock_shift hj), elem_shift hr hi hj, if_pos]
        rw [cartesian_eq_box, dv]
        exact mem_box.2 hj)
      (by
        intro j hj hout
        rw [if_neg]
        intro hc
        rw [dD] at hj
        have hl := (inBox_replicate.1 hj).1
        have hin := local_inBox hl hc
        apply hout (j.map (· - tileStart bs.sizes i)) (by rw [dv]; exact hin)
        rw [shift_replicate (by simpa using hl), List.map_map]
        conv_rhs => rw [← List.map_id j]
        apply List.map_congr_left
        intro x hx
        have := (hc x hx).1
        simp only [Function.comp, id]
        omega)
    exact ⟨_, rfl, fr.isTensor hD, rfl, hr'⟩

/-- The conversion, with the blocks copied in any order. -/
theorem blockDense_ok [Zero R] {T : Block R} {r : Nat} (hr : 0 < r) {bs : Blocks R} (h : T.Models r bs) {sched : List Nat}
    (hp : sched.Perm (List.range bs.length)) :
    ∃ D, T.toDense sched = .ok D ∧ D.IsTensor ∧ D.dims = List.replicate r bs.sizes.sum ∧ D.Represents bs.elem := by
  classical
  have hne : List.replicate r bs.sizes.sum ≠ [] := by simp; omega
  have key : ∀ (s : List Nat) (f : List Nat → R) (D : Strided R), D.IsTensor →
      D.dims = List.replicate r bs.sizes.sum → D.Represents f → (∀ i ∈ s, i < bs.length) →
      ∃ D', s.foldlM T.denseStep D = .ok D' ∧ D'.IsTensor ∧ D'.dims = List.replicate r bs.sizes.sum ∧
        D'.Represents fun j => if ∃ i ∈ s, InBlock bs.sizes i j then bs.elem j else f j := by
    intro s
    induction s with
    | nil => intro f D h1 h2 h3 _; exact ⟨D, rfl, h1, h2, by simpa using h3⟩
    | cons a s ih =>
      intro f D h1 h2 h3 hs
      obtain ⟨D1, a1, a2, a3, a4⟩ := toDense_step hr h h1 h2 h3 (hs a (by simp))
      obtain ⟨D', b1, b2, b3, b4⟩ := ih _ D1 a2 (a3.trans h2) a4 (fun i hi => hs i (by simp [hi]))
      refine ⟨D', by rw [List.foldlM_cons, a1, Outcome.ok_bind]; exact b1, b2, b3, ?_⟩
      intro j hj
      rw [b4 j hj]
      congr 1
      by_cases c1 : InBlock bs.sizes a j <;> by_cases c2 : ∃ i ∈ s, InBlock bs.sizes i j <;> simp [c1, c2]
  unfold Block.toDense
  rw [h.rank, h.dim]
  obtain ⟨D, h1, h2, h3, h4⟩ := key sched (fun _ => 0) (Strided.mk' (fun _ => 0) (List.replicate r bs.sizes.sum)) (isTensor_mk' _ hne) rfl
    (zeros_represents hne) (fun i hi => by simpa using hp.mem_iff.1 hi)
  refine ⟨D, h1, h2, h3, ?_⟩
  intro j hj
  rw [h4 j hj]
  congr 1
  beta_reduce
  split
  · rfl
  · rename_i c
    unfold Blocks.elem
    cases e : bs.find j with
    | none => rfl
    | some b =>
      obtain ⟨e1, e2⟩ := find_some e
      exact absurd ⟨b, hp.mem_iff.2 (by simpa using e1), e2⟩ c

/-- Reading a const tensor inside a block. -/
theorem getConst_in [Zero R] {T : Block R} {r : Nat} (hr : 0 < r) {bs : Blocks R} (h : T.Models r bs) {idx : List Int}
    {j : List Nat} (hi : pyIndices (List.replicate r bs.sizes.sum) idx = some j) (hf : (bs.find j).isSome) :
    T.getConst idx = .ok (bs.elem j) := by
  unfold Block.getConst Blocks.elem
  rw [locate_ok hr h hi]
  cases e : bs.find j with
  | none => rw [e] at hf; simp at hf
  | some b =>
    obtain ⟨h1, h2⟩ := find_some e
    obtain ⟨t, _, h4, h5⟩ := h.at (List.getElem?_eq_getElem h1)
    simp only [h4, Outcome.ok_bind]
    have hb := local_inBox (pyIndices_len_ne hi) h2
    rw [getD_sizes (List.getElem?_eq_getElem h1)] at hb
    have hb' : InBox (j.map (· - tileStart bs.sizes b)) t.dims := by rw [h5.2.1]; exact hb
    rw [innerProduct_ofNat, if_pos (by omega), Int.toNat_natCast, (represents_iff h5.1.wf).1 h5.2.2 _ hb']
    simp [List.getD_eq_getElem?_getD, List.getElem?_eq_getElem h1]

theorem dataAt_ok {T : Block R} {r : Nat} (hr : 0 < r) {bs : Blocks R} (h : T.Models r bs) [Zero R] {idx : List Int}
    {j : List Nat} (hi : pyIndices (List.replicate r bs.sizes.sum) idx = some j) :
    match bs.find j with
    | none => T.dataAt idx = .ok none
    | some b => ∃ (o : Nat) (t : Strided R), T.dataAt idx = .ok (some (b, (o : Int))) ∧ T.blocks[b]? = some t ∧
        t.data[o]? = some (bs.elem j) := by
  unfold Block.dataAt
  rw [locate_ok hr h hi]
  cases e : bs.find j with
  | none => rfl
  | some b =>
    obtain ⟨h1, h2⟩ := find_some e
    obtain ⟨t, h3, h4, h5⟩ := h.at (List.getElem?_eq_getElem h1)
    simp only [h4, Outcome.ok_bind]
    have hb := local_inBox (pyIndices_len_ne hi) h2
    rw [getD_sizes (List.getElem?_eq_getElem h1)] at hb
    have hb' : InBox (j.map (· - tileStart bs.sizes b)) t.dims := by rw [h5.2.1]; exact hb
    have := (represents_iff h5.1.wf).1 h5.2.2 _ hb'
    rw [h5.1.off, Nat.zero_add] at this
    refine ⟨_, t, ?_, h3, this.trans ?_⟩
    · rw [innerProduct_ofNat]; rfl
    · unfold Blocks.elem
      rw [e]
      simp [List.getD_eq_getElem?_getD, List.getElem?_eq_getElem h1]

theorem blockOf_ok {T : Block R} {r : Nat} {bs : Blocks R} (h : T.Models r bs) (x : Nat) :
    if x < bs.sizes.sum then ∃ b, T.blockOf x = .ok b ∧ InInterval bs.sizes b x
    else T.blockOf x = .error "Index out of range!" := by
  have hl : bs.length = bs.sizes.length := by simp [Blocks.sizes]
  unfold Block.blockOf
  rw [h.ranges]
  split
  · rename_i hx
    obtain ⟨b, hb⟩ := interval_exists hx
    refine ⟨b, ?_, hb⟩
    have := findIdx_interval hl hb
    simp only [gt_iff_lt] at this ⊢
    rw [this]
  · have := findIdx_none (ss := bs.sizes) hl (i := x) (by omega)
    simp only [gt_iff_lt] at this ⊢
    rw [this]

end Einsums
