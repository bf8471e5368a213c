import Verif.Proofs.Disk
import Mathlib.Tactic.FinCases
/-
C118–C121: disk tensors and their views, `write`/`read`, and opening data sets.
-/
namespace Einsums.Props
open Einsums.Model Einsums.Spec

variable {R : Type}

/-! ### C118 -/

/-- **C118 (partial: views with more than one element along each selected axis, no negative numbers, and no two
overlapping views alive).** Every such history runs without an exception; every element read is the last value
stored there; after every call the file holds the values of the last `put`/destruction of each region, agrees with
what the program has stored outside the views that are alive, and no other data set is touched. -/
theorem C118_history_partial (z : Nat → R) (A : DiskTensor) (w : Files R) (d : Dataset R)
    (hw : w A.disk.1 A.disk.2 = some d) (hd : d.dims = A.dims) (ops : List (DiskOp R)) (xs : List (Option R))
    (h : DiskHistory R) (run : DiskRun A.dims ⟨d.elem, d.elem, fun _ => none⟩ ops h xs) :
    ∃ s d', diskRun z A false ⟨w, fun _ => none⟩ ops = .ok (s, xs) ∧
      s.files A.disk.1 A.disk.2 = some d' ∧ d'.dims = A.dims ∧
      (∀ k, InBox k A.dims → d'.elem k = h.saved k) ∧
      (∀ k, InBox k A.dims → (∀ id args, h.live id = some args → ¬ InRegion A.dims args k) →
        d'.elem k = h.now k) ∧
      ∀ f n, ¬ (f = A.disk.1 ∧ n = A.disk.2) → s.files f n = w f n := by
  have I : DiskInv A w ⟨w, fun _ => none⟩ ⟨d.elem, d.elem, fun _ => none⟩ :=
    ⟨⟨d, hw, hd, fun _ _ => rfl⟩, fun _ _ _ => rfl, fun _ _ h => by simp at h, fun _ _ _ _ _ h => by simp at h,
      fun _ _ _ => rfl⟩
  obtain ⟨s, e, J⟩ := inv_run z I run
  obtain ⟨d', h1, h2, h3⟩ := J.disk
  exact ⟨s, d', e, h1, h2, h3, fun k hk hn => by rw [h3 k hk, J.saved k hk hn], J.others⟩

/-- **C118 (partial).** When every view has been destroyed the file holds everything the program stored. -/
theorem C118_closed_partial (z : Nat → R) (A : DiskTensor) (w : Files R) (d : Dataset R)
    (hw : w A.disk.1 A.disk.2 = some d) (hd : d.dims = A.dims) (ops : List (DiskOp R)) (xs : List (Option R))
    (h : DiskHistory R) (run : DiskRun A.dims ⟨d.elem, d.elem, fun _ => none⟩ ops h xs)
    (closed : ∀ id, h.live id = none) :
    ∃ s d', diskRun z A false ⟨w, fun _ => none⟩ ops = .ok (s, xs) ∧
      s.files A.disk.1 A.disk.2 = some d' ∧ ∀ k, InBox k A.dims → d'.elem k = h.now k := by
  obtain ⟨s, d', h1, h2, _, _, h5, _⟩ := C118_history_partial z A w d hw hd ops xs h run
  exact ⟨s, d', h1, h2, fun k hk => h5 k hk fun id args e => by rw [closed id] at e; simp at e⟩

/-- **C118 (refuted: overlapping views).** For every disk tensor and every selection: open the same block twice,
store a value through the second view, destroy the second and then the first (the order in which C++ destroys
local variables).  All calls succeed, and the file is as it was: the stored value is lost. -/
theorem C118_overlap_refuted (z : Nat → R) (A : DiskTensor) (w : Files R) (d : Dataset R)
    (hw : w A.disk.1 A.disk.2 = some d) (hd : d.dims = A.dims) (args : List Sel) (vd j : List Nat) (x : R)
    (hs : Selects A.dims args vd) (hj : InBox j vd) :
    ∃ s d', diskRun z A false ⟨w, fun _ => none⟩
        [.view 0 args, .view 1 args, .set 1 j x, .close 1, .close 0] =
        .ok (s, [none, none, none, none, none]) ∧
      s.files A.disk.1 A.disk.2 = some d' ∧ ∀ k, InBox k A.dims → d'.elem k = d.elem k := by
  obtain ⟨t, v1, t1, t2, t3⟩ := view_ok z hw hd hs false
  obtain ⟨u, u1, u2, u3⟩ := write_represents t1.wf t3 (j := j) (by rw [t2]; exact hj) x
  have hu : u.IsTensor := ⟨u2.off.trans t1.off, by rw [u2.strides, u2.dims]; exact t1.strides, by
    rw [u2.length, u2.dims]; exact t1.length⟩
  obtain ⟨d1, a1, a2, a3, a4⟩ := write_slab (d := d) (args := args) (vd := vd) (by rw [hd]; exact hs.1) hs.2.2.2 hu
    (by rw [u2.dims, t2]) u3
  rw [hd] at a1 a2 a3 a4
  obtain ⟨d2, b1, b2, b3, b4⟩ := write_slab (d := d1) (args := args) (vd := vd) (by rw [a2]; exact hs.1) hs.2.2.2 t1 t2
    t3
  rw [a2] at b1 b2 b3 b4
  have g1 : ∀ (w : Files R) (d : Dataset R), (w.set A.disk d) A.disk.1 A.disk.2 = some d := by
    intro w d; simp [Files.set]
  obtain ⟨s, e1, e2⟩ : ∃ s : DiskState R, diskRun z A false ⟨w, fun _ => none⟩
      [.view 0 args, .view 1 args, .set 1 j x, .close 1, .close 0] = .ok (s, [none, none, none, none, none]) ∧
      s.files = (w.set A.disk d1).set A.disk d2 := by
    apply Exists.intro
    constructor
    · simp only [diskRun, diskStep, v1, Outcome.ok_bind, DiskState.lookup, DiskState.setView, if_true, DiskView.set, u1,
        DiskView.close, DiskView.put, Bool.false_eq_true, if_false, hw, a1, g1, b1,
        show (0 : Nat) = 1 ↔ False by decide]
      rfl
    · rfl
  refine ⟨s, d2, e1, ?_, ?_⟩
  · rw [e2, g1]
  · intro k hk
    by_cases hr : InRegion A.dims args k
    · obtain ⟨vd', i, q1, q2, rfl⟩ := hr
      obtain rfl : vd = vd' := by have := q1.symm.trans hs.1; simpa using this.symm
      exact b3 i q2
    · rw [b4 k hr, a4 k hr]

/-- **C118 (refuted: one element along a selected axis).** For every disk tensor, a block selected with `All` on
an axis of length one, or with a range of length one, has no view: the tensor made for it has no elements, and the
file is read into memory that does not belong to it. -/
theorem C118_single_refuted (z : Nat → R) (A : DiskTensor) (w : Files R) (d : Dataset R)
    (hw : w A.disk.1 A.disk.2 = some d) (hd : d.dims = A.dims) (args : List Sel) (vd : List Nat) (ro : Bool)
    (hs : selDims A.dims args = some vd)
    (hn : ∀ a ∈ args, match a with
      | .at k => 0 ≤ k
      | .all => True
      | .range _ b => 0 ≤ b)
    (hpos : ∀ n ∈ vd, 0 < n) (h1 : 1 ∈ vd) :
    A.view z w args ro = .ub "read past the end of the buffer" := by
  obtain ⟨i1, i2, i3, i4, _, _⟩ := slab_spec hs hn
  have hlen : args.length ≤ A.dims.length := by rw [selects_len hs]
  have hz : 0 ∈ diskDims (selRank args) (diskCounts A.dims args) := by
    have hlt : (vd.filter (fun d => decide (1 < d))).length < vd.length := by
      rw [List.length_filter_lt_length_iff_exists]
      exact ⟨1, h1, by simp⟩
    simp only [diskDims, i3, i4]
    rw [List.mem_append]
    right
    rw [List.mem_replicate]
    exact ⟨by omega, rfl⟩
  have hne : diskDims (selRank args) (diskCounts A.dims args) ≠ [] := by intro e; rw [e] at hz; simp at hz
  have hlen0 : (Strided.mk' z (diskDims (selRank args) (diskCounts A.dims args))).data.length = 0 := by
    rw [(isTensor_mk' z hne).length]
    exact numel_zero hz
  have := numel_pos' hpos
  simp only [DiskTensor.view, if_pos hlen, hw, Dataset.read, hd, i1, if_true]
  rw [if_neg (by omega)]
  rfl

/-- **C118 (refuted: negative numbers).** An argument that counts from the end of an axis, which a `Tensor`
accepts, is refused by every disk tensor: the view throws. -/
theorem C118_negative_refuted (z : Nat → R) (A : DiskTensor) (w : Files R) (d : Dataset R)
    (hw : w A.disk.1 A.disk.2 = some d) (hd : d.dims = A.dims) (args : List Sel) (vd : List Nat) (ro : Bool)
    (hs : selDims A.dims args = some vd)
    (hn : ∃ a ∈ args, match a with
      | .at k => k < 0
      | .all => False
      | .range _ b => b < 0) :
    A.view z w args ro = .error "hyperslab outside the data set" := by
  have hlen : args.length ≤ A.dims.length := by rw [selects_len hs]
  have hneg : slabFits A.dims (diskOffsets A.dims args) (diskCounts A.dims args) = false := by
    refine slabFits_neg ?_ hlen
    obtain ⟨a, ha, hc⟩ := hn
    refine ⟨a, ha, ?_⟩
    cases a with
    | «at» k => exact hc
    | all => exact hc
    | range a b => simp only at hc ⊢; omega
  simp only [DiskTensor.view, if_pos hlen, hw, Dataset.read, hd, hneg, Bool.false_eq_true, if_false]
  rfl

/-- **C118.** Assigning a tensor of another shape to a view throws: nothing changes. -/
theorem C118_assign_rejects (z : Nat → R) (v : DiskView R) (t : Strided R) (hr : t.dims.length = v.dims.length)
    (h : t.dims ≠ v.dims) : ∃ m, v.assign z t = .error m := by
  unfold DiskView.assign
  by_cases hro : v.readOnly = true
  · rw [if_pos hro]; exact ⟨_, rfl⟩
  · rw [if_neg hro, if_pos]
    · exact ⟨_, rfl⟩
    · by_contra hn
      apply h
      rw [Bool.not_eq_true, List.any_eq_false] at hn
      refine List.ext_getElem hr fun n h1 h2 => ?_
      have := hn (v.dims[n], t.dims[n]) (List.mem_iff_getElem.2 ⟨n, by simp; omega, by simp⟩)
      simp at this
      exact this.symm

/-- **C118.** Arguments that are not there are zeros: `A(args...)` with fewer arguments than axes is
`A(args..., 0, …, 0)`. -/
theorem C118_default_args (z : Nat → R) (A : DiskTensor) (w : Files R) (args : List Sel) (ro : Bool)
    (hl : args.length ≤ A.dims.length) :
    A.view z w args ro = A.view z w (args ++ List.replicate (A.dims.length - args.length) (.at 0)) ro := by
  have nil : ∀ ds : List Nat, diskCounts ds [] = diskCounts ds (List.replicate ds.length (.at 0)) ∧
      diskOffsets ds [] = diskOffsets ds (List.replicate ds.length (.at 0)) := by
    intro ds
    induction ds with
    | nil => exact ⟨rfl, rfl⟩
    | cons d ds ih =>
      simp only [diskCounts, diskOffsets, List.length_cons, List.replicate_succ, ih.1, ih.2, and_self]
  have all : ∀ (ds : List Nat) (as : List Sel), as.length ≤ ds.length →
      diskCounts ds as = diskCounts ds (as ++ List.replicate (ds.length - as.length) (.at 0)) ∧
      diskOffsets ds as = diskOffsets ds (as ++ List.replicate (ds.length - as.length) (.at 0)) := by
    intro ds
    induction ds with
    | nil => intro as h; exact ⟨rfl, rfl⟩
    | cons d ds ih =>
      intro as h
      cases as with
      | nil => simpa using nil (d :: ds)
      | cons a as =>
        obtain ⟨h1, h2⟩ := ih as (by simpa using h)
        cases a <;> simp only [diskCounts, diskOffsets, List.length_cons, Nat.add_sub_add_right, List.cons_append,
          ← h1, ← h2, and_self]
  have rk : selRank (args ++ List.replicate (A.dims.length - args.length) (.at 0)) = selRank args := by
    simp [selRank, List.filter_append]
  obtain ⟨h1, h2⟩ := all A.dims args hl
  unfold DiskTensor.view
  rw [if_pos hl, if_pos (by simp; omega), rk, ← h1, ← h2]

/-! ### C119 -/

/-- All views of the program are read-only. -/
def AllReadOnly (s : DiskState R) : Prop := ∀ id v, s.views id = some v → v.readOnly = true

theorem step_readOnly (z : Nat → R) (A : DiskTensor) {s s' : DiskState R} {x : Option R} (h : AllReadOnly s) (op : DiskOp R)
    (e : diskStep z A true s op = .ok (s', x)) : s'.files = s.files ∧ AllReadOnly s' := by
  have upd : ∀ (t : DiskState R) (id : Nat) (v : DiskView R), AllReadOnly t → v.readOnly = true →
      AllReadOnly (t.setView id (some v)) := by
    intro t id v ht hv i u hu
    simp only [DiskState.setView] at hu
    by_cases e : i = id
    · rw [if_pos e] at hu
      obtain rfl : v = u := by simpa using hu
      exact hv
    · rw [if_neg e] at hu; exact ht i u hu
  have look : ∀ id v, s.lookup id = .ok v → v.readOnly = true := by
    intro id v hv
    unfold DiskState.lookup at hv
    cases hq : s.views id with
    | none => rw [hq] at hv; simp at hv
    | some u =>
      rw [hq] at hv
      obtain rfl : u = v := by simpa using hv
      exact h id u hq
  cases op with
  | view id args =>
    simp only [diskStep] at e
    cases hv : A.view z s.files args true with
    | ub m => rw [hv] at e; simp at e
    | error m => rw [hv] at e; simp at e
    | ok v =>
      rw [hv] at e
      simp only [Outcome.ok_bind, Outcome.ok.injEq, Prod.mk.injEq] at e
      obtain ⟨rfl, _⟩ := e
      refine ⟨rfl, upd s id v h ?_⟩
      simp only [DiskTensor.view] at hv
      split at hv
      · split at hv
        · simp at hv
        · rename_i d _
          cases hm : d.read (Strided.mk' z (diskDims (selRank args) (diskCounts A.dims args))).data
            (diskCounts A.dims args) (diskOffsets A.dims args) with
          | ub m => rw [hm] at hv; simp at hv
          | error m => rw [hm] at hv; simp at hv
          | ok m =>
            rw [hm] at hv
            simp only [Outcome.ok_bind, Outcome.ok.injEq] at hv
            rw [← hv]
      · simp at hv
  | get id j =>
    simp only [diskStep] at e
    cases hv : s.lookup id with
    | ub m => rw [hv] at e; simp at e
    | error m => rw [hv] at e; simp at e
    | ok v =>
      rw [hv, Outcome.ok_bind] at e
      cases hg : v.get (toIdx j) with
      | ub m => rw [hg] at e; simp at e
      | error m => rw [hg] at e; simp at e
      | ok y =>
        rw [hg] at e
        simp only [Outcome.ok_bind, Outcome.ok.injEq, Prod.mk.injEq] at e
        obtain ⟨rfl, _⟩ := e
        exact ⟨rfl, h⟩
  | set id j y =>
    simp only [diskStep] at e
    cases hv : s.lookup id with
    | ub m => rw [hv] at e; simp at e
    | error m => rw [hv] at e; simp at e
    | ok v =>
      rw [hv, Outcome.ok_bind] at e
      unfold DiskView.set at e
      cases hg : v.tensor.write (toIdx j) y with
      | ub m => rw [hg] at e; simp at e
      | error m => rw [hg] at e; simp at e
      | ok t =>
        rw [hg] at e
        simp only [Outcome.ok_bind, Outcome.ok.injEq, Prod.mk.injEq] at e
        obtain ⟨rfl, _⟩ := e
        exact ⟨rfl, upd s id _ h (look id v hv)⟩
  | setAll id y =>
    simp only [diskStep] at e
    cases hv : s.lookup id with
    | ub m => rw [hv] at e; simp at e
    | error m => rw [hv] at e; simp at e
    | ok v =>
      rw [hv] at e
      simp only [Outcome.ok_bind, Outcome.ok.injEq, Prod.mk.injEq] at e
      obtain ⟨rfl, _⟩ := e
      exact ⟨rfl, upd s id _ h (look id v hv)⟩
  | assign id t =>
    simp only [diskStep] at e
    cases hv : s.lookup id with
    | ub m => rw [hv] at e; simp at e
    | error m => rw [hv] at e; simp at e
    | ok v =>
      rw [hv, Outcome.ok_bind] at e
      unfold DiskView.assign at e
      rw [if_pos (look id v hv)] at e
      simp at e
  | put id =>
    simp only [diskStep] at e
    cases hv : s.lookup id with
    | ub m => rw [hv] at e; simp at e
    | error m => rw [hv] at e; simp at e
    | ok v =>
      rw [hv, Outcome.ok_bind] at e
      unfold DiskView.put at e
      rw [if_pos (look id v hv)] at e
      simp only [Outcome.ok_bind, Outcome.ok.injEq, Prod.mk.injEq] at e
      obtain ⟨rfl, _⟩ := e
      exact ⟨rfl, h⟩
  | close id =>
    simp only [diskStep] at e
    cases hv : s.lookup id with
    | ub m => rw [hv] at e; simp at e
    | error m => rw [hv] at e; simp at e
    | ok v =>
      rw [hv, Outcome.ok_bind] at e
      unfold DiskView.close DiskView.put at e
      rw [if_pos (look id v hv)] at e
      simp only [Outcome.ok_bind, Outcome.ok.injEq, Prod.mk.injEq] at e
      obtain ⟨rfl, _⟩ := e
      refine ⟨rfl, ?_⟩
      intro i u hu
      simp only [DiskState.setView] at hu
      by_cases e : i = id
      · rw [if_pos e] at hu; simp at hu
      · rw [if_neg e] at hu; exact h i u hu

/-- **C119 (partial: not for `operator=(const T *)`).** Whatever a program does with views of a const disk tensor —
making them, reading and changing their elements, assigning, `put`, destroying them — no file changes. -/
theorem C119_history_partial (z : Nat → R) (A : DiskTensor) (ops : List (DiskOp R)) (s s' : DiskState R)
    (xs : List (Option R)) (h : AllReadOnly s) (e : diskRun z A true s ops = .ok (s', xs)) :
    s'.files = s.files ∧ AllReadOnly s' := by
  induction ops generalizing s xs with
  | nil =>
    simp only [diskRun, Outcome.ok.injEq, Prod.mk.injEq] at e
    obtain ⟨rfl, _⟩ := e
    exact ⟨rfl, h⟩
  | cons op ops ih =>
    simp only [diskRun] at e
    cases hp : diskStep z A true s op with
    | ub m => rw [hp] at e; simp at e
    | error m => rw [hp] at e; simp at e
    | ok p =>
      rw [hp, Outcome.ok_bind] at e
      cases hq : diskRun z A true p.1 ops with
      | ub m => rw [hq] at e; simp at e
      | error m => rw [hq] at e; simp at e
      | ok q =>
        rw [hq] at e
        simp only [Outcome.ok_bind, Outcome.ok.injEq, Prod.mk.injEq] at e
        obtain ⟨rfl, _⟩ := e
        obtain ⟨a1, a2⟩ := step_readOnly z A h op (s' := p.1) (x := p.2) hp
        obtain ⟨b1, b2⟩ := ih p.1 q.2 a2 hq
        exact ⟨b1.trans a1, b2⟩

/-- **C119.** Assigning a tensor to a read-only view throws. -/
theorem C119_assign (z : Nat → R) (v : DiskView R) (t : Strided R) (h : v.readOnly = true) :
    v.assign z t = .error "read only disk view" := by
  unfold DiskView.assign
  rw [if_pos h]

/-- **C119.** A view of a const disk tensor holds the selected elements of the file. -/
theorem C119_read_partial (z : Nat → R) (A : DiskTensor) (w : Files R) (d : Dataset R)
    (hw : w A.disk.1 A.disk.2 = some d) (hd : d.dims = A.dims) (args : List Sel) (vd : List Nat)
    (hs : Selects A.dims args vd) :
    ∃ v, A.view z w args true = .ok v ∧ v.readOnly = true ∧ v.dims = vd ∧
      ∀ j, InBox j vd → v.get (toIdx j) = .ok (d.elem (selIndex A.dims args j)) := by
  obtain ⟨t, h1, h2, h3, h4⟩ := view_ok z hw hd hs true
  exact ⟨_, h1, rfl, rfl, fun j hj => h4 j (by rw [h3]; exact hj)⟩

/-- **C119 (refuted).** Assigning a pointer to the view of a const disk tensor writes the file, for every selection
and all data. -/
theorem C119_pointer_refuted (z : Nat → R) (A : DiskTensor) (w : Files R) (d : Dataset R)
    (hw : w A.disk.1 A.disk.2 = some d) (hd : d.dims = A.dims) (args : List Sel) (vd : List Nat)
    (hs : Selects A.dims args vd) (t : Strided R) (ht : t.IsTensor) (hdt : t.dims = vd) (g : List Nat → R)
    (hg : t.Represents g) :
    ∃ v w' d', A.view z w args true = .ok v ∧ v.assignPtr w t.data = .ok w' ∧ w' A.disk.1 A.disk.2 = some d' ∧
      ∀ j, InBox j vd → d'.elem (selIndex A.dims args j) = g j := by
  obtain ⟨u, h1, h2, h3, h4⟩ := view_ok z hw hd hs true
  obtain ⟨d', a1, a2, a3, a4⟩ := write_slab (d := d) (args := args) (vd := vd) (by rw [hd]; exact hs.1) hs.2.2.2 ht hdt
    hg
  rw [hd] at a1 a3
  refine ⟨_, w.set A.disk d', d', h1, ?_, by simp [Files.set], a3⟩
  simp only [DiskView.assignPtr, hw, a1, Outcome.ok_bind]

/-! ### C120 -/

/-- **C120.** `write` to a new name, or over a data set of the same shape, then `read`: the tensor comes back, and
nothing else in any file has changed. -/
theorem C120_roundtrip_partial (z : Nat → R) (zd : List Nat → R) (w : Files R) (file : Nat) (name : String) (t : Strided R)
    (ht : t.IsTensor) (h0 : t.dims ≠ []) (f : List Nat → R) (hf : t.Represents f)
    (hw : ∀ d, w file name = some d → d.dims = t.dims) :
    ∃ w' u, writeTensor zd w file name t = .ok w' ∧
      readTensor z w' file name t.dims.length = .ok u ∧ u.IsTensor ∧ u.dims = t.dims ∧ u.Represents f ∧
      ∀ g n, ¬ (g = file ∧ n = name) → w' g n = w g n := by
  obtain ⟨d, e, hd⟩ : ∃ d, (w file name).getD ⟨t.dims, zd⟩ = d ∧ d.dims = t.dims := by
    cases hq : w file name with
    | none => exact ⟨_, rfl, rfl⟩
    | some d => exact ⟨d, rfl, hw d hq⟩
  obtain ⟨c1, c2⟩ := leading_counts (ds := t.dims) (ns := t.dims) rfl
  have hl := leading_self t.dims
  obtain ⟨d', a1, a2, a3, a4⟩ := write_slab (d := d) (args := leading t.dims) (vd := t.dims) (by rw [hd]; exact hl)
    (leading_nonneg _) ht rfl hf
  rw [hd] at a1 a3
  rw [c1, c2] at a1
  have hd' : d'.dims = t.dims := a2.trans hd
  obtain ⟨mem, b1, b2, b3⟩ := read_slab (d := d') (args := leading t.dims) (vd := t.dims) (by rw [hd']; exact hl)
    (leading_nonneg _) (isTensor_mk' z h0) rfl
  rw [hd', c1, c2] at b1
  rw [hd'] at b3
  refine ⟨w.set (file, name) d', { Strided.mk' z t.dims with data := mem }, ?_, ?_, b2, rfl, ?_, ?_⟩
  · simp only [writeTensor, e, a1, Outcome.ok_bind]
  · simp only [readTensor, Files.set, and_self, if_true, hd', b1, Outcome.ok_bind]
  · refine represents_congr b3 ?_
    intro j hj
    exact a3 j hj
  · intro g n hn
    simp only [Files.set]
    rw [if_neg hn]

/-- **C120 (refuted: a larger data set of that name).** If the data set of that name has another shape of the same
rank that is at least as large along every axis, `write` and `read` succeed for every tensor, and `read` returns a
tensor of the other shape: the leading block is what was written, the rest is what was there before. -/
theorem C120_larger_refuted (z : Nat → R) (zd : List Nat → R) (w : Files R) (file : Nat) (name : String) (t : Strided R)
    (ht : t.IsTensor) (f : List Nat → R) (hf : t.Represents f) (d : Dataset R) (hw : w file name = some d)
    (hl : selDims d.dims (t.dims.map fun (n : Nat) => Sel.range 0 (n : Int)) = some t.dims) (h0 : d.dims ≠ [])
    (hne : d.dims ≠ t.dims) :
    ∃ w' u, writeTensor zd w file name t = .ok w' ∧ readTensor z w' file name t.dims.length = .ok u ∧
      u.dims = d.dims ∧ u.dims ≠ t.dims ∧
      ∃ g, u.Represents g ∧ (∀ k, InBox k t.dims → g k = f k) ∧ ∀ k, ¬ InBox k t.dims → g k = d.elem k := by
  have hlen : d.dims.length = t.dims.length := by
    have := selects_len hl
    simpa using this.symm
  obtain ⟨c1, c2⟩ := leading_counts hlen
  obtain ⟨d', a1, a2, a3, a4⟩ := write_slab (d := d) (args := leading t.dims) (vd := t.dims) hl
    (leading_nonneg _) ht rfl hf
  rw [c1, c2] at a1
  obtain ⟨e1, e2⟩ := leading_counts (ds := d.dims) (ns := d.dims) rfl
  obtain ⟨mem, b1, b2, b3⟩ := read_slab (d := d') (args := leading d.dims) (vd := d.dims) (by rw [a2]; exact leading_self _)
    (leading_nonneg _) (isTensor_mk' z h0) rfl
  rw [a2, e1, e2] at b1
  rw [a2] at b3
  refine ⟨w.set (file, name) d', { Strided.mk' z d.dims with data := mem }, ?_, ?_, rfl, hne, d'.elem, ?_, ?_, ?_⟩
  · simp only [writeTensor, hw, Option.getD_some, a1, Outcome.ok_bind]
  · simp only [readTensor, Files.set, and_self, if_true, a2, hlen, b1, Outcome.ok_bind]
  · refine represents_congr b3 ?_
    intro j hj
    rw [leading_index (leading_self d.dims) hj]
  · intro k hk
    rw [← a3 k hk, leading_index hl hk]
  · intro k hk
    exact a4 k fun hr => hk ((leading_region hl k).1 hr)

/-- **C120 (refuted: a smaller data set of that name).** If the data set of that name is smaller along an axis, or
has another rank, `write` throws for every tensor. -/
theorem C120_smaller_refuted (zd : List Nat → R) (w : Files R) (file : Nat) (name : String) (t : Strided R) (d : Dataset R)
    (hw : w file name = some d)
    (hl : selDims d.dims (t.dims.map fun (n : Nat) => Sel.range 0 (n : Int)) ≠ some t.dims) :
    writeTensor zd w file name t = .error "hyperslab outside the data set" := by
  have : slabFits d.dims (t.dims.map fun _ => 0) (t.dims.map Int.ofNat) = false := by
    rw [← Bool.not_eq_true, leading_fits]
    exact hl
  simp only [writeTensor, hw, Option.getD_some, Dataset.write, this, Bool.false_eq_true, if_false]
  rfl

/-- **C120.** Reading a name that does not exist, or a data set of another rank, ends the process. -/
theorem C120_read_rejects (z : Nat → R) (w : Files R) (file : Nat) (name : String) (rank : Nat)
    (h : ∀ d, w file name = some d → d.dims.length ≠ rank) :
    readTensor z w file name rank = .error "abort: unable to open disk tensor" := by
  unfold readTensor
  cases hq : w file name with
  | none => rfl
  | some d => simp only [if_neg (h d hq)]

/-! ### C121 -/

theorem chunkFits_default {ds : List Nat} (h : ∀ n ∈ ds, 0 < n) : chunkFits ds (defaultChunk ds) = true := by
  have tl : ∀ ds : List Nat, (∀ n ∈ ds, 0 < n) → chunkFits ds (ds.map fun d => if d < 64 then d else 64) = true := by
    intro ds
    induction ds with
    | nil => intro _; rfl
    | cons d ds ih =>
      intro h
      have hd := h d (by simp)
      simp only [List.map_cons, chunkFits, ih fun n hn => h n (by simp [hn]), Bool.and_true, decide_eq_true_eq]
      split <;> omega
  cases ds with
  | nil => rfl
  | cons d ds =>
    have hd := h d (by simp)
    simp only [defaultChunk, chunkFits, tl ds fun n hn => h n (by simp [hn]), Bool.and_true, decide_eq_true_eq]
    omega

theorem chunkFits_zero {ds : List Nat} (h : 0 ∈ ds) : chunkFits ds (defaultChunk ds) = false := by
  have tl : ∀ ds : List Nat, 0 ∈ ds → chunkFits ds (ds.map fun d => if d < 64 then d else 64) = false := by
    intro ds
    induction ds with
    | nil => intro h; simp at h
    | cons d ds ih =>
      intro h
      simp only [List.map_cons, chunkFits, Bool.and_eq_false_iff, decide_eq_false_iff_not]
      rcases List.mem_cons.1 h with rfl | h
      · left; simp
      · right; exact ih h
  cases ds with
  | nil => simp at h
  | cons d ds =>
    simp only [defaultChunk, chunkFits, Bool.and_eq_false_iff, decide_eq_false_iff_not]
    rcases List.mem_cons.1 h with rfl | h
    · left; omega
    · right; exact tl ds h

/-- **C121.** A disk tensor with a new name and no empty axis: one data set of that shape appears under that name,
and nothing else changes. -/
theorem C121_create (z : List Nat → R) (w : Files R) (file : Nat) (name : String) (dims : List Nat)
    (hw : w file name = none) (hd : ∀ n ∈ dims, 0 < n) :
    ∃ A w' d, DiskTensor.makeDefault z w file name dims = .ok (A, w') ∧ A.existed = false ∧ A.dims = dims ∧
      A.disk = (file, name) ∧ w' file name = some d ∧ d.dims = dims ∧
      ∀ g n, ¬ (g = file ∧ n = name) → w' g n = w g n := by
  refine ⟨_, _, ⟨dims, z⟩, by
    simp only [DiskTensor.makeDefault, DiskTensor.make, hw, chunkFits_default hd, if_true]; rfl, rfl, rfl, rfl, ?_, rfl, ?_⟩
  · simp [Files.set]
  · intro g n hn
    simp only [Files.set]
    rw [if_neg hn]

/-- **C121.** A disk tensor with a name that exists: the data set is opened, it is reported, and no file
changes; with the shape of the data set, views then read and write that data set (C118). -/
theorem C121_open_partial (z : List Nat → R) (w : Files R) (file : Nat) (name : String) (dims chunk : List Nat) (d : Dataset R)
    (hw : w file name = some d) :
    DiskTensor.makeDefault z w file name dims = .ok (⟨name, dims, (file, name), true⟩, w) ∧
    DiskTensor.make z w file name chunk dims = .ok (⟨name, dims, (file, name), true⟩, w) := by
  simp only [DiskTensor.makeDefault, DiskTensor.make, hw, and_self]

/-- **C121 (refuted: another shape).** Whatever the shape of the existing data set, the constructor accepts the
shape given by the program.  If that is larger along some axis, or has another rank, the view `A(All, …, All)`
throws. -/
theorem C121_shape_refuted (z : List Nat → R) (zm : Nat → R) (w : Files R) (file : Nat) (name : String) (dims : List Nat)
    (d : Dataset R) (hw : w file name = some d) (h : selDims d.dims (dims.map fun (n : Nat) => Sel.range 0 (n : Int)) ≠ some dims) :
    ∃ A, DiskTensor.makeDefault z w file name dims = .ok (A, w) ∧ A.dims = dims ∧ A.dims ≠ d.dims ∧
      A.view zm w (dims.map fun _ => Sel.all) false = .error "hyperslab outside the data set" := by
  refine ⟨_, (C121_open_partial z w file name dims [] d hw).1, rfl, ?_, ?_⟩
  · intro e
    apply h
    rw [← show dims = d.dims from e]
    exact leading_self dims
  · have c : diskCounts dims (dims.map fun _ => Sel.all) = dims.map Int.ofNat ∧
        diskOffsets dims (dims.map fun _ => Sel.all) = dims.map fun _ => 0 := by
      have : ∀ ds : List Nat, diskCounts ds (ds.map fun _ => Sel.all) = ds.map Int.ofNat ∧
          diskOffsets ds (ds.map fun _ => Sel.all) = ds.map fun _ => 0 := by
        intro ds
        induction ds with
        | nil => exact ⟨rfl, rfl⟩
        | cons d ds ih =>
          simp only [List.map_cons, diskCounts, diskOffsets, ih.1, ih.2]
          exact ⟨rfl, trivial⟩
      exact this dims
    have hf : slabFits d.dims (dims.map fun _ => 0) (dims.map Int.ofNat) = false := by
      rw [← Bool.not_eq_true, leading_fits]
      exact h
    simp only [DiskTensor.view, List.length_map, Nat.le_refl, if_true, hw, c.1, c.2, Dataset.read, hf,
      Bool.false_eq_true, if_false]
    rfl

/-- **C121 (refuted: empty axes).** With the default chunk a disk tensor with an axis of length zero cannot be
created: the process ends. -/
theorem C121_empty_refuted (z : List Nat → R) (w : Files R) (file : Nat) (name : String) (dims : List Nat)
    (hw : w file name = none) (hd : 0 ∈ dims) :
    DiskTensor.makeDefault z w file name dims = .error "abort: unable to create disk tensor" := by
  simp only [DiskTensor.makeDefault, DiskTensor.make, hw, chunkFits_zero hd, Bool.false_eq_true, if_false]

/-- **C121 (partial: `state::data()`).** In the file `state::data()`, a disk tensor made from a tensor is the one
made from its name and shape. -/
theorem C121_like_partial (z : List Nat → R) (w : Files R) (name : String) (dims : List Nat) :
    DiskTensor.like z w 0 name dims = DiskTensor.makeDefault z w 0 name dims := by
  simp only [DiskTensor.like, DiskTensor.makeDefault, DiskTensor.make]
  cases w 0 name <;> rfl

/-- **C121 (refuted: made from a tensor, in another file).** If the name exists in the given file, the data set of
that name in `state::data()` is used instead; without one the process ends. -/
theorem C121_like_refuted (z : List Nat → R) (w : Files R) (file : Nat) (name : String) (dims : List Nat) (d : Dataset R)
    (hf : file ≠ 0) (hw : w file name = some d) :
    (∀ e, w 0 name = some e →
      ∃ A, DiskTensor.like z w file name dims = .ok (A, w) ∧ A.disk = (0, name) ∧ A.disk ≠ (file, name)) ∧
    (w 0 name = none → DiskTensor.like z w file name dims = .error "abort: unable to open disk tensor") := by
  constructor
  · intro e he
    refine ⟨⟨name, dims, (0, name), true⟩, by simp only [DiskTensor.like, hw, he], rfl, ?_⟩
    simp only [ne_eq, Prod.mk.injEq, not_and]
    intro h
    exact absurd h.symm hf
  · intro h0
    simp only [DiskTensor.like, hw, h0]

/-! ### Instances -/

/-- A 3 × 4 data set and the files with it. -/
def diskData : Dataset Int := ⟨[3, 4], fun k => 10 * (k.getD 0 0) + k.getD 1 0⟩
/-- The file 1 contains it as "A", `state::data()` a data set with one axis. -/
def diskFiles : Files Int := fun f n =>
  if f = 1 ∧ n = "A" then some diskData else if f = 0 ∧ n = "B" then some ⟨[5], fun _ => 0⟩ else none
/-- The disk tensor. -/
def diskA : DiskTensor := ⟨"A", [3, 4], (1, "A"), true⟩

theorem diskRow : Selects [3, 4] [.at 1, .all] [4] := by
  refine ⟨rfl, by simp, by simp, ?_⟩
  intro a ha
  fin_cases ha <;> simp

theorem diskPart : Selects [3, 4] [.at 2, .range 1 3] [2] := by
  refine ⟨rfl, by simp, by simp, ?_⟩
  intro a ha
  fin_cases ha <;> simp

theorem diskApart (k : List Nat) (h : InRegion [3, 4] [.at 2, .range 1 3] k) : ¬ InRegion [3, 4] [.at 1, .all] k := by
  obtain ⟨vd, j, h1, h2, rfl⟩ := h
  rintro ⟨vd', j', h1', h2', e⟩
  have : ∀ x : List Nat, (selIndex [3, 4] [.at 1, .all] x).head? = some 1 := by intro x; rfl
  have h' : ∀ x : List Nat, (selIndex [3, 4] [.at 2, .range 1 3] x).head? = some 2 := by intro x; rfl
  have hh := congrArg List.head? e
  rw [this, h'] at hh
  simp at hh

/-- A patched function exists for every region. -/
theorem patched_exists (ds : List Nat) (args : List Sel) (f b : List Nat → R) : ∃ g, Patched ds args f b g := by
  classical
  refine ⟨fun k => if InRegion ds args k then b k else f k, fun k _ => ⟨fun h => if_pos h, fun h => if_neg h⟩⟩

/-- Two views are open at the same time; the first is changed, read and written, the second filled and destroyed. -/
example : ∃ h xs, DiskRun [3, 4] ⟨diskData.elem, diskData.elem, fun _ => none⟩
    [.view 0 [.at 1, .all], .view 1 [.at 2, .range 1 3], .set 0 [3] 99, .get 0 [3], .get 1 [0], .put 0, .setAll 1 5,
      .close 1, .close 0] h xs ∧ (∀ id, h.live id = none) ∧ xs = [none, none, none, some 99, some 21, none, none, none, none] := by
  obtain ⟨g1, p1⟩ := patched_exists [3, 4] [.at 1, .all] diskData.elem
    (fun k => if k = selIndex [3, 4] [.at 1, .all] [3] then (99 : Int) else diskData.elem k)
  obtain ⟨g2, p2⟩ := patched_exists [3, 4] [.at 2, .range 1 3]
    (fun k => if k = selIndex [3, 4] [.at 1, .all] [3] then (99 : Int) else diskData.elem k) (fun _ => 5)
  obtain ⟨g3, p3⟩ := patched_exists [3, 4] [.at 2, .range 1 3] g1 g2
  obtain ⟨g4, p4⟩ := patched_exists [3, 4] [.at 1, .all] g3 g2
  refine ⟨_, _, .cons (.view rfl diskRow ?_) (.cons (.view rfl diskPart ?_) (.cons (.set (args := [.at 1, .all]) rfl diskRow ?_)
    (.cons (.get (args := [.at 1, .all]) rfl diskRow ?_) (.cons (.get (args := [.at 2, .range 1 3]) rfl diskPart ?_)
    (.cons (.put (args := [.at 1, .all]) rfl p1)
    (.cons (.setAll (args := [.at 2, .range 1 3]) rfl p2) (.cons (.close (args := [.at 2, .range 1 3]) rfl p3)
    (.cons (.close (args := [.at 1, .all]) rfl p4) .nil)))))))), ?_, ?_⟩
  · intro i a h; simp at h
  · intro i a h k hk
    simp only at h
    by_cases e : i = 0
    · rw [if_pos e] at h
      obtain rfl : [Sel.at 1, .all] = a := by simpa using h
      exact diskApart k hk
    · rw [if_neg e] at h; simp at h
  · exact ⟨by decide, trivial⟩
  · exact ⟨by decide, trivial⟩
  · exact ⟨by decide, trivial⟩
  · intro id
    simp only
    by_cases e0 : id = 0
    · rw [if_pos e0]
    · rw [if_neg e0]
      by_cases e1 : id = 1
      · rw [if_pos e1]
      · rw [if_neg e1, if_neg e1, if_neg e0]
  · rfl

/-- The same calls in the model. -/
example : (match diskRun (fun _ => (7 : Int)) diskA false ⟨diskFiles, fun _ => none⟩
    [.view 0 [.at 1, .all], .view 1 [.at 2, .range 1 3], .set 0 [3] 99, .get 0 [3], .get 1 [0], .put 0, .setAll 1 5,
      .close 1, .close 0] with
    | .ok (s, xs) => (((s.files 1 "A").map fun d => (box d.dims).map d.elem), xs)
    | _ => (none, [])) =
    (some [0, 1, 2, 3, 10, 11, 12, 99, 20, 5, 5, 23], [none, none, none, some 99, some 21, none, none, none, none]) := by
  decide +kernel

/-- A lost update (C118_overlap_refuted applies to every selection, for example the middle row). -/
example : ∃ s d', diskRun (fun _ => (7 : Int)) diskA false ⟨diskFiles, fun _ => none⟩
      [.view 0 [.at 1, .all], .view 1 [.at 1, .all], .set 1 [2] 99, .close 1, .close 0] =
      .ok (s, [none, none, none, none, none]) ∧
    s.files 1 "A" = some d' ∧ ∀ k, InBox k [3, 4] → d'.elem k = diskData.elem k :=
  C118_overlap_refuted _ diskA diskFiles diskData rfl rfl [.at 1, .all] [4] [2] 99 diskRow ⟨by decide, trivial⟩

/-- A column block of one column, and the last row by a negative number. -/
example : diskA.view (fun _ => (7 : Int)) diskFiles [.all, .range 1 2] false = .ub "read past the end of the buffer" ∧
    diskA.view (fun _ => (7 : Int)) diskFiles [.at (-1), .all] false = .error "hyperslab outside the data set" := by
  refine ⟨C118_single_refuted _ diskA diskFiles diskData rfl rfl _ [3, 1] _ rfl ?_ (by simp) (by simp),
    C118_negative_refuted _ diskA diskFiles diskData rfl rfl _ [4] _ rfl ⟨.at (-1), by simp, by simp⟩⟩
  intro a ha
  fin_cases ha <;> simp

/-- Calls on a const disk tensor that succeed; the change of the view stays in memory. -/
example : (match diskRun (fun _ => (7 : Int)) diskA true ⟨diskFiles, fun _ => none⟩
    [.view 0 [.at 1, .all], .set 0 [3] 99, .get 0 [3], .put 0, .close 0] with
    | .ok (s, xs) => (((s.files 1 "A").map fun d => (box d.dims).map d.elem), xs)
    | _ => (none, [])) =
    (some [0, 1, 2, 3, 10, 11, 12, 13, 20, 21, 22, 23], [none, none, some 99, none, none]) := by
  decide +kernel

/-- A 2 × 2 tensor. -/
def diskT : Strided Int := ⟨[1, 2, 3, 4], 0, [2, 2], [2, 1]⟩

/-- Round trip of a tensor under a new name. -/
example : ∃ w' u, writeTensor (fun _ => (8 : Int)) diskFiles 1 "T" diskT = .ok w' ∧
    readTensor (fun _ => 7) w' 1 "T" 2 = .ok u ∧ u.data = [1, 2, 3, 4] ∧ u.dims = [2, 2] :=
  ⟨_, _, rfl, rfl, by decide +kernel, rfl⟩

/-- Written over the 3 × 4 data set it comes back with twelve elements; over the data set with one axis it throws. -/
example : (∃ w' u, writeTensor (fun _ => (8 : Int)) diskFiles 1 "A" diskT = .ok w' ∧
    readTensor (fun _ => 7) w' 1 "A" 2 = .ok u ∧ u.data = [1, 2, 2, 3, 3, 4, 12, 13, 20, 21, 22, 23] ∧ u.dims = [3, 4]) ∧
    writeTensor (fun _ => (8 : Int)) diskFiles 0 "B" diskT = .error "hyperslab outside the data set" :=
  ⟨⟨_, _, rfl, rfl, by decide +kernel, rfl⟩, rfl⟩

/-- Opening "A" as a 4 × 4 tensor succeeds; reading all of it throws.  A new disk tensor with an empty axis. -/
example : (∃ A, DiskTensor.makeDefault (fun _ => (0 : Int)) diskFiles 1 "A" [4, 4] = .ok (A, diskFiles) ∧
    A.view (fun _ => 7) diskFiles [.all, .all] false = .error "hyperslab outside the data set") ∧
    (∃ m, DiskTensor.makeDefault (fun _ => (0 : Int)) diskFiles 1 "C" [4, 0] = .error m) :=
  ⟨⟨_, rfl, rfl⟩, ⟨_, rfl⟩⟩

/-- A disk tensor like a tensor called "A" in file 1: the process ends, although file 1 has that data set. -/
example : DiskTensor.like (fun _ => (0 : Int)) diskFiles 1 "A" [3, 4] = .error "abort: unable to open disk tensor" := rfl

end Einsums.Props
