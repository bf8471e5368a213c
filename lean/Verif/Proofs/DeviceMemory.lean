import Verif.Spec.DeviceMemory
import Verif.Proofs.Tensor
import Mathlib.Data.List.Basic
import Mathlib.Algebra.BigOperators.Group.List.Basic
import Mathlib.Algebra.BigOperators.Ring.List

/-
Lemmas about the memory of device tensors.
-/
namespace Einsums
open Spec Model

/-- The memory a tensor has to give back. -/
def Model.DevObject.owned (t : DevObject) : List (MemKind × Nat) :=
  (match t.mode with
    | .mapped => t.host.toList.flatMap fun n => [(.registered, n), (.heap, n)]
    | .pinned => t.host.toList.map fun n => (.pinned, n)
    | .deviceOnly => t.data.toList.map fun n => (.device, n)
    | .notInitialized => []) ++ t.gdims.toList.map fun n => (.device, n)

/-- The memory a view has to give back. -/
def Model.DevViewObject.owned (v : DevViewObject) : List (MemKind × Nat) :=
  (.device, v.gdims) :: v.mapped.toList.map fun p => (.foreign, p)

/-- The memory an object has to give back. -/
def ownedBy : Option DevObj → List (MemKind × Nat)
  | none => []
  | some (.tensor t) => t.owned
  | some (.view v) => v.owned

/-- The elements are in memory; only on the device there may be none. -/
def Model.DevObject.Elements (t : DevObject) : Prop :=
  match t.mode with
  | .notInitialized => False
  | .deviceOnly => Positive t.dims → t.data.isSome
  | _ => Positive t.dims ∧ ∃ n, t.host = some n ∧ t.data = some n

/-- A tensor either is not initialised and has no memory, or has elements and dimensions in memory. -/
def Model.DevObject.Sound (t : DevObject) : Prop :=
  (t.mode = .notInitialized ∧ t.host = none ∧ t.data = none ∧ t.gdims = none) ∨ (t.Elements ∧ t.gdims.isSome)

theorem sound_init {t : DevObject} (hs : t.Sound) (hm : t.mode ≠ .notInitialized) : t.Elements ∧ t.gdims.isSome :=
  hs.elim (fun h => (hm h.1).elim) id

/-- The memory in use is that of the tensor and `F`. -/
def Holding (s : DevHeap × DevObject) (F : List (MemKind × Nat)) : Prop :=
  s.1.live.Perm (s.2.owned ++ F) ∧ s.2.Sound

theorem countOf_pos {dims : List Nat} (h : Positive dims) : countOf dims ≠ 0 := by
  unfold countOf
  have : ∀ (ds : List Nat) (a : Nat), 0 < a → (∀ d ∈ ds, 0 < d) → 0 < ds.foldl (· * ·) a := by
    intro ds
    induction ds with
    | nil => intro a h _; exact h
    | cons d ds ih =>
        intro a ha hd
        exact ih _ (Nat.mul_pos ha (hd d (List.mem_cons_self ..))) fun e he => hd e (List.mem_cons_of_mem _ he)
  exact Nat.pos_iff_ne_zero.1 (this dims 1 Nat.one_pos h)

theorem countOf_zero {dims : List Nat} (h : ¬ Positive dims) : countOf dims = 0 := by
  unfold Positive at h
  push Not at h
  obtain ⟨d, hd, h0⟩ := h
  have e : countOf dims = dims.prod := by unfold countOf; rw [List.prod_eq_foldl]
  rw [e, List.prod_eq_zero_iff]
  have : d = 0 := by omega
  rwa [this] at hd

/-- What a member function leaves, whether it returns or throws. -/
def Did.Leaves (d : Did σ) (Q : σ → Prop) : Prop := ∃ s, (d = .returns s ∨ d = .throws s) ∧ Q s

theorem release_perm {h : DevHeap} {r : MemKind × Nat} {F : List (MemKind × Nat)} (hp : h.live.Perm (r :: F)) :
    r ∈ h.live ∧ (h.release r).live.Perm F := by
  refine ⟨hp.symm.subset (List.mem_cons_self ..), ?_⟩
  have := hp.erase r
  rwa [List.erase_cons_head] at this

/-- Taking memory for the elements. -/
theorem take_holding {h : DevHeap} {F : List (MemKind × Nat)} {t : DevObject} (hm : t.mode ≠ .notInitialized)
    (hp : h.live.Perm (t.gdims.toList.map (fun n => (MemKind.device, n)) ++ F)) (hd : Allocates t.mode t.dims) :
    ∃ h' t', takeData (countOf t.dims) (h, t) = .returns (h', t') ∧ t'.dims = t.dims ∧ t'.mode = t.mode ∧ t'.gdims = t.gdims ∧
      t'.gshape = t.gshape ∧ t'.Elements ∧ h'.live.Perm (t'.owned ++ F) := by
  obtain ⟨dims, mode, host, data, gdims, gs⟩ := t
  simp only at hm hp hd ⊢
  cases mode with
  | notInitialized => exact (hm rfl).elim
  | mapped =>
      have hd := hd (.inl rfl)
      have h0 := countOf_pos hd
      refine ⟨(h.alloc .heap).register .registered h.next, ⟨dims, .mapped, some h.next, some h.next, gdims, gs⟩, ?_, rfl, rfl, rfl, rfl,
        ⟨hd, _, rfl, rfl⟩, ?_⟩
      · simp only [takeData, h0, if_false]
      · simp only [DevObject.owned, DevHeap.alloc, DevHeap.register, Option.toList_some, List.flatMap_cons,
          List.flatMap_nil, List.append_nil, List.cons_append, List.nil_append]
        exact (hp.cons _).cons _
  | pinned =>
      have hd := hd (.inr rfl)
      have h0 := countOf_pos hd
      refine ⟨h.alloc .pinned, ⟨dims, .pinned, some h.next, some h.next, gdims, gs⟩, ?_, rfl, rfl, rfl, rfl, ⟨hd, _, rfl, rfl⟩, ?_⟩
      · simp only [takeData, h0, if_false]
      · simp only [DevObject.owned, DevHeap.alloc, Option.toList_some, List.map_cons, List.map_nil,
          List.cons_append, List.nil_append]
        exact hp.cons _
  | deviceOnly =>
      by_cases hd : Positive dims
      · have h0 := countOf_pos hd
        refine ⟨h.alloc .device, ⟨dims, .deviceOnly, none, some h.next, gdims, gs⟩, ?_, rfl, rfl, rfl, rfl, fun _ => rfl, ?_⟩
        · simp only [takeData, h0, if_false]
        · simp only [DevObject.owned, DevHeap.alloc, Option.toList_some, List.map_cons, List.map_nil,
            List.cons_append, List.nil_append]
          exact hp.cons _
      · refine ⟨h, ⟨dims, .deviceOnly, none, none, gdims, gs⟩, ?_, rfl, rfl, rfl, rfl, fun h => (hd h).elim, ?_⟩
        · simp only [takeData, countOf_zero hd, if_true]
        · simpa only [DevObject.owned, Option.toList_none, List.map_nil, List.nil_append] using hp

/-- Giving the elements back. -/
theorem drop_holding {h : DevHeap} {t : DevObject} {F : List (MemKind × Nat)} (hp : h.live.Perm (t.owned ++ F)) (he : t.Elements)
    (dims : List Nat) :
    ∃ h', dropData (h, { t with dims := dims }) = .returns (h', { t with dims := dims }) ∧
      h'.live.Perm (t.gdims.toList.map (fun n => (MemKind.device, n)) ++ F) := by
  obtain ⟨td, mode, host, data, gdims, gs⟩ := t
  cases mode with
  | notInitialized => exact he.elim
  | mapped =>
      obtain ⟨_, n, hh, hdat⟩ := he
      simp only at hh hdat
      subst hh hdat
      simp only [DevObject.owned, Option.toList_some, List.flatMap_cons, List.flatMap_nil, List.append_nil, List.cons_append,
        List.nil_append] at hp
      obtain ⟨m1, p1⟩ := release_perm hp
      obtain ⟨m2, p2⟩ := release_perm p1
      refine ⟨(h.release (.registered, n)).release (.heap, n), ?_, p2⟩
      simp only [dropData, m1, if_true, freePtr, m2]
  | pinned =>
      obtain ⟨_, n, hh, hdat⟩ := he
      simp only at hh hdat
      subst hh hdat
      simp only [DevObject.owned, Option.toList_some, List.map_cons, List.map_nil, List.cons_append, List.nil_append] at hp
      obtain ⟨m1, p1⟩ := release_perm hp
      refine ⟨h.release (.pinned, n), ?_, p1⟩
      simp only [dropData, m1, if_true, freePtr]
  | deviceOnly =>
      cases data with
      | none =>
          refine ⟨h, ?_, ?_⟩
          · simp only [dropData, freePtr]
          · simpa only [DevObject.owned, Option.toList_none, List.map_nil, List.nil_append] using hp
      | some n =>
          simp only [DevObject.owned, Option.toList_some, List.map_cons, List.map_nil, List.cons_append, List.nil_append] at hp
          obtain ⟨m1, p1⟩ := release_perm hp
          refine ⟨h.release (.device, n), ?_, p1⟩
          simp only [dropData, m1, if_true, freePtr]

/-- Giving back the elements of a tensor and taking new memory. -/
theorem renew_data {h : DevHeap} {t : DevObject} {F : List (MemKind × Nat)} (hp : h.live.Perm (t.owned ++ F)) (hs : t.Sound)
    (hm : t.mode ≠ .notInitialized) {dims : List Nat} (hd : Allocates t.mode dims) :
    ∃ h' t', (dropData (h, { t with dims := dims })).andThen (takeData (countOf dims)) = .returns (h', t') ∧ t'.dims = dims ∧
      t'.mode = t.mode ∧ t'.gdims = t.gdims ∧ t'.gshape = t.gshape ∧ t'.Elements ∧ h'.live.Perm (t'.owned ++ F) := by
  obtain ⟨h1, e1, p1⟩ := drop_holding hp (sound_init hs hm).1 dims
  rw [e1]
  exact take_holding (t := { t with dims := dims }) hm p1 hd

theorem sound_gdims {t : DevObject} (hs : t.Sound) (hm : t.mode ≠ .notInitialized) : t.gdims.isSome := (sound_init hs hm).2

/-- The elements and the dimensions are in memory. -/
theorem sound_usable {t : DevObject} (hs : t.Sound) (hm : t.mode ≠ .notInitialized) (hd : Positive t.dims) {h : DevHeap}
    (hl : ∀ r ∈ t.owned, r ∈ h.live) : t.usable h = true := by
  obtain ⟨he, hg⟩ := sound_init hs hm
  obtain ⟨td, mode, host, data, gdims, gs⟩ := t
  obtain ⟨g, hg⟩ := Option.isSome_iff_exists.1 hg
  simp only at hg
  subst hg
  cases mode with
  | notInitialized => exact (hm rfl).elim
  | mapped =>
      obtain ⟨_, n, hh, hdat⟩ := he
      simp only at hh hdat
      subst hh hdat
      simp [DevObject.owned] at hl
      simp [DevObject.usable, DevObject.storage, hl]
  | pinned =>
      obtain ⟨_, n, hh, hdat⟩ := he
      simp only at hh hdat
      subst hh hdat
      simp [DevObject.owned] at hl
      simp [DevObject.usable, DevObject.storage, hl]
  | deviceOnly =>
      obtain ⟨n, hdat⟩ := Option.isSome_iff_exists.1 (he hd)
      simp only at hdat
      subst hdat
      simp [DevObject.owned] at hl
      simp [DevObject.usable, DevObject.storage, hl]

/-- A sound tensor has dimensions that are possible. -/
theorem sound_allowed {t : DevObject} (hs : t.Sound) : Allocates t.mode t.dims := by
  rintro (h | h)
  · have := (sound_init hs (by rw [h]; decide)).1
    unfold DevObject.Elements at this
    rw [h] at this
    exact this.1
  · have := (sound_init hs (by rw [h]; decide)).1
    unfold DevObject.Elements at this
    rw [h] at this
    exact this.1

theorem usable_storage {t : DevObject} {h : DevHeap} (hu : t.usable h = true) : ∃ r, t.storage = some r ∧ r ∈ h.live := by
  unfold DevObject.usable at hu
  cases e : t.storage with
  | none => simp [e] at hu
  | some r => simp [e] at hu; exact ⟨r, rfl, hu.1⟩

/-- The dimensions of a new tensor. -/
theorem newShape_holding {h : DevHeap} {t : DevObject} {F : List (MemKind × Nat)} (hg : t.gdims = none)
    (hp : h.live.Perm (t.owned ++ F)) (he : t.Elements) :
    ∃ s, newShape (h, t) = .returns s ∧ Holding s F ∧ s.2.gshape = s.2.dims ∧ s.2.dims = t.dims ∧ s.2.mode = t.mode := by
  refine ⟨_, rfl, ⟨?_, .inr ⟨he, rfl⟩⟩, rfl, rfl, rfl⟩
  simp only [DevHeap.alloc]
  unfold DevObject.owned at hp ⊢
  simp only [hg, Option.toList_none, List.map_nil, List.append_nil, Option.toList_some, List.map_cons] at hp ⊢
  refine (hp.cons _).trans ?_
  rw [List.append_assoc]
  exact List.perm_middle.symm

/-- The constructors. -/
theorem create_holding {h : DevHeap} {F : List (MemKind × Nat)} (hp : h.live.Perm F) {mode : DeviceMode} (hm : mode ≠ .notInitialized)
    {dims : List Nat} (hd : Allocates mode dims) :
    ∃ s, DevObject.create mode dims h = .returns s ∧ Holding s F ∧ s.2.gshape = s.2.dims ∧ s.2.dims = dims ∧ s.2.mode = mode := by
  obtain ⟨h', t, e, e1, e2, e3, _, he, hp'⟩ := take_holding (t := ⟨dims, mode, none, none, none, []⟩) hm hp hd
  unfold DevObject.create
  rw [e]
  obtain ⟨s, e', r1, r2, r3, r4⟩ := newShape_holding e3 hp' he
  exact ⟨s, e', r1, r2, r3.trans e1, r4.trans e2⟩

/-- Copying the elements of a tensor. -/
theorem copyElements_holding {h : DevHeap} {other : DevObject} (ho : other.Sound) (hm : other.mode ≠ .notInitialized)
    (hl : ∀ r ∈ other.owned, r ∈ h.live) (t : DevObject) : copyElements other (h, t) = .returns (h, t) := by
  unfold copyElements
  by_cases hd : Positive other.dims
  · obtain ⟨r, hr, hrl⟩ := usable_storage (sound_usable ho hm hd hl)
    simp only [hm, if_false, countOf_pos hd, hr, hrl, if_true]
  · simp only [hm, if_false, countOf_zero hd, if_true]

/-- Initialising a tensor from another one. -/
theorem initFrom_holding {h : DevHeap} {F : List (MemKind × Nat)} (hp : h.live.Perm F) {other : DevObject} (ho : other.Sound)
    (hl : ∀ r ∈ other.owned, r ∈ F) (td gs : List Nat) :
    (other.mode = .notInitialized ∧
      initFrom other (h, ⟨td, .notInitialized, none, none, none, gs⟩) = .throws (h, ⟨other.dims, .notInitialized, none, none, none, gs⟩)) ∨
    (other.mode ≠ .notInitialized ∧ ∃ s, initFrom other (h, ⟨td, .notInitialized, none, none, none, gs⟩) = .returns s ∧ Holding s F ∧
      s.2.gshape = s.2.dims ∧ s.2.mode = other.mode ∧ s.2.dims = other.dims) := by
  by_cases hm : other.mode = .notInitialized
  · refine .inl ⟨hm, ?_⟩
    simp [initFrom, hm, takeData, Did.andThen]
  · right
    refine ⟨hm, ?_⟩
    obtain ⟨h', t, e, e1, e2, e3, _, he, hp'⟩ :=
      take_holding (t := ⟨other.dims, other.mode, none, none, none, gs⟩) hm hp
        (show Allocates other.mode other.dims from sound_allowed ho)
    unfold initFrom
    simp only [ne_eq, not_true_eq_false, if_false]
    rw [e]
    simp only [Did.andThen]
    rw [copyElements_holding ho hm fun r hr => hp'.symm.subset (List.mem_append_right _ (hl r hr))]
    obtain ⟨s, e', r1, r2, r3, r4⟩ := newShape_holding e3 hp' he
    exact ⟨s, e', r1, r2, r4.trans e2, r3.trans e1⟩

theorem realloc_self {ds : List Nat} (h : Positive ds) : deviceRealloc ds ds = false := by
  unfold deviceRealloc
  rw [List.any_eq_false]
  intro i hi
  rw [List.mem_range] at hi
  simp only [decide_eq_true_eq, not_or, not_not, and_true, ne_eq]
  have := h _ (List.getElem_mem hi)
  simp only [List.getD_eq_getElem?_getD, List.getElem?_eq_getElem hi, Option.getD_some]
  omega

/-- The copying kernel. -/
theorem copyKernel_holding {h : DevHeap} {t other : DevObject} (hs : t.Sound) (hm : t.mode ≠ .notInitialized)
    (hl : ∀ r ∈ t.owned, r ∈ h.live) (ho : other.Sound) (hom : other.mode ≠ .notInitialized) (hol : ∀ r ∈ other.owned, r ∈ h.live)
    (hd : Positive t.dims → Positive other.dims) : copyKernel other (h, t) = .returns (h, t) := by
  unfold copyKernel
  by_cases hp : Positive t.dims
  · simp only [countOf_pos hp, if_false, sound_usable hs hm hp hl, sound_usable ho hom (hd hp) hol, Bool.and_self, if_true]
  · simp only [countOf_zero hp, if_true]

/-- What `deviceRealloc` leaves alone. -/
theorem realloc_false {ds es : List Nat} (hlen : ds.length = es.length) (h : deviceRealloc ds es = false) : ds = es ∧ Positive ds := by
  unfold deviceRealloc at h
  rw [List.any_eq_false] at h
  have key : ∀ i (hi : i < ds.length), ds[i] ≠ 0 ∧ ds[i] = es[i]'(hlen ▸ hi) := by
    intro i hi
    have := h i (List.mem_range.2 hi)
    simp only [List.getD_eq_getElem?_getD, List.getElem?_eq_getElem hi, List.getElem?_eq_getElem (hlen ▸ hi), Option.getD_some,
      decide_eq_true_eq, not_or, not_not, ne_eq] at this
    exact this
  refine ⟨List.ext_getElem hlen fun i hi _ => (key i hi).2, ?_⟩
  intro d hd
  obtain ⟨i, hi, e⟩ := List.getElem_of_mem hd
  have := (key i hi).1
  omega

theorem renewShape_holding {h : DevHeap} {t : DevObject} (hg : t.gdims.isSome) :
    renewShape (h, t) = .returns (h, { t with gshape := t.dims }) := by
  obtain ⟨g, hg⟩ := Option.isSome_iff_exists.1 hg
  unfold renewShape
  simp only [hg]

/-- The whole assignment of a device tensor of the same rank. -/
theorem assignFrom_holding {h : DevHeap} {t : DevObject} {F : List (MemKind × Nat)} (hp : h.live.Perm (t.owned ++ F)) (hs : t.Sound)
    (hm : t.mode ≠ .notInitialized) {other : DevObject} (ho : other.Sound) (hom : other.mode ≠ .notInitialized) (same : Bool)
    (hd : Allocates t.mode other.dims) (hrank : t.dims.length = other.dims.length)
    (hl : if same then other = t else ∀ r ∈ other.owned, r ∈ F) :
    ∃ s, assignFrom same other (h, t) = .returns s ∧ Holding s F ∧ s.2.mode = t.mode ∧ s.2.dims = other.dims ∧
      (t.gshape = t.dims → s.2.gshape = s.2.dims) := by
  unfold assignFrom
  by_cases hr : t.data = none ∨ deviceRealloc t.dims other.dims = true
  · simp only [hr, if_true]
    obtain ⟨h', t', e, e1, e2, e3, _, he, hp'⟩ := renew_data hp hs hm hd
    have hg := sound_gdims hs hm
    rw [e]
    simp only [Did.andThen]
    rw [renewShape_holding (by rw [e3]; exact hg)]
    have hs' : ({ t' with gshape := t'.dims } : DevObject).Sound := .inr ⟨he, by simp only; rw [e3]; exact hg⟩
    have hl' : ∀ r ∈ t'.owned, r ∈ h'.live := fun r hr => hp'.symm.subset (List.mem_append_left _ hr)
    have hm' : t'.mode ≠ .notInitialized := by rw [e2]; exact hm
    refine ⟨(h', { t' with gshape := t'.dims }), ?_, ⟨hp', hs'⟩, e2, e1, fun _ => rfl⟩
    cases same with
    | true =>
        simp only [if_true] at hl ⊢
        exact copyKernel_holding hs' hm' hl' hs' hm' hl' id
    | false =>
        simp only [Bool.false_eq_true, if_false] at hl ⊢
        refine copyKernel_holding hs' hm' hl' ho hom (fun r hr => hp'.symm.subset (List.mem_append_right _ (hl r hr))) ?_
        simp only [e1]
        exact id
  · simp only [hr, if_false]
    obtain ⟨hd1, hd2⟩ := realloc_false hrank (by
      cases e : deviceRealloc t.dims other.dims with
      | false => rfl
      | true => exact (hr (.inr e)).elim)
    have hl1 : ∀ r ∈ t.owned, r ∈ h.live := fun r hr => hp.symm.subset (List.mem_append_left _ hr)
    have hl2 : ∀ r ∈ other.owned, r ∈ h.live := by
      cases same with
      | true => simp only [if_true] at hl; rw [hl]; exact hl1
      | false =>
          simp only [Bool.false_eq_true, if_false] at hl
          exact fun r hr => hp.symm.subset (List.mem_append_right _ (hl r hr))
    exact ⟨_, copyKernel_holding hs hm hl1 ho hom hl2 (by rw [← hd1]; exact id), ⟨hp, hs⟩, rfl, hd1, id⟩

/-- Copying elements from core. -/
theorem storeElements_holding {h : DevHeap} {t : DevObject} (hs : t.Sound) (hm : t.mode ≠ .notInitialized)
    (hl : ∀ r ∈ t.owned, r ∈ h.live) : storeElements (h, t) = .returns (h, t) := by
  unfold storeElements
  by_cases hp : Positive t.dims
  · obtain ⟨r, hr1, hr2⟩ := usable_storage (sound_usable hs hm hp hl)
    simp only [hm, if_false, countOf_pos hp, hr1, hr2, if_true]
  · simp only [hm, if_false, countOf_zero hp, if_true]

/-- Assignment of a tensor in core. -/
theorem assignCore_holding {h : DevHeap} {t : DevObject} {F : List (MemKind × Nat)} (hp : h.live.Perm (t.owned ++ F)) (hs : t.Sound)
    {dims : List Nat} (hd : Allocates t.mode dims) :
    ∃ s, (assignCore dims (h, t) = .returns s ∨ assignCore dims (h, t) = .throws s) ∧ Holding s F ∧ s.2.mode = t.mode ∧
      (t.mode ≠ .notInitialized → assignCore dims (h, t) = .returns s ∧ (t.gshape = t.dims → s.2.gshape = s.2.dims) ∧
        (t.dims.length = dims.length → s.2.dims = dims)) := by
  by_cases hm : t.mode = .notInitialized
  · obtain ⟨td, mode, host, data, gdims, gs⟩ := t
    simp only at hm
    subst hm
    rcases hs with ⟨_, a, b, c⟩ | ⟨h, _⟩
    · simp only at a b c
      subst a b c
      unfold assignCore
      by_cases hr : deviceRealloc td dims
      · refine ⟨(h, ⟨dims, .notInitialized, none, none, none, gs⟩), .inr ?_, ⟨hp, .inl ⟨rfl, rfl, rfl, rfl⟩⟩, rfl, fun h => (h rfl).elim⟩
        simp [hr, dropData, Did.andThen]
      · refine ⟨(h, ⟨td, .notInitialized, none, none, none, gs⟩), .inr ?_, ⟨hp, .inl ⟨rfl, rfl, rfl, rfl⟩⟩, rfl, fun h => (h rfl).elim⟩
        simp [hr, storeElements, Did.andThen]
    · exact h.elim
  · unfold assignCore
    by_cases hr : deviceRealloc t.dims dims
    · obtain ⟨h', t', e, e1, e2, e3, _, he, hp'⟩ := renew_data hp hs hm hd
      obtain ⟨g, hg⟩ := Option.isSome_iff_exists.1 (sound_gdims hs hm)
      have hs' : ({ t' with gshape := t'.dims } : DevObject).Sound := .inr ⟨he, by simp only; rw [e3, hg]; rfl⟩
      have hl' : ∀ r ∈ t'.owned, r ∈ h'.live := fun r hr => hp'.symm.subset (List.mem_append_left _ hr)
      have hm' : t'.mode ≠ .notInitialized := by rw [e2]; exact hm
      have e4 : storeShape (h', t') = .returns (h', { t' with gshape := t'.dims }) := by
        unfold storeShape
        simp only [e3, hg]
      simp only [hr, if_true]
      rw [e]
      simp only [Did.andThen, e4]
      rw [storeElements_holding hs' hm' hl']
      exact ⟨_, .inl rfl, ⟨hp', hs'⟩, e2, fun _ => ⟨rfl, fun _ => rfl, fun _ => e1⟩⟩
    · simp only [hr, Bool.false_eq_true, if_false, Did.andThen]
      rw [storeElements_holding hs hm fun r hr => hp.symm.subset (List.mem_append_left _ hr)]
      refine ⟨_, .inl rfl, ⟨hp, hs⟩, rfl, fun _ => ⟨rfl, id, fun hrank => ?_⟩⟩
      exact (realloc_false hrank (by
        cases e : deviceRealloc t.dims dims with
        | false => rfl
        | true => exact (hr e).elim)).1

/-- Resizing. -/
theorem resize_holding {h : DevHeap} {t : DevObject} {F : List (MemKind × Nat)} (hp : h.live.Perm (t.owned ++ F)) (hs : t.Sound)
    {dims : List Nat} (hd : Allocates t.mode dims) :
    ∃ s, (resizeTo dims (h, t) = .returns s ∨ resizeTo dims (h, t) = .throws s) ∧ Holding s F ∧ s.2.mode = t.mode ∧
      (t.mode ≠ .notInitialized → resizeTo dims (h, t) = .returns s ∧ s.2.dims = dims ∧
        (t.gshape = t.dims → (t.dims = dims ∨ countOf dims ≠ countOf t.dims) → s.2.gshape = s.2.dims)) := by
  unfold resizeTo
  by_cases h1 : dims = t.dims
  · simp only [h1, if_true]
    exact ⟨_, .inl rfl, ⟨hp, hs⟩, rfl, fun _ => ⟨rfl, rfl, fun h _ => h⟩⟩
  · simp only [h1, if_false]
    by_cases h2 : countOf dims = countOf t.dims
    · simp only [h2, if_true]
      have hsound : ({ t with dims := dims } : DevObject).Sound := by
        rcases hs with h | ⟨he, hg⟩
        · exact .inl h
        · refine .inr ⟨?_, hg⟩
          obtain ⟨td, mode, host, data, gdims, gs⟩ := t
          cases mode with
          | notInitialized => exact he
          | mapped => exact ⟨hd (.inl rfl), he.2⟩
          | pinned => exact ⟨hd (.inr rfl), he.2⟩
          | deviceOnly =>
              intro hpos
              refine he ?_
              by_contra hc
              have e1 := countOf_zero hc
              have e2 := countOf_pos hpos
              simp only at h2 e1 e2
              omega
      exact ⟨_, .inl rfl, ⟨hp, hsound⟩, rfl, fun _ => ⟨rfl, rfl, fun _ h => h.elim (fun h => (h1 h.symm).elim) (fun h => (h rfl).elim)⟩⟩
    · simp only [h2, if_false]
      by_cases hm : t.mode = .notInitialized
      · obtain ⟨td, mode, host, data, gdims, gs⟩ := t
        simp only at hm
        subst hm
        have hsound : (⟨dims, .notInitialized, host, data, gdims, gs⟩ : DevObject).Sound := by
          rcases hs with h | ⟨he, _⟩
          · exact .inl h
          · exact he.elim
        refine ⟨(h, ⟨dims, .notInitialized, host, data, gdims, gs⟩), .inr ?_, ⟨hp, hsound⟩, rfl, fun h => (h rfl).elim⟩
        simp [resizeData, dropData, Did.andThen]
      · obtain ⟨h', t', e, e1, e2, e3, _, he, hp'⟩ := renew_data hp hs hm hd
        have hg : t'.gdims.isSome := by rw [e3]; exact sound_gdims hs hm
        unfold resizeData
        rw [e]
        simp only [Did.andThen]
        rw [renewShape_holding hg]
        exact ⟨_, .inl rfl, ⟨hp', .inr ⟨he, hg⟩⟩, e2, fun _ => ⟨rfl, e1, fun _ _ => rfl⟩⟩

/-- Destroying. -/
theorem destroy_holding {h : DevHeap} {t : DevObject} {F : List (MemKind × Nat)} (hp : h.live.Perm (t.owned ++ F)) (hs : t.Sound) :
    ∃ s, destroyDevice (h, t) = .returns s ∧ s.1.live.Perm F := by
  rcases hs with ⟨hm, a, b, c⟩ | ⟨he, hg'⟩
  · obtain ⟨td, mode, host, data, gdims, gs⟩ := t
    simp only at hm a b c
    subst hm a b c
    exact ⟨_, rfl, hp⟩
  · obtain ⟨g, hg⟩ := Option.isSome_iff_exists.1 hg'
    clear hg'
    have hdrop := drop_holding hp he t.dims
    obtain ⟨td, mode, host, data, gdims, gs⟩ := t
    simp only at hg
    subst hg
    obtain ⟨h', e, hp'⟩ := hdrop
    simp only [Option.toList_some, List.map_cons, List.map_nil, List.cons_append, List.nil_append] at hp'
    obtain ⟨m3, p3⟩ := release_perm hp'
    cases mode with
    | notInitialized => exact he.elim
    | mapped =>
        obtain ⟨_, n, hh, hdat⟩ := he
        simp only at hh hdat
        subst hh hdat
        simp only [dropData] at e
        by_cases m1 : (MemKind.registered, n) ∈ h.live
        · simp only [m1, if_true] at e
          refine ⟨(h'.release (.device, g), ⟨td, .mapped, some n, some n, some g, gs⟩), ?_, p3⟩
          simp only [destroyDevice, m1, if_true, e, Did.andThen]
          simp only [freePtr, m3, if_true]
        · simp [m1] at e
    | pinned =>
        simp only [dropData] at e
        refine ⟨(h'.release (.device, g), ⟨td, .pinned, host, data, some g, gs⟩), ?_, p3⟩
        simp only [destroyDevice, e, Did.andThen]
        simp only [freePtr, m3, if_true]
    | deviceOnly =>
        simp only [dropData] at e
        refine ⟨(h'.release (.device, g), ⟨td, .deviceOnly, host, data, some g, gs⟩), ?_, p3⟩
        simp only [destroyDevice, e, Did.andThen]
        simp only [freePtr, m3, if_true]

theorem destroyView_holding {h : DevHeap} {v : DevViewObject} {F : List (MemKind × Nat)} (hp : h.live.Perm (v.owned ++ F)) :
    ∃ h', destroyView v h = .returns h' ∧ h'.live.Perm F := by
  obtain ⟨g, m⟩ := v
  cases m with
  | none =>
      simp only [DevViewObject.owned, Option.toList_none, List.map_nil, List.cons_append, List.nil_append] at hp
      obtain ⟨m1, p1⟩ := release_perm hp
      simp only [destroyView, m1, if_true]
      exact ⟨_, rfl, p1⟩
  | some p =>
      simp only [DevViewObject.owned, Option.toList_some, List.map_cons, List.map_nil, List.cons_append, List.nil_append] at hp
      obtain ⟨m1, p1⟩ := release_perm hp
      obtain ⟨m2, p2⟩ := release_perm p1
      simp only [destroyView, m1, if_true, m2]
      exact ⟨_, rfl, p2⟩

/-- The memory of the objects, the one at `x` apart. -/
theorem objs_perm {objs : List (Option DevObj)} {x : Nat} {o : Option DevObj} (hx : objs[x]? = some o) :
    (objs.flatMap ownedBy).Perm (ownedBy o ++ (objs.set x none).flatMap ownedBy) := by
  induction objs generalizing x with
  | nil => simp at hx
  | cons a l ih =>
      cases x with
      | zero =>
          simp only [List.getElem?_cons_zero, Option.some.injEq] at hx
          subst hx
          simp [ownedBy]
      | succ x =>
          simp only [List.getElem?_cons_succ] at hx
          simp only [List.flatMap_cons, List.set_cons_succ]
          refine ((ih hx).append_left _).trans ?_
          rw [← List.append_assoc, ← List.append_assoc]
          exact List.perm_append_comm.append_right _

theorem set_perm {objs : List (Option DevObj)} {x : Nat} (hx : x < objs.length) (o : Option DevObj) :
    ((objs.set x o).flatMap ownedBy).Perm (ownedBy o ++ (objs.set x none).flatMap ownedBy) := by
  have h := objs_perm (objs := objs.set x o) (x := x) (o := o) (by simp [hx])
  rwa [List.set_set] at h

/-- The objects of a program have exactly the memory in use. -/
def Accounted (P : DevProgram) : Prop :=
  P.heap.live.Perm (P.objs.flatMap ownedBy) ∧ ∀ t, some (DevObj.tensor t) ∈ P.objs → t.Sound

theorem at_some {P : DevProgram} {x : Nat} {o : DevObj} (h : P.at x = some o) : P.objs[x]? = some (some o) := by
  unfold DevProgram.at at h
  cases e : P.objs[x]? with
  | none => simp [e] at h
  | some v => simp [e] at h; rw [h]

theorem at_mem {P : DevProgram} {x : Nat} {o : DevObj} (h : P.at x = some o) : some o ∈ P.objs :=
  List.mem_of_getElem? (at_some h)

theorem at_lt {P : DevProgram} {x : Nat} {o : DevObj} (h : P.at x = some o) : x < P.objs.length := by
  have := at_some h
  by_contra hc
  rw [List.getElem?_eq_none (by omega)] at this
  cases this

/-- What is at another position stays. -/
theorem at_rest {P : DevProgram} {x y : Nat} {o : DevObj} (h : P.at y = some o) (hxy : x ≠ y) :
    ∀ r ∈ ownedBy (some o), r ∈ (P.objs.set x none).flatMap ownedBy := by
  intro r hr
  rw [List.mem_flatMap]
  refine ⟨some o, List.mem_of_getElem? (i := y) ?_, hr⟩
  rw [List.getElem?_set_ne hxy]
  exact at_some h

theorem Accounted.split {P : DevProgram} (hP : Accounted P) {x : Nat} {o : DevObj} (h : P.at x = some o) :
    P.heap.live.Perm (ownedBy (some o) ++ (P.objs.set x none).flatMap ownedBy) :=
  hP.1.trans (objs_perm (at_some h))

/-- A new state of the tensor at `x`. -/
theorem Accounted.put {P : DevProgram} (hP : Accounted P) {x : Nat} (hx : x < P.objs.length) {s : DevHeap × DevObject}
    (hs : Holding s ((P.objs.set x none).flatMap ownedBy)) : Accounted ⟨s.1, P.objs.set x (some (.tensor s.2))⟩ := by
  refine ⟨hs.1.trans (set_perm hx (some (.tensor s.2))).symm, ?_⟩
  intro t ht
  rcases List.mem_or_eq_of_mem_set ht with h | h
  · exact hP.2 t h
  · simp only [Option.some.injEq, DevObj.tensor.injEq] at h
    rw [h]
    exact hs.2

/-- A new object. -/
theorem Accounted.add {P : DevProgram} (hP : Accounted P) {h : DevHeap} {o : Option DevObj}
    (hp : h.live.Perm (ownedBy o ++ P.objs.flatMap ownedBy)) (hs : ∀ t, o = some (.tensor t) → t.Sound) :
    Accounted ⟨h, P.objs ++ [o]⟩ := by
  refine ⟨?_, ?_⟩
  · rw [List.flatMap_append, List.flatMap_singleton]
    exact hp.trans List.perm_append_comm
  · intro t ht
    rw [List.mem_append, List.mem_singleton] at ht
    exact ht.elim (hP.2 t) fun h => hs t h.symm

/-- Without the object at `x`. -/
theorem Accounted.drop {P : DevProgram} (hP : Accounted P) {x : Nat} {h : DevHeap}
    (hp : h.live.Perm ((P.objs.set x none).flatMap ownedBy)) : Accounted ⟨h, P.objs.set x none⟩ := by
  refine ⟨hp, ?_⟩
  intro t ht
  rcases List.mem_or_eq_of_mem_set ht with h | h
  · exact hP.2 t h
  · cases h

end Einsums
