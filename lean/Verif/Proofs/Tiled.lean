import Verif.Model.Tiled
import Verif.Spec.TiledTensor
import Verif.Proofs.Tensor
import Verif.Proofs.Flatten
import Mathlib.Data.List.Nodup
/-
Lemmas about tiled tensors.
-/
namespace Einsums
open Spec Model

/-! ### Association lists -/

section lookup
variable {κ α : Type} [BEq κ] [LawfulBEq κ]

theorem lookup_mem [DecidableEq κ] {l : List (κ × α)} {k : κ} {t : α} (h : l.lookup k = some t) : (k, t) ∈ l := by
  induction l with
  | nil => simp at h
  | cons p l ih =>
    obtain ⟨a, b⟩ := p
    rw [List.lookup_cons] at h
    by_cases e : k = a
    · subst e; simp at h; simp [h]
    · rw [show (k == a) = false by simpa using e] at h
      simp [ih h]

theorem lookup_of_mem [DecidableEq κ] {l : List (κ × α)} {k : κ} {t : α} (hn : (l.map (·.1)).Nodup) (h : (k, t) ∈ l) :
    l.lookup k = some t := by
  induction l with
  | nil => simp at h
  | cons p l ih =>
    obtain ⟨a, b⟩ := p
    rw [List.lookup_cons]
    simp only [List.map_cons, List.nodup_cons] at hn
    by_cases e : k = a
    · subst e
      rw [show (k == k) = true by simp]
      rcases List.mem_cons.1 h with h | h
      · simpa using (Prod.mk.inj h).2.symm
      · exact (hn.1 (List.mem_map.2 ⟨_, h, rfl⟩)).elim
    · rw [show (k == a) = false by simpa using e]
      rcases List.mem_cons.1 h with h | h
      · exact (e (Prod.mk.inj h).1).elim
      · exact ih hn.2 h

theorem lookup_eq_none [DecidableEq κ] {l : List (κ × α)} {k : κ} : l.lookup k = none ↔ k ∉ l.map (·.1) := by
  induction l with
  | nil => simp
  | cons p l ih =>
    obtain ⟨a, b⟩ := p
    rw [List.lookup_cons]
    by_cases e : k = a
    · subst e; simp
    · rw [show (k == a) = false by simpa using e]
      simpa [e] using ih

theorem lookup_set [DecidableEq κ] {l : List (κ × α)} (k k' : κ) (t : α) :
    (l.map fun p => if p.1 = k then (p.1, t) else p).lookup k' =
      if k' = k then (l.lookup k).map fun _ => t else l.lookup k' := by
  induction l with
  | nil => simp
  | cons p l ih =>
    obtain ⟨a, b⟩ := p
    simp only [List.map_cons]
    by_cases e : a = k
    · subst e
      rw [if_pos rfl, List.lookup_cons, List.lookup_cons, List.lookup_cons]
      by_cases e' : k' = a
      · subst e'; simp
      · rw [show (k' == a) = false by simpa using e']
        simp [e', ih]
    · rw [if_neg e, List.lookup_cons]
      rw [ih]
      by_cases e' : k' = k
      · subst e'
        rw [if_pos rfl, if_pos rfl, List.lookup_cons, show (k' == a) = false by simpa using fun h => e h.symm]
      · rw [if_neg e', if_neg e', List.lookup_cons]

omit [LawfulBEq κ] in
theorem lookup_mapVal {β : Type} {l : List (κ × α)} (g : α → β) (k : κ) :
    (l.map fun p => (p.1, g p.2)).lookup k = (l.lookup k).map g := by
  induction l with
  | nil => simp
  | cons p l ih =>
    obtain ⟨a, b⟩ := p
    simp only [List.map_cons, List.lookup_cons, ih]
    cases k == a <;> rfl

omit [BEq κ] [LawfulBEq κ] in
theorem keys_set [DecidableEq κ] {l : List (κ × α)} (k : κ) (t : α) :
    (l.map fun p => if p.1 = k then (p.1, t) else p).map (·.1) = l.map (·.1) := by
  rw [List.map_map]
  apply List.map_congr_left
  intro p _
  simp only [Function.comp]
  split <;> rfl

end lookup

/-! ### Partitions -/

theorem offsetsLoop_snd (ss : List Nat) (s : Nat) : (offsetsLoop ss s).2 = s + ss.sum := by
  induction ss generalizing s with
  | nil => simp [offsetsLoop]
  | cons a ss ih => simp [offsetsLoop, ih]; omega

theorem offsetsLoop_length (ss : List Nat) (s : Nat) : (offsetsLoop ss s).1.length = ss.length := by
  induction ss generalizing s with
  | nil => simp [offsetsLoop]
  | cons a ss ih => simp [offsetsLoop, ih]

theorem offsetsLoop_getElem (ss : List Nat) (s t : Nat) (h : t < ss.length) :
    (offsetsLoop ss s).1[t]? = some (s + (ss.take t).sum) := by
  induction ss generalizing s t with
  | nil => simp at h
  | cons a ss ih =>
    cases t with
    | zero => simp [offsetsLoop]
    | succ t =>
      simp only [offsetsLoop, List.getElem?_cons_succ, List.take_succ_cons, List.sum_cons]
      rw [ih (s + a) t (by simpa using h)]
      simp; omega

theorem offsets_getD {ss : List Nat} {t : Nat} (h : t < ss.length) : (offsetsLoop ss 0).1.getD t 0 = tileStart ss t := by
  rw [List.getD_eq_getElem?_getD, offsetsLoop_getElem _ _ _ h]
  simp [tileStart]

theorem tileStart_succ {ss : List Nat} {t s : Nat} (h : ss[t]? = some s) : tileStart ss (t + 1) = tileStart ss t + s := by
  unfold tileStart
  obtain ⟨h1, h2⟩ := List.getElem?_eq_some_iff.1 h
  rw [List.take_succ_eq_append_getElem h1, List.sum_append]
  simp [h2]

theorem tileStart_mono {ss : List Nat} {t t' : Nat} (h : t ≤ t') : tileStart ss t ≤ tileStart ss t' := by
  unfold tileStart
  obtain ⟨k, rfl⟩ := Nat.exists_eq_add_of_le h
  rw [List.take_add, List.sum_append]
  omega

theorem tileStart_le_sum (ss : List Nat) (t : Nat) : tileStart ss t ≤ ss.sum := by
  conv_rhs => rw [← List.take_append_drop t ss, List.sum_append]
  unfold tileStart; omega

theorem exists_tile {ss : List Nat} {j : Nat} (h : j < ss.sum) :
    ∃ t s, ss[t]? = some s ∧ tileStart ss t ≤ j ∧ j < tileStart ss t + s := by
  induction ss generalizing j with
  | nil => simp at h
  | cons a ss ih =>
    by_cases c : j < a
    · exact ⟨0, a, rfl, by simp [tileStart], by simpa [tileStart] using c⟩
    · obtain ⟨t, s, h1, h2, h3⟩ := ih (j := j - a) (by simp at h; omega)
      refine ⟨t + 1, s, by simpa using h1, ?_, ?_⟩ <;> simp only [tileStart, List.take_succ_cons, List.sum_cons] at * <;> omega

theorem tile_unique {ss : List Nat} {j t t' s s' : Nat} (h : ss[t]? = some s) (h' : ss[t']? = some s')
    (a : tileStart ss t ≤ j) (b : j < tileStart ss t + s) (a' : tileStart ss t' ≤ j) (b' : j < tileStart ss t' + s') :
    t = t' := by
  rcases Nat.lt_trichotomy t t' with c | c | c
  · have := tileStart_mono (ss := ss) (show t + 1 ≤ t' from c)
    rw [tileStart_succ h] at this; omega
  · exact c
  · have := tileStart_mono (ss := ss) (show t' + 1 ≤ t from c)
    rw [tileStart_succ h'] at this; omega

/-- One axis of `tile_of`. -/
theorem tileOfAxis_ok {ss : List Nat} {i : Int} {j : Nat} (h : pyIndex ss.sum i = some j) :
    ∃ t s, tileOfAxis (offsetsLoop ss 0).1 (offsetsLoop ss 0).2 i = .ok t ∧ ss[t]? = some s ∧
      tileStart ss t ≤ j ∧ j < tileStart ss t + s := by
  have hj : (if i < 0 then i + (ss.sum : Int) else i) = j ∧ j < ss.sum := by
    unfold pyIndex at h
    split at h
    · rename_i c; simp at h; rw [if_neg (by omega)]; omega
    · split at h
      · rename_i c; simp at h; rw [if_pos (by omega)]; omega
      · simp at h
  obtain ⟨t, s, h1, h2, h3⟩ := exists_tile hj.2
  obtain ⟨hlt, hs⟩ := List.getElem?_eq_some_iff.1 h1
  have hne : ss ≠ [] := by rintro rfl; simp at hlt
  have hpos : 0 < ss.length := List.length_pos_iff.2 hne
  have hlast : (offsetsLoop ss 0).1.getLast? = some (tileStart ss (ss.length - 1)) := by
    rw [List.getLast?_eq_getElem?, offsetsLoop_length, offsetsLoop_getElem _ _ _ (by omega)]
    simp [tileStart]
  unfold tileOfAxis
  rw [offsetsLoop_snd, Nat.zero_add]
  simp only [hj.1]
  rw [if_neg (by omega), hlast]
  simp only
  by_cases c : (j : Int) ≥ (tileStart ss (ss.length - 1) : Nat)
  · rw [if_pos c, offsetsLoop_length]
    refine ⟨ss.length - 1, ss[ss.length - 1], rfl, List.getElem?_eq_getElem _, by omega, ?_⟩
    have := tileStart_succ (ss := ss) (t := ss.length - 1) (List.getElem?_eq_getElem (by omega))
    rw [← this]
    have e : ss.length - 1 + 1 = ss.length := by omega
    rw [e]
    simp only [tileStart, List.take_length]
    exact hj.2
  · rw [if_neg c, offsetsLoop_length]
    have htl : t < ss.length - 1 := by
      rcases Nat.lt_or_ge t (ss.length - 1) with h | h
      · exact h
      · have : t = ss.length - 1 := by omega
        subst this; omega
    cases hf : (List.range (ss.length - 1)).find? (fun k => decide ((j : Int) < (((offsetsLoop ss 0).1.getD (k + 1) 0 : Nat) : Int)) &&
          decide ((j : Int) ≥ (((offsetsLoop ss 0).1.getD k 0 : Nat) : Int))) with
    | none =>
      exfalso
      have := List.find?_eq_none.1 hf t (List.mem_range.2 htl)
      rw [offsets_getD (by omega), offsets_getD (by omega), tileStart_succ h1] at this
      simp only [Bool.and_eq_true, decide_eq_true_eq, not_and] at this
      omega
    | some k =>
      have h4 := List.find?_some hf
      have h5 := List.mem_range.1 (List.mem_of_find?_eq_some hf)
      rw [offsets_getD (by omega), offsets_getD (by omega)] at h4
      simp only [Bool.and_eq_true, decide_eq_true_eq] at h4
      refine ⟨k, ss[k]'(by omega), rfl, List.getElem?_eq_getElem _, by omega, ?_⟩
      have := tileStart_succ (ss := ss) (t := k) (List.getElem?_eq_getElem (by omega))
      omega

theorem tileOfAxis_error {ss : List Nat} {i : Int} (h : pyIndex ss.sum i = none) :
    (tileOfAxis (offsetsLoop ss 0).1 (offsetsLoop ss 0).2 i).isError = true := by
  unfold tileOfAxis
  rw [offsetsLoop_snd, Nat.zero_add]
  simp only
  rw [if_pos]
  · rfl
  · unfold pyIndex at h
    split at h
    · simp at h
    · split at h
      · simp at h
      · split <;> omega

theorem tileOfAxes_ok {parts : List (List Nat)} {idx : List Int} {j : List Nat}
    (h : pyIndices (fullDims parts) idx = some j) :
    ∃ t, tileOfAxes (parts.map fun s => (offsetsLoop s 0).1) (parts.map fun s => (offsetsLoop s 0).2) idx = .ok t ∧
      InTile parts t j := by
  induction parts generalizing idx j with
  | nil =>
    cases idx with
    | nil => simp [fullDims, pyIndices] at h; subst h; exact ⟨[], rfl, trivial⟩
    | cons => simp [fullDims, pyIndices] at h
  | cons ss parts ih =>
    cases idx with
    | nil => simp [fullDims, pyIndices] at h
    | cons i idx =>
      simp only [fullDims, List.map_cons, pyIndices, Option.bind_eq_bind, Option.bind_eq_some_iff] at h
      obtain ⟨a, h1, as, h2, h3⟩ := h
      obtain ⟨t, s, e1, e2, e3, e4⟩ := tileOfAxis_ok h1
      obtain ⟨ts, e5, e6⟩ := ih h2
      refine ⟨t :: ts, ?_, ?_⟩
      · simp only [List.map_cons, tileOfAxes, e1, e5, Outcome.ok_bind]; rfl
      · simp only [Option.pure_def, Option.some.injEq] at h3
        subst h3
        exact ⟨⟨s, e2, e3, e4⟩, e6⟩

theorem tileOfAxes_error {parts : List (List Nat)} {idx : List Int}
    (h : pyIndices (fullDims parts) idx = none) :
    (tileOfAxes (parts.map fun s => (offsetsLoop s 0).1) (parts.map fun s => (offsetsLoop s 0).2) idx).isError
      = true := by
  induction parts generalizing idx with
  | nil =>
    cases idx with
    | nil => simp [fullDims, pyIndices] at h
    | cons => rfl
  | cons ss parts ih =>
    cases idx with
    | nil => rfl
    | cons i idx =>
      simp only [fullDims, List.map_cons, pyIndices, Option.bind_eq_bind] at h
      simp only [List.map_cons, tileOfAxes]
      cases h1 : pyIndex ss.sum i with
      | none =>
        have := tileOfAxis_error h1
        cases h2 : tileOfAxis (offsetsLoop ss 0).1 (offsetsLoop ss 0).2 i with
        | ok a => rw [h2] at this; simp [Outcome.isError] at this
        | ub a => rw [h2] at this; simp [Outcome.isError] at this
        | error a => rfl
      | some a =>
        obtain ⟨t, s, e1, _⟩ := tileOfAxis_ok h1
        rw [e1, Outcome.ok_bind]
        rw [h1] at h
        cases h3 : pyIndices (parts.map List.sum) idx with
        | some b => rw [h3] at h; simp at h
        | none =>
          have := ih h3
          cases h2 : tileOfAxes (parts.map fun s => (offsetsLoop s 0).1) (parts.map fun s => (offsetsLoop s 0).2) idx with
          | ok a => rw [h2] at this; simp [Outcome.isError] at this
          | ub a => rw [h2] at this; simp [Outcome.isError] at this
          | error a => rfl

/-! ### Tiles and elements -/

theorem inTile_grid {parts : List (List Nat)} {t j : List Nat} (h : InTile parts t j) : InBox t (gridDims parts) := by
  induction parts generalizing t j with
  | nil => match t, j, h with | [], [], _ => trivial
  | cons ss parts ih =>
    match t, j, h with
    | t :: ts, j :: js, h =>
      obtain ⟨⟨s, h1, _⟩, h2⟩ := h
      exact ⟨(List.getElem?_eq_some_iff.1 h1).1, ih h2⟩

theorem inTile_unique {parts : List (List Nat)} {t t' j : List Nat} (h : InTile parts t j) (h' : InTile parts t' j) :
    t = t' := by
  induction parts generalizing t t' j with
  | nil => match t, t', j, h, h' with | [], [], [], _, _ => rfl
  | cons ss parts ih =>
    match t, t', j, h, h' with
    | t :: ts, t' :: ts', j :: js, h, h' =>
      obtain ⟨⟨s, h1, h2, h3⟩, h4⟩ := h
      obtain ⟨⟨s', h1', h2', h3'⟩, h4'⟩ := h'
      rw [tile_unique h1 h1' h2 h3 h2' h3', ih h4 h4']

/-- Position inside the tile. -/
def tileLocal : List (List Nat) → List Nat → List Nat → List Nat
  | ss :: parts, t :: ts, j :: js => (j - tileStart ss t) :: tileLocal parts ts js
  | _, _, _ => []

theorem inTile_local {parts : List (List Nat)} {t j : List Nat} (h : InTile parts t j) :
    InBox (tileLocal parts t j) (tileDims parts t) ∧ tileGlobal parts t (tileLocal parts t j) = j := by
  induction parts generalizing t j with
  | nil => match t, j, h with | [], [], _ => exact ⟨trivial, rfl⟩
  | cons ss parts ih =>
    match t, j, h with
    | t :: ts, j :: js, h =>
      obtain ⟨⟨s, h1, h2, h3⟩, h4⟩ := h
      obtain ⟨e1, e2⟩ := ih h4
      simp only [tileLocal, tileDims, tileGlobal, e2, List.cons.injEq, and_true]
      refine ⟨⟨?_, e1⟩, by omega⟩
      rw [List.getD_eq_getElem?_getD, h1]
      simp only [Option.getD_some]; omega

theorem inTile_global {parts : List (List Nat)} {t l : List Nat} (h : InBox t (gridDims parts))
    (hl : InBox l (tileDims parts t)) : InTile parts t (tileGlobal parts t l) := by
  induction parts generalizing t l with
  | nil =>
    match t, h with
    | [], _ => match l, hl with | [], _ => trivial
  | cons ss parts ih =>
    match t, h with
    | t :: ts, h =>
      match l, hl with
      | l :: ls, hl =>
        refine ⟨⟨ss[t]'h.1, List.getElem?_eq_getElem _, by omega, ?_⟩, ih h.2 hl.2⟩
        have := hl.1
        rw [List.getD_eq_getElem?_getD, List.getElem?_eq_getElem h.1] at this
        simp only [Option.getD_some] at this
        omega

theorem tileLocal_global {parts : List (List Nat)} {t l : List Nat} (h : InBox t (gridDims parts))
    (hl : InBox l (tileDims parts t)) : tileLocal parts t (tileGlobal parts t l) = l := by
  induction parts generalizing t l with
  | nil =>
    match t, h with
    | [], _ => match l, hl with | [], _ => rfl
  | cons ss parts ih =>
    match t, h with
    | t :: ts, h =>
      match l, hl with
      | l :: ls, hl =>
        simp only [tileGlobal, tileLocal, ih h.2 hl.2]
        congr 1; omega

theorem inTile_full {parts : List (List Nat)} {t j : List Nat} (h : InTile parts t j) : InBox j (fullDims parts) := by
  induction parts generalizing t j with
  | nil => match t, j, h with | [], [], _ => trivial
  | cons ss parts ih =>
    match t, j, h with
    | t :: ts, j :: js, h =>
      obtain ⟨⟨s, h1, h2, h3⟩, h4⟩ := h
      refine ⟨?_, ih h4⟩
      have := tileStart_le_sum ss (t + 1)
      rw [tileStart_succ h1] at this; omega

theorem exists_inTile {parts : List (List Nat)} {j : List Nat} (h : InBox j (fullDims parts)) :
    ∃ t, InTile parts t j := by
  obtain ⟨t, _, h⟩ := tileOfAxes_ok (pyIndices_toIdx h)
  exact ⟨t, h⟩

theorem tileGlobal_inj {parts : List (List Nat)} {t l t' l' : List Nat} (h : InBox t (gridDims parts))
    (hl : InBox l (tileDims parts t)) (h' : InBox t' (gridDims parts)) (hl' : InBox l' (tileDims parts t'))
    (e : tileGlobal parts t l = tileGlobal parts t' l') : t = t' ∧ l = l' := by
  have h1 := inTile_global h hl
  have h2 := inTile_global h' hl'
  rw [← e] at h2
  have h3 := inTile_unique h1 h2
  subst h3
  refine ⟨rfl, ?_⟩
  rw [← tileLocal_global h hl, e, tileLocal_global h hl']

theorem tileDims_length {parts : List (List Nat)} {t : List Nat} (h : InBox t (gridDims parts)) :
    (tileDims parts t).length = parts.length := by
  induction parts generalizing t with
  | nil => match t, h with | [], _ => rfl
  | cons ss parts ih => match t, h with | t :: ts, h => simp [tileDims, ih h.2]

theorem tileDims_zip (parts : List (List Nat)) (t : List Nat) :
    ((parts.zip t).map fun p => p.1.getD p.2 0) = tileDims parts t := by
  induction parts generalizing t with
  | nil => simp [tileDims]
  | cons ss parts ih =>
    cases t with
    | nil => simp [tileDims]
    | cons t ts => simp only [List.zip_cons_cons, List.map_cons, tileDims, ih]

/-- `InTile` of a global index in terms of local ones, with `localIdx`. -/
theorem localIdx_eq {parts : List (List Nat)} {idx : List Int} {t j : List Nat}
    (h : pyIndices (fullDims parts) idx = some j) (ht : InTile parts t j) :
    ((normIdx (parts.map fun s => (offsetsLoop s 0).2) idx).zip
      ((parts.map fun s => (offsetsLoop s 0).1).zip t)).map (fun p => p.1 - (p.2.1.getD p.2.2 0 : Int))
      = toIdx (tileLocal parts t j) := by
  induction parts generalizing idx j t with
  | nil => match t, j, ht with | [], [], _ => simp [tileLocal, toIdx]
  | cons ss parts ih =>
    match t, j, ht with
    | t :: ts, j :: js, ht =>
      cases idx with
      | nil => simp [fullDims, pyIndices] at h
      | cons i idx =>
        obtain ⟨⟨s, h1, h2, h3⟩, h4⟩ := ht
        simp only [fullDims, List.map_cons, pyIndices, Option.bind_eq_bind, Option.bind_eq_some_iff] at h
        obtain ⟨a, g1, as, g2, g3⟩ := h
        simp only [Option.pure_def, Option.some.injEq, List.cons.injEq] at g3
        obtain ⟨rfl, rfl⟩ := g3
        simp only [List.map_cons, normIdx, List.zip_cons_cons, tileLocal, toIdx]
        rw [ih g2 h4]
        have hlt := (List.getElem?_eq_some_iff.1 h1).1
        rw [offsets_getD hlt, offsetsLoop_snd]
        simp only [toIdx, List.cons.injEq, and_true]
        have : (if i < 0 then ((0 + ss.sum : Nat) : Int) + i else i) = a := by
          unfold pyIndex at g1
          split at g1
          · simp at g1; rw [if_neg (by omega)]; omega
          · split at g1
            · simp at g1; rw [if_pos (by omega)]; push_cast; omega
            · simp at g1
        rw [this]
        simp only [Int.ofNat_eq_natCast]
        omega

/-! ### The invariant -/

variable {R : Type}

theorem offsetsLoop_fst (s : List Nat) : (offsetsLoop s 0).1 = (List.range s.length).map (tileStart s) := by
  apply List.ext_getElem?
  intro t
  by_cases h : t < s.length
  · rw [offsetsLoop_getElem _ _ _ h, List.getElem?_map, List.getElem?_range h]
    simp [tileStart]
  · rw [List.getElem?_eq_none (by rw [offsetsLoop_length]; omega), List.getElem?_eq_none (by simp; omega)]

theorem Model.Tiled.WF.offsets' {T : Tiled R} (w : T.WF) : T.offsets = T.sizes.map fun s => (offsetsLoop s 0).1 := by
  rw [w.offsets]
  apply List.map_congr_left
  intro s _
  rw [offsetsLoop_fst]

theorem fullDims_eq (parts : List (List Nat)) : fullDims parts = parts.map fun s => (offsetsLoop s 0).2 := by
  unfold fullDims
  apply List.map_congr_left
  intro s _
  rw [offsetsLoop_snd, Nat.zero_add]

theorem Model.Tiled.WF.dims' {T : Tiled R} (w : T.WF) : T.dims = T.sizes.map fun s => (offsetsLoop s 0).2 := by
  rw [w.dims, fullDims_eq]

theorem wf_mk' {parts : List (List Nat)} (h : parts ≠ []) : (Tiled.mk' parts : Tiled R).WF :=
  ⟨h, by simp only [Tiled.mk']; exact List.map_congr_left fun s _ => offsetsLoop_fst s,
    by simp only [Tiled.mk', fullDims_eq], by simp [Tiled.mk'], by simp [Tiled.mk']⟩

theorem tileCoords_eq {T : Tiled R} {idx : List Int} {k : List Nat}
    (h : pyIndices (gridDims T.sizes) idx = some k) : T.tileCoords idx = .ok k := by
  unfold Tiled.tileCoords
  have key : ∀ (parts : List (List Nat)) (idx : List Int) (k : List Nat),
      pyIndices (gridDims parts) idx = some k →
      normIdx (parts.map List.length) idx = toIdx k ∧ k.length = parts.length ∧
      ((toIdx k).zip parts).all (fun p => decide (0 ≤ p.1) && decide (p.1 < p.2.length)) = true := by
    intro parts
    induction parts with
    | nil =>
      intro idx k h
      cases idx with
      | nil => simp [gridDims, pyIndices] at h; subst h; simp [normIdx, toIdx]
      | cons => simp [gridDims, pyIndices] at h
    | cons ss parts ih =>
      intro idx k h
      cases idx with
      | nil => simp [gridDims, pyIndices] at h
      | cons i idx =>
        simp only [gridDims, List.map_cons, pyIndices, Option.bind_eq_bind, Option.bind_eq_some_iff] at h
        obtain ⟨a, g1, as, g2, g3⟩ := h
        simp only [Option.pure_def, Option.some.injEq] at g3
        subst g3
        obtain ⟨e1, e2, e3⟩ := ih _ _ g2
        have : (if i < 0 then ((ss.length : Nat) : Int) + i else i) = a ∧ a < ss.length := by
          unfold pyIndex at g1
          split at g1
          · simp at g1; rw [if_neg (by omega)]; omega
          · split at g1
            · simp at g1; rw [if_pos (by omega)]; omega
            · simp at g1
        refine ⟨?_, by simp [e2], ?_⟩
        · simp only [List.map_cons, normIdx, this.1, e1, toIdx]; rfl
        · simp only [toIdx, List.map_cons, List.zip_cons_cons, List.all_cons] at e3 ⊢
          rw [e3]
          simp [this.2]
  obtain ⟨e1, e2, e3⟩ := key _ _ _ h
  simp only [e1]
  rw [if_pos ⟨by simp [toIdx, e2], e3⟩]
  simp [toIdx, Function.comp_def]

theorem hasTile_eq {T : Tiled R} {k : List Nat} (h : InBox k (gridDims T.sizes)) :
    T.hasTile (toIdx k) = (T.tiles.lookup k).isSome := by
  unfold Tiled.hasTile
  rw [tileCoords_eq (pyIndices_toIdx h)]

theorem hasTileContainer_eq {T : Tiled R} {k : List Nat} (h : InBox k (gridDims T.sizes)) :
    T.hasTileContainer (toIdx k) = (T.tiles.lookup k).isSome := by
  unfold Tiled.hasTileContainer
  rw [if_neg (by simp [toIdx]), hasTile_eq h]

/-- Reading element `l` of tile `t`. -/
theorem get_tile [Zero R] {T : Tiled R} (w : T.WF) {idx : List Int} {t j : List Nat}
    (h : pyIndices T.dims idx = some j) (ht : InTile T.sizes t j) :
    T.get idx = match T.tiles.lookup t with
      | some τ => τ.read (toIdx (tileLocal T.sizes t j))
      | none => .ok 0 := by
  rw [w.dims] at h
  obtain ⟨t', e1, e2⟩ := tileOfAxes_ok h
  have := inTile_unique ht e2
  subst this
  have hk := inTile_grid ht
  unfold Tiled.get Tiled.tileOf
  rw [w.offsets', w.dims', e1, Outcome.ok_bind, hasTile_eq hk]
  unfold Tiled.tileConst
  rw [tileCoords_eq (pyIndices_toIdx hk), Outcome.ok_bind]
  unfold Tiled.at
  cases hl : T.tiles.lookup t with
  | none => simp
  | some τ =>
    simp only [Option.isSome_some, if_true, Outcome.ok_bind]
    unfold Tiled.localIdx
    rw [w.offsets', w.dims', localIdx_eq h ht]

/-- The tiles of `T` hold the function `f` of the multi-index. -/
def Model.Tiled.Holds [Zero R] (T : Tiled R) (f : List Nat → R) : Prop :=
  ∀ t, InBox t (gridDims T.sizes) →
    (∀ τ, T.tiles.lookup t = some τ → τ.Represents fun l => f (tileGlobal T.sizes t l)) ∧
    (T.tiles.lookup t = none → ∀ l, InBox l (tileDims T.sizes t) → f (tileGlobal T.sizes t l) = 0)

theorem holds_get [Zero R] {T : Tiled R} (w : T.WF) {f : List Nat → R} (h : T.Holds f) {idx : List Int} {j : List Nat}
    (hi : pyIndices T.dims idx = some j) : T.get idx = .ok (f j) := by
  have hj : InBox j (fullDims T.sizes) := by rw [← w.dims]; exact (pyIndices_inBox hi)
  obtain ⟨t, ht⟩ := exists_inTile hj
  obtain ⟨b, e⟩ := inTile_local ht
  rw [get_tile w hi ht]
  obtain ⟨h1, h2⟩ := h t (inTile_grid ht)
  cases hl : T.tiles.lookup t with
  | none => simp only; rw [← h2 hl _ b, e]
  | some τ =>
    simp only
    have := h1 τ hl _ (by rw [(w.tiles t τ hl).2.2]; exact b)
    simp only [e] at this
    exact this

theorem holds_iff [Zero R] {T : Tiled R} (w : T.WF) {f : List Nat → R} :
    T.Holds f ↔ ∀ j, InBox j T.dims → T.get (toIdx j) = .ok (f j) := by
  constructor
  · intro h j hj
    exact holds_get w h (pyIndices_toIdx hj)
  · intro h t ht
    have key : ∀ l, InBox l (tileDims T.sizes t) →
        (match T.tiles.lookup t with
          | some τ => τ.read (toIdx l)
          | none => .ok 0) = Outcome.ok (f (tileGlobal T.sizes t l)) := by
      intro l hl
      have h1 := inTile_global ht hl
      have h2 : InBox (tileGlobal T.sizes t l) T.dims := by rw [w.dims]; exact inTile_full h1
      rw [← h _ h2, get_tile w (pyIndices_toIdx h2) h1, tileLocal_global ht hl]
    constructor
    · intro τ hτ l hl
      rw [(w.tiles t τ hτ).2.2] at hl
      have := key l hl
      rw [hτ] at this
      exact this
    · intro hn l hl
      have := key l hl
      rw [hn] at this
      simp at this
      exact this.symm

/-! ### Operations -/

theorem lookup_addTile [Zero R] {T : Tiled R} {k : List Nat} (hn : T.tiles.lookup k = none) (k' : List Nat) :
    (T.addTile k).tiles.lookup k' = if k' = k then some (Strided.mk' (fun _ => 0) (tileDims T.sizes k)) else T.tiles.lookup k' := by
  unfold Tiled.addTile
  rw [hn]
  simp only [tileDims_zip]
  rw [List.lookup_cons]
  by_cases e : k' = k
  · subst e; simp
  · rw [show (k' == k) = false by simpa using e, if_neg e]

theorem zeros_represents [Zero R] {d : List Nat} (h : d ≠ []) : (Strided.mk' (fun _ => (0 : R)) d).Represents fun _ => 0 := by
  have t := isTensor_mk' (fun _ => (0 : R)) h
  rw [t.represents_iff]
  apply List.ext_getElem
  · rw [List.length_map, length_box, t.length]
  · intro n h1 h2
    simp [Strided.mk', vecResize]

theorem addTile_wf [Zero R] {T : Tiled R} (w : T.WF) {k : List Nat} (hk : InBox k (gridDims T.sizes))
    (hn : T.tiles.lookup k = none) : (T.addTile k).WF ∧ (T.addTile k).sizes = T.sizes ∧ (T.addTile k).dims = T.dims := by
  have hs : (T.addTile k).sizes = T.sizes := by unfold Tiled.addTile; rw [hn]
  have ho : (T.addTile k).offsets = T.offsets := by unfold Tiled.addTile; rw [hn]
  have hd : (T.addTile k).dims = T.dims := by unfold Tiled.addTile; rw [hn]
  refine ⟨⟨by rw [hs]; exact w.rank, by rw [ho, hs]; exact w.offsets, by rw [hd, hs]; exact w.dims, ?_, ?_⟩, hs, hd⟩
  · have : (T.addTile k).tiles.map (·.1) = k :: T.tiles.map (·.1) := by unfold Tiled.addTile; rw [hn]; rfl
    rw [this, List.nodup_cons]
    exact ⟨lookup_eq_none.1 hn, w.nodup⟩
  · intro k' t h
    rw [lookup_addTile hn] at h
    rw [hs]
    split at h
    · rename_i e
      subst e
      have hd : tileDims T.sizes k' ≠ [] := by
        intro e
        have := tileDims_length hk
        rw [e] at this
        exact w.rank (List.length_eq_zero_iff.1 (by simpa using this.symm))
      injection h with h
      subst h
      exact ⟨hk, isTensor_mk' _ hd, rfl⟩
    · exact w.tiles k' t h

theorem addTile_holds [Zero R] {T : Tiled R} (w : T.WF) {k : List Nat} (hk : InBox k (gridDims T.sizes))
    (hn : T.tiles.lookup k = none) {f : List Nat → R} (h : T.Holds f) : (T.addTile k).Holds f := by
  obtain ⟨_, hs, _⟩ := addTile_wf w hk hn
  intro t ht
  rw [hs] at ht ⊢
  rw [lookup_addTile hn]
  by_cases e : t = k
  · subst e
    rw [if_pos rfl]
    refine ⟨?_, by simp⟩
    intro τ hτ
    injection hτ with hτ
    subst hτ
    have hd : tileDims T.sizes t ≠ [] := by
      intro e
      have := tileDims_length hk
      rw [e] at this
      exact w.rank (List.length_eq_zero_iff.1 (by simpa using this.symm))
    intro l hl
    rw [zeros_represents hd l hl]
    exact congrArg _ ((h t ht).2 hn l hl).symm
  · rw [if_neg e]; exact h t ht

theorem lookup_setTile {T : Tiled R} (k k' : List Nat) (t : Strided R) :
    (T.setTile k t).tiles.lookup k' = if k' = k then (T.tiles.lookup k).map fun _ => t else T.tiles.lookup k' :=
  lookup_set k k' t

theorem setTile_wf {T : Tiled R} (w : T.WF) {k : List Nat} {t : Strided R} (ht : t.IsTensor)
    (hd : t.dims = tileDims T.sizes k) : (T.setTile k t).WF := by
  refine ⟨w.rank, w.offsets, w.dims, ?_, ?_⟩
  · have : (T.setTile k t).tiles.map (·.1) = T.tiles.map (·.1) := keys_set k t
    rw [this]; exact w.nodup
  · intro k' t' h
    rw [lookup_setTile] at h
    split at h
    · rename_i e
      subst e
      cases hl : T.tiles.lookup k' with
      | none => rw [hl] at h; simp at h
      | some τ =>
        rw [hl] at h
        simp at h
        subst h
        exact ⟨(w.tiles k' τ hl).1, ht, hd⟩
    · exact w.tiles k' t' h

/-- Replacing one tile changes the elements of that tile only. -/
theorem setTile_holds [Zero R] {T : Tiled R} {k : List Nat} {t : Strided R} {f g : List Nat → R} (h : T.Holds f)
    (hex : (T.tiles.lookup k).isSome) (hg : t.Represents fun l => g (tileGlobal T.sizes k l))
    (hfg : ∀ k', InBox k' (gridDims T.sizes) → k' ≠ k → ∀ l, InBox l (tileDims T.sizes k') →
      g (tileGlobal T.sizes k' l) = f (tileGlobal T.sizes k' l)) (w : T.WF) : (T.setTile k t).Holds g := by
  intro k' hk'
  change InBox k' (gridDims T.sizes) at hk'
  rw [lookup_setTile]
  by_cases e : k' = k
  · subst e
    rw [if_pos rfl]
    cases hl : T.tiles.lookup k' with
    | none => rw [hl] at hex; simp at hex
    | some τ =>
      refine ⟨?_, by simp⟩
      intro τ' hτ
      simp at hτ
      subst hτ
      exact hg
  · rw [if_neg e]
    obtain ⟨h1, h2⟩ := h k' hk'
    refine ⟨?_, ?_⟩
    · intro τ hτ l hl
      rw [h1 τ hτ l hl]
      have : InBox l (tileDims T.sizes k') := by rw [← (w.tiles k' τ hτ).2.2]; exact hl
      exact congrArg _ (hfg k' hk' e l this).symm
    · intro hn l hl
      change g (tileGlobal T.sizes k' l) = 0
      rw [hfg k' hk' e l hl]
      exact h2 hn l hl

/-- `tile(...)`: afterwards the tile exists and no element has changed. -/
theorem tile_ok [Zero R] {T : Tiled R} (w : T.WF) {idx : List Int} {k : List Nat}
    (h : pyIndices (gridDims T.sizes) idx = some k) :
    ∃ T', T.tile idx = .ok (T', k) ∧ T'.WF ∧ T'.sizes = T.sizes ∧ T'.dims = T.dims ∧ (T'.tiles.lookup k).isSome ∧
      (∀ f, T.Holds f → T'.Holds f) ∧
      T' = (if (T.tiles.lookup k).isSome then T else T.addTile k) := by
  have hk := pyIndices_inBox h
  unfold Tiled.tile
  rw [tileCoords_eq h, Outcome.ok_bind, hasTile_eq hk]
  cases hl : T.tiles.lookup k with
  | some τ => exact ⟨T, rfl, w, rfl, rfl, by simp [hl], fun _ h => h, rfl⟩
  | none =>
    obtain ⟨w', hs, hd⟩ := addTile_wf w hk hl
    exact ⟨T.addTile k, rfl, w', hs, hd, by rw [lookup_addTile hl]; simp, fun _ h => addTile_holds w hk hl h, rfl⟩

theorem lookup_mapTiles (T : Tiled R) (g : R → R) (k : List Nat) :
    (T.mapTiles g).tiles.lookup k
      = (T.tiles.lookup k).map fun τ => (⟨τ.data.map g, τ.off, τ.dims, τ.strides⟩ : Strided R) :=
  lookup_mapVal (fun τ : Strided R => (⟨τ.data.map g, τ.off, τ.dims, τ.strides⟩ : Strided R)) k

/-- A map over all tiles. -/
theorem mapTiles_wf {T : Tiled R} (w : T.WF) (g : R → R) : (T.mapTiles g).WF := by
  refine ⟨w.rank, w.offsets, w.dims, ?_, ?_⟩
  · have : (T.mapTiles g).tiles.map (·.1) = T.tiles.map (·.1) := by
      unfold Tiled.mapTiles; rw [List.map_map]; rfl
    rw [this]; exact w.nodup
  · intro k t h
    rw [lookup_mapTiles] at h
    cases hl : T.tiles.lookup k with
    | none => rw [hl] at h; simp at h
    | some τ =>
      rw [hl] at h
      simp at h
      subst h
      obtain ⟨h1, h2, h3⟩ := w.tiles k τ hl
      exact ⟨h1, ⟨h2.off, h2.strides, by simpa using h2.length⟩, h3⟩

theorem map_data_represents {t : Strided R} (ht : t.IsTensor) {f : List Nat → R} (hf : t.Represents f) (g : R → R) :
    ({ t with data := t.data.map g } : Strided R).IsTensor ∧
    ({ t with data := t.data.map g } : Strided R).Represents fun l => g (f l) := by
  have ht' : ({ t with data := t.data.map g } : Strided R).IsTensor :=
    ⟨ht.off, ht.strides, by simpa using ht.length⟩
  refine ⟨ht', ?_⟩
  rw [ht'.represents_iff]
  simp only
  rw [ht.represents_iff.1 hf, List.map_map]
  rfl

theorem mapTiles_holds [Zero R] {T : Tiled R} (w : T.WF) (g : R → R) (g0 : g 0 = 0) {f : List Nat → R} (h : T.Holds f) :
    (T.mapTiles g).Holds fun i => g (f i) := by
  intro t ht
  change InBox t (gridDims T.sizes) at ht
  rw [lookup_mapTiles]
  obtain ⟨h1, h2⟩ := h t ht
  cases hl : T.tiles.lookup t with
  | none =>
    refine ⟨by simp, ?_⟩
    intro _ l hb
    change g (f (tileGlobal T.sizes t l)) = 0
    rw [h2 hl l hb, g0]
  | some τ =>
    refine ⟨?_, by simp⟩
    intro τ' e
    simp at e
    subst e
    exact (map_data_represents (w.tiles t τ hl).2.1 (h1 τ hl) g).2

theorem zero_wf {T : Tiled R} (w : T.WF) : T.zero.WF :=
  ⟨w.rank, w.offsets, w.dims, by simp [Tiled.zero], by simp [Tiled.zero]⟩

theorem zero_holds [Zero R] (T : Tiled R) : T.zero.Holds fun _ => 0 := by
  intro t _
  exact ⟨by simp [Tiled.zero], fun _ _ _ => rfl⟩

theorem holds_mk' [Zero R] (parts : List (List Nat)) : (Tiled.mk' parts : Tiled R).Holds fun _ => 0 := by
  intro t _
  exact ⟨by simp [Tiled.mk'], fun _ _ _ => rfl⟩

end Einsums
