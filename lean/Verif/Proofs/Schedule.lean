import Verif.Proofs.Index
import Verif.Model.Tensor
/-
Lemmas about interleavings of threads and about the chunking of compound assignments.
-/
namespace Einsums
open Spec Model

theorem flatten_set_perm {ts : List (List α)} {i : Nat} {x : α} {xs : List α}
    (h : ts[i]? = some (x :: xs)) : ts.flatten.Perm (x :: (ts.set i xs).flatten) := by
  induction ts generalizing i with
  | nil => simp at h
  | cons t ts ih =>
    cases i with
    | zero =>
      simp only [List.getElem?_cons_zero, Option.some.injEq] at h
      subst h
      simp
    | succ i =>
      simp only [List.getElem?_cons_succ] at h
      simp only [List.set_cons_succ, List.flatten_cons]
      exact ((ih h).append_left t).trans List.perm_middle

theorem Spec.Schedule.perm {ts : List (List α)} {s : List α} (h : Schedule ts s) :
    s.Perm ts.flatten := by
  induction h with
  | done h =>
    rw [List.flatten_eq_nil_iff.2 h]
  | step hi _ ih => exact (ih.cons _).trans (flatten_set_perm hi).symm

/-- There is at least one schedule: run the threads one after the other. -/
theorem Spec.Schedule.sequential (ts : List (List α)) : Schedule ts ts.flatten := by
  generalize hn : ts.flatten.length = n
  induction n generalizing ts with
  | zero =>
    have : ts.flatten = [] := List.length_eq_zero_iff.1 hn
    rw [this]
    exact .done (List.flatten_eq_nil_iff.1 this)
  | succ n ih =>
    have key : ∀ ts : List (List α), ts.flatten ≠ [] → ∃ i x xs, ts[i]? = some (x :: xs) ∧
        ts.flatten = x :: (ts.set i xs).flatten := by
      intro ts
      induction ts with
      | nil => simp
      | cons t ts ih2 =>
        intro h
        cases t with
        | nil =>
          simp only [List.flatten_cons, List.nil_append] at h ⊢
          obtain ⟨i, x, xs, h1, h2⟩ := ih2 h
          exact ⟨i + 1, x, xs, by simpa using h1, by simp [h2]⟩
        | cons x xs => exact ⟨0, x, xs, rfl, by simp⟩
    obtain ⟨i, x, xs, h1, h2⟩ := key ts (by intro h; rw [h] at hn; simp at hn)
    rw [h2]
    exact .step h1 (ih _ (by rw [h2] at hn; simpa using hn))

/-- Apply an update at each listed position, in order. -/
def modifyAll (g : Nat → α → α) (s : List Nat) (data : List α) : List α :=
  s.foldl (fun d p => d.modify p (g p)) data

theorem modifyAll_getElem? (g : Nat → α → α) (s : List Nat) (hs : s.Nodup) (data : List α) (p : Nat) :
    (modifyAll g s data)[p]? = if p ∈ s then (data[p]?).map (g p) else data[p]? := by
  induction s generalizing data with
  | nil => simp [modifyAll]
  | cons q s ih =>
    simp only [modifyAll, List.foldl_cons] at ih ⊢
    rw [ih hs.of_cons]
    have hq : q ∉ s := (List.nodup_cons.1 hs).1
    by_cases e : p = q
    · subst e; simp [hq]
    · have : (data.modify q (g q))[p]? = data[p]? := by
        rw [List.getElem?_modify]; simp [Ne.symm e]
      simp [this, e]

theorem length_modifyAll (g : Nat → α → α) (s : List Nat) (data : List α) :
    (modifyAll g s data).length = data.length := by
  induction s generalizing data with
  | nil => rfl
  | cons q s ih =>
    simp only [modifyAll, List.foldl_cons] at ih ⊢
    rw [ih]; simp

theorem modifyAll_full (g : Nat → α → α) (s : List Nat) (data : List α)
    (hs : s.Perm (List.range data.length)) : modifyAll g s data = data.mapIdx g := by
  apply List.ext_getElem?
  intro p
  rw [modifyAll_getElem? g s (hs.nodup_iff.2 List.nodup_range), List.getElem?_mapIdx]
  split
  · rfl
  · rename_i h
    rw [hs.mem_iff, List.mem_range] at h
    rw [List.getElem?_eq_none (by omega)]; rfl

/-! ### Chunks -/

theorem range_split (a b : Nat) : List.range (a + b) = List.range a ++ (List.range b).map (a + ·) := by
  rw [List.range_add]

theorem chunks_prefix (len n k : Nat) (hk : k ≤ n - 1) :
    ((List.range k).map (chunkPositions len n)).flatten = List.range ((len / n) * k) := by
  induction k with
  | zero => simp
  | succ k ih =>
    rw [List.range_succ, List.map_append, List.flatten_append, ih (by omega), Nat.mul_succ, range_split]
    congr 1
    simp [chunkPositions, chunkBegin, chunkEnd, show k ≠ n - 1 by omega]

theorem chunks_flatten (len n : Nat) (hn : 0 < n) :
    ((List.range n).map (chunkPositions len n)).flatten = List.range len := by
  obtain ⟨m, rfl⟩ : ∃ m, n = m + 1 := ⟨n - 1, by omega⟩
  rw [List.range_succ, List.map_append, List.flatten_append, chunks_prefix len (m + 1) m (by omega)]
  have hle : len / (m + 1) * m ≤ len := by
    have := Nat.div_mul_le_self len (m + 1)
    rw [Nat.mul_succ] at this
    exact Nat.le_trans (Nat.le_add_right _ _) this
  have : List.range len = List.range (len / (m + 1) * m + (len - len / (m + 1) * m)) := by
    congr 1; omega
  rw [this, range_split]
  congr 1
  simp [chunkPositions, chunkBegin, chunkEnd]

/-! ### Per-key order -/

/-- The actions selected by `q` all belong to one thread. -/
def OneThread (q : α → Bool) (ts : List (List α)) : Prop :=
  ∀ (i j : Nat) (a b : List α), ts[i]? = some a → ts[j]? = some b → i ≠ j → a.filter q = [] ∨ b.filter q = []

theorem filter_flatten_set {q : α → Bool} {ts : List (List α)} {i : Nat} {x : α} {xs : List α}
    (h : ts[i]? = some (x :: xs)) (ho : OneThread q ts) :
    ts.flatten.filter q = ([x].filter q) ++ (ts.set i xs).flatten.filter q := by
  induction ts generalizing i with
  | nil => simp at h
  | cons t ts ih =>
    cases i with
    | zero =>
      simp only [List.getElem?_cons_zero, Option.some.injEq] at h
      subst h
      simp only [List.set_cons_zero, List.flatten_cons, List.filter_append]
      rw [← List.append_assoc, ← List.filter_append (l₁ := [x])]; rfl
    | succ i =>
      simp only [List.getElem?_cons_succ] at h
      have ho' : OneThread q ts := by
        intro i j a b ha hb hij
        exact ho (i + 1) (j + 1) a b (by simpa using ha) (by simpa using hb) (by omega)
      simp only [List.set_cons_succ, List.flatten_cons, List.filter_append]
      rw [ih h ho']
      by_cases hx : q x = true
      · rcases ho 0 (i + 1) t (x :: xs) (by simp) (by simpa using h) (by omega) with e | e
        · rw [e]; simp
        · simp [hx] at e
      · simp [hx]

/-- If all the selected actions belong to one thread, every schedule runs them in that thread's
order. -/
theorem Spec.Schedule.filter {q : α → Bool} {ts : List (List α)} {s : List α} (h : Schedule ts s)
    (ho : OneThread q ts) : s.filter q = ts.flatten.filter q := by
  induction h with
  | done h => rw [List.flatten_eq_nil_iff.2 h]
  | @step ts i x xs s hi _ ih =>
    rw [filter_flatten_set hi ho, ← ih]
    · rw [← List.filter_append]; rfl
    · have hlt : i < ts.length := (List.getElem?_eq_some_iff.1 hi).1
      -- shrinking one thread keeps the property
      have sub : ∀ (k : Nat) (a : List α), (ts.set i xs)[k]? = some a → ∃ a' : List α, ts[k]? = some a' ∧
          (a'.filter q = [] → a.filter q = []) := by
        intro k a hk
        by_cases e : k = i
        · subst e
          rw [List.getElem?_set_self hlt] at hk
          injection hk with hk
          subst hk
          refine ⟨_, hi, ?_⟩
          intro h
          simp only [List.filter_eq_nil_iff] at h ⊢
          intro b hb; exact h b (by simp [hb])
        · rw [List.getElem?_set_ne (Ne.symm e)] at hk
          exact ⟨a, hk, id⟩
      intro k j a b ha hb hkj
      obtain ⟨a', ha', ga⟩ := sub k a ha
      obtain ⟨b', hb', gb⟩ := sub j b hb
      exact (ho k j a' b' ha' hb' hkj).imp ga gb

end Einsums
