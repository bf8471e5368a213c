import Verif.Proofs.Index
/-
Lemmas about checked (negative) indices.
-/
namespace Einsums
open Spec Model

@[simp] theorem dot_nil_left (s : List Nat) : dot [] s = 0 := by cases s <;> rfl
@[simp] theorem dot_nil_right (s : List Nat) : dot s [] = 0 := by cases s <;> rfl
@[simp] theorem dot_cons (i s : Nat) (is ss : List Nat) :
    dot (i :: is) (s :: ss) = i * s + dot is ss := rfl

theorem dot_strides (is ds : List Nat) (h : is.length ≤ ds.length) :
    dot is (dimsToStrides ds).2
      = rowMajor (is ++ List.replicate (ds.length - is.length) 0) ds := by
  induction ds generalizing is with
  | nil => cases is <;> simp_all
  | cons d ds ih =>
    rw [dimsToStrides_snd_cons]
    cases is with
    | nil =>
      have : dot [] (dimsToStrides ds).2 = _ := ih [] (by simp)
      simp [List.replicate_succ] at this ⊢
      exact this
    | cons i is =>
      simp only [dot_cons, List.cons_append, rowMajor_cons, List.length_cons]
      rw [ih is (by simpa using h)]
      congr 3
      simp

theorem dot_strides_eq {is ds : List Nat} (h : is.length = ds.length) :
    dot is (dimsToStrides ds).2 = rowMajor is ds := by
  rw [dot_strides is ds (by omega)]; simp [h]

theorem pyIndex_eq_some {d : Nat} {i : Int} {j : Nat} :
    pyIndex d i = some j ↔ j < d ∧ ((j : Int) = i ∨ (j : Int) = i + d ∧ i < 0) := by
  unfold pyIndex
  split
  · simp only [Option.some.injEq]; omega
  · split
    · simp only [Option.some.injEq]; omega
    · simp only [reduceCtorEq, false_iff]; omega

theorem pyIndex_eq_none {d : Nat} {i : Int} :
    pyIndex d i = none ↔ i < -(d : Int) ∨ (d : Int) ≤ i := by
  unfold pyIndex
  split
  · simp; omega
  · split <;> simp <;> omega

theorem pyIndices_cons {d : Nat} {ds : List Nat} {i : Int} {is : List Int} {js : List Nat} :
    pyIndices (d :: ds) (i :: is) = some js ↔
      ∃ j js', js = j :: js' ∧ pyIndex d i = some j ∧ pyIndices ds is = some js' := by
  simp only [pyIndices]
  cases h1 : pyIndex d i <;> cases h2 : pyIndices ds is <;> simp [eq_comm]

theorem pyIndices_inBox {ds : List Nat} {is : List Int} {js : List Nat}
    (h : pyIndices ds is = some js) : InBox js ds := by
  induction ds generalizing is js with
  | nil => cases is <;> simp_all [pyIndices]
  | cons d ds ih => cases is with
    | nil => simp [pyIndices] at h
    | cons i is =>
      obtain ⟨j, js', rfl, h1, h2⟩ := pyIndices_cons.1 h
      exact ⟨(pyIndex_eq_some.1 h1).1, ih h2⟩

theorem negCheckLoop_ok {ss ds : List Nat} {is : List Int} {js : List Nat} (out : Int)
    (hl : ss.length = ds.length) (hlen : is.length ≤ ds.length)
    (h : pyIndices (ds.take is.length) is = some js) :
    negCheckLoop out ss ds is = .ok (out + dot js ss) := by
  induction is generalizing ss ds js out with
  | nil =>
    have : js = [] := by simpa [pyIndices, eq_comm] using h
    subst this
    cases ss <;> cases ds <;> simp [negCheckLoop]
  | cons i is ih => cases ds with
    | nil => simp at hlen
    | cons d ds => cases ss with
      | nil => simp at hl
      | cons s ss =>
        simp only [List.length_cons, List.take_succ_cons] at h
        obtain ⟨j, js', rfl, h1, h2⟩ := pyIndices_cons.1 h
        have hj := pyIndex_eq_some.1 h1
        have e : (if i < 0 then i + (d : Int) else i) = j := by split <;> omega
        simp only [negCheckLoop, e]
        rw [if_neg (by omega), ih _ (by simpa using hl) (by simpa using hlen) h2]
        simp [Int.add_assoc]

theorem negCheckLoop_error {ss ds : List Nat} {is : List Int} (out : Int)
    (hl : ss.length = ds.length) (hlen : is.length ≤ ds.length)
    (h : pyIndices (ds.take is.length) is = none) :
    (negCheckLoop out ss ds is).isError = true := by
  induction is generalizing ss ds out with
  | nil => simp [pyIndices] at h
  | cons i is ih => cases ds with
    | nil => simp at hlen
    | cons d ds => cases ss with
      | nil => simp at hl
      | cons s ss =>
        simp only [List.length_cons, List.take_succ_cons] at h
        simp only [negCheckLoop]
        generalize hind : (if i < 0 then i + (d : Int) else i) = ind
        split
        · rfl
        · rename_i hc
          apply ih _ (by simpa using hl) (by simpa using hlen)
          simp only [pyIndices] at h
          cases h1 : pyIndex d i with
          | none =>
            exfalso
            have := pyIndex_eq_none.1 h1
            apply hc
            split at hind <;> omega
          | some j =>
            rw [h1] at h
            cases h2 : pyIndices (ds.take is.length) is with
            | none => rfl
            | some js => rw [h2] at h; simp at h

end Einsums
