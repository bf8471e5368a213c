import Verif.Proofs.Labels
import Verif.Model.Dispatch
import Mathlib.Data.List.Nodup
/-
What the compile-time position tests say about the label lists.
-/
namespace Einsums
open Spec Model

variable {L : Type} [DecidableEq L]

theorem positionsOf_nodup {l : L} {xs : List L} {p : Nat} (hn : xs.Nodup) :
    positionsOf l p xs = if l ∈ xs then [(l, p + xs.idxOf l)] else [] := by
  induction xs generalizing p with
  | nil => rfl
  | cons x xs ih =>
    rw [List.nodup_cons] at hn
    simp only [positionsOf, ih hn.2]
    by_cases e : x = l
    · subst e
      simp [hn.1]
    · have e' : l ≠ x := fun h => e h.symm
      by_cases hm : l ∈ xs
      · simp [hm, e, List.idxOf_cons_ne _ e]; omega
      · simp [hm, e, e']

/-- Positions of the labels `ys` in a list without repetitions: those of the labels that occur. -/
theorem find_nodup {ys xs : List L} (hn : xs.Nodup) :
    findTypeWithPosition ys xs = (ys.filter (· ∈ xs)).map fun l => (l, xs.idxOf l) := by
  unfold findTypeWithPosition
  induction ys with
  | nil => rfl
  | cons y ys ih =>
    rw [List.flatMap_cons, ih, positionsOf_nodup hn]
    by_cases h : y ∈ xs <;> simp [h]

theorem prefix_of_contiguous {ys xs : List L} (hs : ∀ y ∈ ys, y ∈ xs)
    (hc : contiguousPositions (ys.map fun l => (l, xs.idxOf l)) = true) (y : L) (hy : ys.head? = some y) :
    ys <+: xs.drop (xs.idxOf y) := by
  induction ys generalizing y with
  | nil => simp at hy
  | cons a ys ih =>
    have : a = y := by simpa using hy
    subst this
    have ha : xs.idxOf a < xs.length := List.idxOf_lt_length_iff.2 (hs a (by simp))
    rw [List.drop_eq_getElem_cons ha, List.getElem_idxOf, List.cons_prefix_cons]
    refine ⟨rfl, ?_⟩
    cases ys with
    | nil => simp
    | cons b ys =>
      simp only [List.map_cons, contiguousPositions, Bool.and_eq_true, decide_eq_true_eq] at hc
      have := ih (fun z hz => hs z (by simp [hz])) hc.2 b rfl
      rw [hc.1]
      exact this

/-- Labels at contiguous positions form a block. -/
theorem block_of_contiguous {ys xs : List L} (hs : ∀ y ∈ ys, y ∈ xs)
    (hc : contiguousPositions (ys.map fun l => (l, xs.idxOf l)) = true) :
    ∃ p q, xs = p ++ ys ++ q := by
  cases ys with
  | nil => exact ⟨xs, [], by simp⟩
  | cons y ys =>
    obtain ⟨q, hq⟩ := prefix_of_contiguous hs hc y rfl
    exact ⟨xs.take (xs.idxOf y), q, by rw [List.append_assoc, hq, List.take_append_drop]⟩

omit [DecidableEq L] in
private theorem two_blocks_aux {x y z p1 q1 p2 q2 : List L} (hn : x.Nodup) (h1 : x = p1 ++ y ++ q1)
    (h2 : x = p2 ++ z ++ q2) (hz : z ≠ []) (hd : ∀ a, a ∈ y → a ∉ z)
    (hc : ∀ a ∈ x, a ∈ y ∨ a ∈ z) {c : List L} (hp : p2 = p1 ++ c) : x = y ++ z := by
  have hp1 : p1 = [] := by
    rw [List.eq_nil_iff_forall_not_mem]
    intro a ha
    have hax : a ∈ x := by rw [h1]; simp [ha]
    rcases hc a hax with h | h
    · rw [h1, List.append_assoc, List.nodup_append] at hn
      exact hn.2.2 a ha a (by simp [h]) rfl
    · rw [h2, List.append_assoc, List.nodup_append] at hn
      exact hn.2.2 a (by simp [hp, ha]) a (by simp [h]) rfl
  subst hp1
  have hp' : p2 = c := by simpa using hp
  subst hp'
  simp only [List.nil_append] at h1
  have hq2 : q2 = [] := by
    rw [List.eq_nil_iff_forall_not_mem]
    intro a ha
    have hax : a ∈ x := by rw [h2]; simp [ha]
    have hnz : a ∉ z := by
      intro h
      rw [h2, List.nodup_append] at hn
      exact hn.2.2 a (by simp [h]) a ha rfl
    have hay := (hc a hax).resolve_right hnz
    -- z lies after y's elements or inside y
    have he : y ++ q1 = (p2 ++ z) ++ q2 := by rw [← h1, h2]
    rcases List.append_eq_append_iff.1 he with ⟨b, hb1, hb2⟩ | ⟨b, hb1, hb2⟩
    · -- p2 ++ z = y ++ b, q1 = b ++ q2
      rw [h1, List.nodup_append] at hn
      exact hn.2.2 a hay a (by rw [hb2]; simp [ha]) rfl
    · -- y = (p2 ++ z) ++ b
      cases z with
      | nil => exact hz rfl
      | cons w z => exact hd w (by rw [hb1]; simp) (by simp)
  subst hq2
  simp only [List.append_nil] at h2
  have he : y ++ q1 = p2 ++ z := by rw [← h1, h2]
  rcases List.append_eq_append_iff.1 he with ⟨b, hb1, hb2⟩ | ⟨b, hb1, hb2⟩
  · -- p2 = y ++ b, q1 = b ++ z
    have hb : b = [] := by
      rw [List.eq_nil_iff_forall_not_mem]
      intro a ha
      have hax : a ∈ x := by rw [h1, hb2]; simp [ha]
      rcases hc a hax with h | h
      · rw [h1, List.nodup_append] at hn
        exact hn.2.2 a h a (by rw [hb2]; simp [ha]) rfl
      · rw [h2, List.nodup_append] at hn
        exact hn.2.2 a (by rw [hb1]; simp [ha]) a h rfl
    rw [h1, hb2, hb]; simp
  · -- y = p2 ++ b, z = b ++ q1
    have hb : b = [] := by
      rw [List.eq_nil_iff_forall_not_mem]
      intro a ha
      exact hd a (by rw [hb1]; simp [ha]) (by rw [hb2]; simp [ha])
    subst hb
    rw [h1, show q1 = z by simpa using hb2.symm]

omit [DecidableEq L] in
/-- Two disjoint non-empty blocks that cover a list make it up, in one order or the other. -/
theorem two_blocks {x y z : List L} (hn : x.Nodup) (h1 : ∃ p q, x = p ++ y ++ q)
    (h2 : ∃ p q, x = p ++ z ++ q) (hy : y ≠ []) (hz : z ≠ []) (hd : ∀ a, a ∈ y → a ∉ z)
    (hc : ∀ a ∈ x, a ∈ y ∨ a ∈ z) : x = y ++ z ∨ x = z ++ y := by
  obtain ⟨p1, q1, h1⟩ := h1
  obtain ⟨p2, q2, h2⟩ := h2
  have he : p1 ++ (y ++ q1) = p2 ++ (z ++ q2) := by
    rw [← List.append_assoc, ← List.append_assoc, ← h1, ← h2]
  rcases List.append_eq_append_iff.1 he with ⟨c, hc1, _⟩ | ⟨c, hc1, _⟩
  · exact .inl (two_blocks_aux hn h1 h2 hz hd hc hc1)
  · exact .inr (two_blocks_aux hn h2 h1 hy (fun a h h' => hd a h' h) (fun a h => (hc a h).symm) hc1)

omit [DecidableEq L] in
/-- A block that covers a list without repetitions is the list. -/
theorem one_block {x y : List L} (hn : x.Nodup) (h1 : ∃ p q, x = p ++ y ++ q) (hc : ∀ a ∈ x, a ∈ y) :
    x = y := by
  obtain ⟨p, q, h⟩ := h1
  have hp : p = [] := by
    rw [List.eq_nil_iff_forall_not_mem]
    intro a ha
    have := hc a (by rw [h]; simp [ha])
    rw [h, List.append_assoc, List.nodup_append] at hn
    exact hn.2.2 a ha a (by simp [this]) rfl
  have hq : q = [] := by
    rw [List.eq_nil_iff_forall_not_mem]
    intro a ha
    have := hc a (by rw [h]; simp [ha])
    rw [h, List.nodup_append] at hn
    exact hn.2.2 a (by simp [this]) a ha rfl
  rw [h, hp, hq]; simp

theorem length_uniqueAux_le (out xs : List L) : (uniqueAux out xs).length ≤ out.length + xs.length := by
  induction xs generalizing out with
  | nil => simp [uniqueAux]
  | cons x xs ih =>
    simp only [uniqueAux]
    split
    · have := ih out; simp; omega
    · have := ih (out ++ [x]); simp at this ⊢; omega

theorem nodup_of_length_uniqueAux (out xs : List L) (ho : out.Nodup)
    (h : (uniqueAux out xs).length = out.length + xs.length) : (out ++ xs).Nodup := by
  induction xs generalizing out with
  | nil => simpa using ho
  | cons x xs ih =>
    simp only [uniqueAux] at h
    split at h
    · have := length_uniqueAux_le out xs
      simp at h; omega
    · rename_i hx
      have := ih (out ++ [x]) (by
        rw [List.nodup_append]
        refine ⟨ho, by simp, ?_⟩
        intro a ha b hb e
        have : b = x := by simpa using hb
        exact hx (this ▸ e ▸ ha)) (by simp at h ⊢; omega)
      simpa using this

theorem hadamard_iff {xs : List L} : hadamard xs = false ↔ xs.Nodup := by
  unfold hadamard
  simp only [ne_eq, decide_not, Bool.not_eq_false', decide_eq_true_eq]
  constructor
  · intro h
    have := nodup_of_length_uniqueAux [] xs List.nodup_nil (by simpa [unique] using h.symm)
    simpa using this
  · intro h
    rw [unique_of_nodup h]

theorem noHadamard_iff {Al Bl Cl : List L} : noHadamard Al Bl Cl = true ↔ Al.Nodup ∧ Bl.Nodup ∧ Cl.Nodup := by
  simp [noHadamard, hadamard_iff, and_assoc]

theorem links_nodup {Al Bl Cl : List L} (h : Al.Nodup) : (links Al Bl Cl).Nodup :=
  (h.filter _).filter _

theorem linkUnique_eq {Al Bl Cl : List L} (h : Al.Nodup) : linkUnique Al Bl Cl = links Al Bl Cl :=
  unique_of_nodup (links_nodup h)

theorem isSameOrdering_ne {x y : List (L × Nat)} (h : isSameOrdering x y = true) : x ≠ [] ∧ y ≠ [] := by
  unfold isSameOrdering at h
  split at h
  · simp at h
  · rename_i h1
    constructor <;> (rintro rfl; simp at h1)

end Einsums
