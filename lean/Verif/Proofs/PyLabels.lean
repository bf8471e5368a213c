import Verif.Model.PythonPlan
import Verif.Proofs.GemmPath
/-
The label computations of the Python interface agree with those of the C++ dispatcher.
-/
namespace Einsums
open Spec Model

section
variable {L : Type} [DecidableEq L]

theorem pyUnique_foldl (s out : List L) :
    s.foldl (fun out c => if out.any (fun o => o = c) then out else out ++ [c]) out = uniqueAux out s := by
  induction s generalizing out with
  | nil => rfl
  | cons c s ih =>
    simp only [List.foldl_cons, uniqueAux]
    rw [ih]
    by_cases h : c ∈ out
    · rw [if_pos (by simpa using h), if_pos h]
    · rw [if_neg (by simpa using h), if_neg h]

theorem pyUnique_eq (s : List L) : pyUnique s = unique s := pyUnique_foldl s []

theorem pyDifference_eq (s t : List L) : pyDifference s t = difference s t := by
  unfold pyDifference difference
  congr 1
  funext c
  by_cases h : c ∈ t
  · simp [h]
  · simp only [h, not_false_eq_true, decide_true, Bool.not_eq_true', List.any_eq_false, decide_eq_true_eq]
    rintro x hx rfl
    exact h hx

theorem mem_pyIntersect {s t : List L} {l : L} : l ∈ pyIntersect s t ↔ l ∈ s ∧ l ∈ t := by
  unfold pyIntersect
  simp only [List.mem_flatMap, List.mem_map, List.mem_filter, decide_eq_true_eq]
  constructor
  · rintro ⟨c, h1, d, ⟨h2, rfl⟩, rfl⟩; exact ⟨h1, h2⟩
  · rintro ⟨h1, h2⟩; exact ⟨l, h1, l, ⟨h2, rfl⟩, rfl⟩

theorem pyIntersect_eq {s t : List L} (ht : t.Nodup) : pyIntersect s t = intersect s t := by
  unfold pyIntersect intersect
  induction s with
  | nil => rfl
  | cons c s ih =>
    rw [List.flatMap_cons, ih]
    by_cases h : c ∈ t
    · have : t.filter (fun d => c = d) = [c] := by
        have h1 : t.filter (fun d => c = d) = t.filter (fun d => d == c) := by
          congr 1; funext d; rw [Bool.eq_iff_iff, decide_eq_true_eq, beq_iff_eq]; exact eq_comm
        rw [h1, List.filter_beq, List.count_eq_one_of_mem ht h]; rfl
      rw [this]; simp [h]
    · have : t.filter (fun d => c = d) = [] := by
        rw [List.filter_eq_nil_iff]; intro d hd; simp; rintro rfl; exact h hd
      rw [this]; simp [h]

theorem pyIntersect_length {s t : List L} : (pyIntersect s t).length = 0 ↔ (intersect s t).length = 0 := by
  rw [List.length_eq_zero_iff, List.length_eq_zero_iff, List.eq_nil_iff_forall_not_mem,
    List.eq_nil_iff_forall_not_mem]
  simp only [mem_pyIntersect, intersect, List.mem_filter, decide_eq_true_eq]

theorem zipIdx_positionsOf (c : L) (t : List L) (p : Nat) :
    (t.zipIdx p).filterMap (fun dj => if c = dj.1 then some (c, dj.2) else none) = positionsOf c p t := by
  induction t generalizing p with
  | nil => rfl
  | cons x t ih =>
    rw [List.zipIdx_cons, List.filterMap_cons]
    simp only [positionsOf]
    rw [ih]
    by_cases h : c = x
    · subst h; simp
    · simp [h, Ne.symm h]

theorem pyFind_eq (s t : List L) : pyFind s t = findTypeWithPosition s t := by
  unfold pyFind findTypeWithPosition
  congr 1
  funext c
  exact zipIdx_positionsOf c t 0

omit [DecidableEq L] in
theorem pyContiguous_eq (ps : List (L × Nat)) : pyContiguous ps = contiguousPositions ps := by
  match ps with
  | [] => rfl
  | [_] => rfl
  | p :: q :: ps =>
    simp only [pyContiguous, contiguousPositions]
    rw [pyContiguous_eq (q :: ps)]
    by_cases h : p.2 + 1 = q.2 <;> simp [h]

theorem pySameOrdering_eq (x y : List (L × Nat)) : pySameOrdering x y = isSameOrdering x y := by
  unfold pySameOrdering isSameOrdering
  by_cases h : x.length = y.length
  · by_cases h0 : x.length = 0
    · rw [if_neg (by simpa using h), if_pos ⟨h0, h ▸ h0⟩, if_pos (.inl h0)]
    · rw [if_neg (by simpa using h), if_neg (by tauto), if_neg (by rw [← h]; tauto), if_neg (by simpa using h)]
      rw [Bool.eq_iff_iff, decide_eq_true_eq]
      clear h0
      induction x generalizing y with
      | nil => cases y <;> simp_all
      | cons a x ih => cases y with
        | nil => simp at h
        | cons b y => simpa using fun _ => by simpa using ih y (by simpa using h)
  · rw [if_pos h, if_pos h]
    split <;> rfl

theorem pyNoHadamard_eq (Al Bl Cl : List L) : pyNoHadamard Al Bl Cl = noHadamard Al Bl Cl := by
  simp only [pyNoHadamard, noHadamard, hadamard, pyUnique_eq]

theorem pyLinkUnique_eq {Al Bl Cl : List L} (h : Bl.Nodup) : pyLinkUnique Al Bl Cl = linkUnique Al Bl Cl := by
  simp only [pyLinkUnique, linkUnique, links, pyUnique_eq, pyDifference_eq, pyIntersect_eq h]

theorem pyIsDot_eq (Al Bl Cl : List L) : pyIsDot Al Bl Cl = isDotProduct Al Bl Cl := by
  simp only [pyIsDot, isDotProduct, pyNoHadamard_eq]

theorem pyIsElementWise_eq (Al Bl Cl : List L) : pyIsElementWise Al Bl Cl = isElementWise Al Bl Cl := by
  simp only [pyIsElementWise, isElementWise, pyNoHadamard_eq, eq_comm]

theorem pyIsOuter_eq (Al Bl Cl : List L) : pyIsOuter Al Bl Cl = isOuterProduct Al Bl Cl := by
  simp only [pyIsOuter, isOuterProduct, pyNoHadamard_eq, pyContiguous_eq, pyFind_eq, pyUnique_eq,
    pyIntersect_length, targetPos]

theorem pyIsGemvAB_eq (Al Bl Cl : List L) : pyIsGemvAB Al Bl Cl = isGemvNormalPossible Al Bl Cl := by
  by_cases h : noHadamard Al Bl Cl = true
  · simp only [pyIsGemvAB, isGemvNormalPossible, pyNoHadamard_eq, pyContiguous_eq, pyFind_eq, pyUnique_eq,
      pySameOrdering_eq, pyLinkUnique_eq (noHadamard_iff.1 h).2.1, targetPos, posInC, linkPosA, linkPosB]
    rfl
  · simp only [pyIsGemvAB, isGemvNormalPossible, pyNoHadamard_eq, Bool.not_eq_true] at h ⊢
    simp [h]

theorem pyIsGemm_eq (Al Bl Cl : List L) : pyIsGemm Al Bl Cl = isGemmPossible Al Bl Cl := by
  by_cases h : noHadamard Al Bl Cl = true
  · simp only [pyIsGemm, isGemmPossible, pyNoHadamard_eq, pyContiguous_eq, pyFind_eq, pyUnique_eq,
      pySameOrdering_eq, pyLinkUnique_eq (noHadamard_iff.1 h).2.1, targetPos, posInC, linkPosA, linkPosB,
      pyDifference_eq, Nat.pos_iff_ne_zero, gt_iff_lt]
  · simp only [pyIsGemm, isGemmPossible, pyNoHadamard_eq, Bool.not_eq_true] at h ⊢
    simp [h]

/-- The second matrix-vector test is the first with the operands exchanged. -/
theorem pyIsGemvBA_eq {Al Bl Cl : List L} (hB : Bl.Nodup) :
    pyIsGemvBA Al Bl Cl =
      (contiguousPositions (linkPosA Al Bl Cl) && contiguousPositions (linkPosB Al Bl Cl) &&
       contiguousPositions (targetPos Cl Bl) && isSameOrdering (linkPosA Al Bl Cl) (linkPosB Al Bl Cl) &&
       isSameOrdering (targetPos Cl Bl) (posInC Bl Cl) && !isSameOrdering (targetPos Cl Al) (posInC Al Cl) &&
       decide ((posInC Al Cl).length = 0) && noHadamard Al Bl Cl) := by
  simp only [pyIsGemvBA, pyNoHadamard_eq, pyContiguous_eq, pyFind_eq, pyUnique_eq,
      pySameOrdering_eq, pyLinkUnique_eq hB, targetPos, posInC, linkPosA, linkPosB]
  rfl

/-! ### Positions of a block of labels -/

theorem idxOf_block_range {p ys q : List L} (hn : (p ++ ys ++ q).Nodup) :
    ys.map (fun l => (p ++ ys ++ q).idxOf l) = List.range' p.length ys.length := by
  apply List.ext_getElem (by simp)
  intro k h1 h2
  rw [List.getElem_map, idxOf_block hn (by simpa using h1)]
  simp

theorem foldl_max_range' (a m n : Nat) (h : m < a) :
    (List.range' a n).foldl (fun m q => if m < q then q else m) m = if n = 0 then m else a + n - 1 := by
  induction n generalizing a m with
  | zero => simp
  | succ n ih =>
    rw [List.range'_succ, List.foldl_cons, if_pos h, ih (a + 1) a (by omega)]
    rw [if_neg (by omega : ¬n + 1 = 0)]
    split <;> omega

theorem pyMaxPos_block {p ys q : List L} (hn : (p ++ ys ++ q).Nodup) (hy : ys ≠ []) :
    pyMaxPos (ys.map fun l => (l, (p ++ ys ++ q).idxOf l)) = .ok (p.length + ys.length - 1) := by
  have h := idxOf_block_range hn
  generalize hx : (p ++ ys ++ q) = xs at h
  cases ys with
  | nil => exact (hy rfl).elim
  | cons y ys =>
    rw [List.length_cons, List.range'_succ, List.map_cons] at h
    injection h with h1 h2
    simp only [List.map_cons, pyMaxPos]
    rw [h1]
    have e : (ys.map fun l => (l, xs.idxOf l)).foldl (fun m q => if m < q.2 then q.2 else m) p.length
        = (ys.map fun l => xs.idxOf l).foldl (fun m q => if m < q then q else m) p.length := by
      rw [List.foldl_map, List.foldl_map]
    rw [e, h2, foldl_max_range' _ _ _ (by omega)]
    congr 1
    rw [List.length_cons]
    split <;> omega

theorem pyFirstPos_block {p ys q : List L} (hn : (p ++ ys ++ q).Nodup) (hy : ys ≠ []) :
    pyFirstPos (ys.map fun l => (l, (p ++ ys ++ q).idxOf l)) = .ok p.length := by
  have := firstPos_eq hn hy
  cases ys with
  | nil => exact (hy rfl).elim
  | cons y ys => simpa [pyFirstPos, firstPos] using this

theorem pyPositions_eq {ys xs : List L} (hn : ys.Nodup) (hs : ∀ y ∈ ys, y ∈ xs) :
    pyPositions (ys.map fun l => (l, xs.idxOf l)) = ys.map fun l => xs.idxOf l := by
  unfold pyPositions
  rw [pyUnique_eq, List.map_map]
  apply unique_of_nodup
  apply List.Nodup.map_on _ hn
  intro a ha b hb h
  exact (List.idxOf_inj (hs a ha)).1 h

end

section
variable {L : Type} [DecidableEq L] {R : Type}

theorem pyShape_idxOf {X : Strided R} {δ : L → Nat} {xs : List L} (hd : X.dims = xs.map δ) {l : L} (hl : l ∈ xs) :
    pyShape X (xs.idxOf l) = .ok (δ l) := by
  have h := List.idxOf_lt_length_iff.2 hl
  unfold pyShape
  rw [hd, List.getElem?_map, List.getElem?_eq_getElem h]
  simp

theorem pyProd_take {X : Strided R} {δ : L → Nat} {xs ys : List L} (hd : X.dims = xs.map δ)
    (hs : ∀ y ∈ ys, y ∈ xs) (n : Nat) (hn : n ≤ ys.length) :
    pyProd X (ys.map fun l => xs.idxOf l) n = .ok (numel ((ys.take n).map δ)) := by
  unfold pyProd
  induction n with
  | zero => rfl
  | succ n ih =>
    have hlt : n < ys.length := by omega
    rw [List.range_succ, List.foldlM_append, ih (by omega), Outcome.ok_bind, List.foldlM_cons,
      List.getElem?_map, List.getElem?_eq_getElem hlt]
    simp only [Option.map_some]
    rw [pyShape_idxOf hd (hs _ (List.getElem_mem hlt)), List.take_succ_eq_append_getElem hlt, List.map_append,
      numel_append]
    simp [numel]

theorem pyProd_all {X : Strided R} {δ : L → Nat} {xs ys : List L} (hd : X.dims = xs.map δ)
    (hs : ∀ y ∈ ys, y ∈ xs) :
    pyProd X (ys.map fun l => xs.idxOf l) ys.length = .ok (numel (ys.map δ)) := by
  rw [pyProd_take hd hs _ (Nat.le_refl _), List.take_length]

theorem pyProd_ub {X : Strided R} {δ : L → Nat} {xs ys : List L} (hd : X.dims = xs.map δ)
    (hs : ∀ y ∈ ys, y ∈ xs) (n : Nat) (hn : ys.length < n) :
    pyProd X (ys.map fun l => xs.idxOf l) n = .ub "vector index out of range" := by
  obtain ⟨m, rfl⟩ : ∃ m, n = ys.length + (m + 1) := ⟨n - ys.length - 1, by omega⟩
  have h := pyProd_all hd hs
  unfold pyProd at h ⊢
  rw [range_split, List.foldlM_append, h, Outcome.ok_bind, List.range_succ_eq_map, List.map_cons,
    List.foldlM_cons]
  simp only [Nat.add_zero, List.getElem?_map]
  rw [List.getElem?_eq_none (Nat.le_refl _)]
  rfl

theorem pyStride_block {X : Strided R} {δ : L → Nat} {p ys q : List L}
    (hd : X.dims = (p ++ ys ++ q).map δ) (hst : X.strides = (dimsToStrides X.dims).2)
    (hn : (p ++ ys ++ q).Nodup) (hy : ys ≠ []) :
    pyStride X (p.length + ys.length - 1) = .ok (numel (q.map δ)) := by
  have h := lastStride_eq hd hst hn hy
  have hpos : 0 < ys.length := List.length_pos_iff.2 hy
  have hlen : p.length + ys.length - 1 < X.strides.length := by
    rw [hst, length_dimsToStrides, hd]; simp; omega
  unfold lastStride at h
  rw [List.getLast?_map, List.getLast?_eq_some_getLast hy] at h
  simp only [Option.map_some] at h
  rw [List.getLast_eq_getElem, idxOf_block hn (by omega)] at h
  unfold pyStride
  unfold Strided.stride at h
  rw [List.getD_eq_getElem?_getD, show p.length + (ys.length - 1) = p.length + ys.length - 1 by omega,
    List.getElem?_eq_getElem hlen] at h
  rw [List.getElem?_eq_getElem hlen]
  simpa using h

end
end Einsums
