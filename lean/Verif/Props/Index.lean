import Verif.Proofs.IndexCheck
/-
Properties C01 and C02: index conversions.
-/
namespace Einsums.Props
open Spec Model

/-- **C01 (position → index → position).** For every shape and every position below the number of
elements, the decoded multi-index is in range and encodes to the same position. -/
theorem C01_position_roundtrip (dims : List Nat) (p : Nat) (hp : p < numel dims) :
    let strides := (dimsToStrides dims).2
    let idx := sentinelToIndices p strides
    InBox idx dims ∧ indicesToSentinel strides idx = .ok p := by
  have h := sentinelToIndices_spec hp
  refine ⟨h.1, ?_⟩
  rw [indicesToSentinel_eq h.1.length, h.2]

/-- **C01 (index → position → index).** Every in-range multi-index encodes to a position below the
number of elements, and decodes to itself. -/
theorem C01_index_roundtrip (dims idx : List Nat) (h : InBox idx dims) :
    let strides := (dimsToStrides dims).2
    ∃ p, indicesToSentinel strides idx = .ok p ∧ p < numel dims ∧
      sentinelToIndices p strides = idx :=
  ⟨rowMajor idx dims, indicesToSentinel_eq h.length, rowMajor_lt h, sentinelToIndices_rowMajor h⟩

/-- **C01 (order).** The positions are the row-major ones: decoding `0, 1, 2, …` enumerates all
multi-indices of the shape in row-major order, each exactly once; the value returned beside the
strides is the number of elements. -/
theorem C01_enumeration (dims : List Nat) :
    (dimsToStrides dims).1 = numel dims ∧
    (List.range (numel dims)).map (fun p => sentinelToIndices p (dimsToStrides dims).2) = box dims ∧
    (box dims).Nodup ∧ ∀ idx, idx ∈ box dims ↔ InBox idx dims := by
  refine ⟨dimsToStrides_fst dims, ?_, nodup_box dims, fun _ => mem_box⟩
  rw [← map_rowMajor_box, List.map_map]
  conv_rhs => rw [← List.map_id (box dims)]
  apply List.map_congr_left
  intro i hi
  exact sentinelToIndices_rowMajor (mem_box.1 hi)

example : 17 < numel [2, 3, 4] ∧ InBox [1, 1, 1] [2, 3, 4] ∧
    sentinelToIndices 17 (dimsToStrides [2, 3, 4]).2 = [1, 1, 1] := by decide

/-- **C02 (accept).** With one stride per dimension and at most that many indices, each index within
`[-d, d)` of its axis, the checked conversion returns the address of the normalised indices. -/
theorem C02_accepts (strides dims : List Nat) (inds : List Int) (js : List Nat)
    (hs : strides.length = dims.length) (hlen : inds.length ≤ dims.length)
    (h : pyIndices (dims.take inds.length) inds = some js) :
    indicesToSentinelNegativeCheck strides dims inds = .ok (dot js strides) := by
  unfold indicesToSentinelNegativeCheck
  rw [if_neg (by omega), negCheckLoop_ok 0 hs hlen h]
  simp

/-- **C02 (reject).** It throws exactly when there are too many indices or one of them is outside
`[-d, d)`; it never has undefined behaviour. -/
theorem C02_rejects (strides dims : List Nat) (inds : List Int)
    (hs : strides.length = dims.length) :
    (indicesToSentinelNegativeCheck strides dims inds).isError = true ↔
      (dims.length < inds.length ∨ pyIndices (dims.take inds.length) inds = none) := by
  by_cases hlen : inds.length ≤ dims.length
  · cases h : pyIndices (dims.take inds.length) inds with
    | some js =>
      rw [C02_accepts strides dims inds js hs hlen h]
      simp [Outcome.isError]; omega
    | none =>
      unfold indicesToSentinelNegativeCheck
      rw [if_neg (by omega)]
      simp [negCheckLoop_error 0 hs hlen h]
  · unfold indicesToSentinelNegativeCheck
    rw [if_pos (by omega)]
    simp [Outcome.isError]; omega

/-- **C02 (row-major).** On a row-major tensor the accepted result is the row-major position, with
missing trailing indices counted as zero, and it is in range when no dimension is zero. -/
theorem C02_row_major (dims : List Nat) (inds : List Int) (js : List Nat)
    (hlen : inds.length ≤ dims.length) (h : pyIndices (dims.take inds.length) inds = some js) :
    let full := js ++ List.replicate (dims.length - inds.length) 0
    indicesToSentinelNegativeCheck (dimsToStrides dims).2 dims inds = .ok (rowMajor full dims) ∧
    ((∀ d ∈ dims, d ≠ 0) → rowMajor full dims < numel dims) := by
  have hb := pyIndices_inBox h
  have hjl : js.length = inds.length := by
    have := hb.length; simp [hlen] at this; exact this
  refine ⟨?_, ?_⟩
  · rw [C02_accepts _ dims inds js (length_dimsToStrides dims) hlen h,
      dot_strides js dims (by omega), hjl]
  · intro hd
    apply rowMajor_lt
    rw [InBox_iff_getElem]
    refine ⟨by simp [hjl, hlen], ?_⟩
    intro k h1 h2
    by_cases hk : k < js.length
    · rw [List.getElem_append_left hk]
      have h3 := (InBox_iff_getElem.1 hb).2 k hk (by simp [hlen]; omega)
      simpa using h3
    · rw [List.getElem_append_right (by omega)]
      have := hd dims[k] (List.getElem_mem h2)
      simp; omega

example : pyIndices ([3, 4].take 2) [-1, -4] = some [2, 0] ∧
    indicesToSentinelNegativeCheck [4, 1] [3, 4] [-1, -4] = .ok 8 ∧
    (indicesToSentinelNegativeCheck [4, 1] [3, 4] [-4, 0]).isError = true := by decide

end Einsums.Props
