import Verif.Model.Outcome
/-
Model of src/include/einsums/utility/IndexUtils.hpp and src/Utils.cpp: conversion between linear
positions ("sentinels") and multi-indices.
Simplification throughout: `size_t`/`ptrdiff_t` are unbounded `Nat`/`Int`.
-/
namespace Einsums.Model

/-- IndexUtils.hpp 345–356 and Utils.cpp 5–16, `dims_to_strides`: the loop runs from the last
dimension to the first; returns the final `stride` (the size) and the array `out`. -/
def dimsToStrides (dims : List Nat) : Nat × List Nat :=
  dims.foldr (fun d acc => (acc.1 * d, acc.1 :: acc.2)) (1, [])

/-- IndexUtils.hpp 120–167, `sentinel_to_indices`: loop over the strides with the running
remainder `hold`; a zero stride yields index 0 and leaves `hold` alone. -/
def sentinelToIndices (hold : Nat) : List Nat → List Nat
  | [] => []
  | s :: ss =>
      if s ≠ 0 then (hold / s) :: sentinelToIndices (hold % s) ss
      else 0 :: sentinelToIndices hold ss

/-- IndexUtils.hpp 260–294, `indices_to_sentinel`: `out += inds[i] * strides[i]` over all strides.
Accessing `inds[i]` past its end is undefined behaviour. -/
def indicesToSentinel : List Nat → List Nat → Outcome Nat
  | [], _ => .ok 0
  | _ :: _, [] => .ub "inds[i] out of range"
  | s :: ss, i :: is => do
      let rest ← indicesToSentinel ss is
      return i * s + rest

/-- IndexUtils.hpp 303–334, the loop of `indices_to_sentinel_negative_check`, after the length
test.  The three lists are walked together; `out` is the accumulator. -/
def negCheckLoop (out : Int) : List Nat → List Nat → List Int → Outcome Int
  | s :: ss, d :: ds, i :: is =>
      let ind := if i < 0 then i + d else i
      if ind < 0 ∨ ind ≥ d then .error "Index out of range!"
      else negCheckLoop (out + ind * s) ss ds is
  | _, _, [] => .ok out
  | _, _, _ => .ub "strides or dims out of range"

/-- IndexUtils.hpp 303–334, `indices_to_sentinel_negative_check`. -/
def indicesToSentinelNegativeCheck (strides dims : List Nat) (inds : List Int) : Outcome Int :=
  if inds.length > strides.length ∨ inds.length > dims.length then
    .error "Too many indices supplied!"
  else negCheckLoop 0 strides dims inds

/-- IndexUtils.hpp 358–405, `compile_index_table`: position of a label in the list of unique
labels, −1 when absent. -/
def compileIndexTable {L : Type} [DecidableEq L] (unique inds : List L) : List Int :=
  inds.map fun l => if l ∈ unique then (unique.idxOf l : Int) else -1

end Einsums.Model
