/-
Specification vocabulary for multi-indices.  Nothing here refers to the model of the code.
-/
namespace Einsums.Spec

/-- `InBox idx dims`: `idx` has one entry per dimension and every entry is below its dimension. -/
def InBox : List Nat → List Nat → Prop
  | [], [] => True
  | i :: is, d :: ds => i < d ∧ InBox is ds
  | _, _ => False

instance instDecidableInBox : ∀ idx dims, Decidable (InBox idx dims)
  | [], [] => .isTrue trivial
  | [], _ :: _ => .isFalse id
  | _ :: _, [] => .isFalse id
  | i :: is, d :: ds => by
      have := instDecidableInBox is ds
      unfold InBox
      exact inferInstance

/-- Number of elements of a shape. -/
def numel : List Nat → Nat
  | [] => 1
  | d :: ds => d * numel ds

/-- Row-major position of a multi-index: the last index varies fastest. -/
def rowMajor : List Nat → List Nat → Nat
  | i :: is, _ :: ds => i * numel ds + rowMajor is ds
  | _, _ => 0

/-- All multi-indices of a shape in row-major order. -/
def box : List Nat → List (List Nat)
  | [] => [[]]
  | d :: ds => (List.range d).flatMap fun i => (box ds).map (i :: ·)

/-- A (possibly negative) index `i` on an axis of length `d`, read the Python way:
`-d ≤ i < d`, and negative `i` counts from the end. `none` when out of range. -/
def pyIndex (d : Nat) (i : Int) : Option Nat :=
  if 0 ≤ i ∧ i < d then some i.toNat
  else if -(d : Int) ≤ i ∧ i < 0 then some (i + d).toNat
  else none

/-- Python-style normalisation of a whole multi-index; the lengths must agree. -/
def pyIndices : List Nat → List Int → Option (List Nat)
  | [], [] => some []
  | d :: ds, i :: is => do
      let j ← pyIndex d i
      let js ← pyIndices ds is
      return j :: js
  | _, _ => none

/-- Address of a multi-index under arbitrary strides: the sum of `index * stride`, as long as both
lists last. -/
def dot : List Nat → List Nat → Nat
  | i :: is, s :: ss => i * s + dot is ss
  | _, _ => 0

end Einsums.Spec
