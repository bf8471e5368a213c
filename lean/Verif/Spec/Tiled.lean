import Verif.Spec.Index
/-
Specification vocabulary for tiled tensors: a partition of every axis into consecutive intervals.
-/
namespace Einsums.Spec

/-- First index of interval `t` of an axis partitioned into intervals of the given lengths. -/
def tileStart (sizes : List Nat) (t : Nat) : Nat := (sizes.take t).sum

/-- `InTile parts t j`: for every axis, index `j` lies in interval number `t` of that axis. -/
def InTile : List (List Nat) → List Nat → List Nat → Prop
  | [], [], [] => True
  | ss :: parts, t :: ts, j :: js =>
      (∃ s, ss[t]? = some s ∧ tileStart ss t ≤ j ∧ j < tileStart ss t + s) ∧ InTile parts ts js
  | _, _, _ => False

/-- Number of intervals on each axis. -/
def gridDims (parts : List (List Nat)) : List Nat := parts.map List.length

/-- Length of each axis. -/
def fullDims (parts : List (List Nat)) : List Nat := parts.map List.sum

/-- Shape of tile `t`. -/
def tileDims : List (List Nat) → List Nat → List Nat
  | ss :: parts, t :: ts => ss.getD t 0 :: tileDims parts ts
  | _, _ => []

/-- Multi-index, in the whole tensor, of element `l` of tile `t`. -/
def tileGlobal : List (List Nat) → List Nat → List Nat → List Nat
  | ss :: parts, t :: ts, l :: ls => (tileStart ss t + l) :: tileGlobal parts ts ls
  | _, _, _ => []

/-- Partitions of a matrix whose `op` has its rows partitioned by `M` and its columns by `N`. -/
def opParts (trans : Bool) (M N : List Nat) : List (List Nat) := if trans then [N, M] else [M, N]

end Einsums.Spec
