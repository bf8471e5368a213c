import Verif.Spec.Index
/-
Specification of matrix products on functions of indices.
-/
namespace Einsums.Spec

/-- Element (i, j) of `op(M)`, where `M` is given as a function of the multi-index. -/
def opElem (trans : Bool) (f : List Nat → R) (i j : Nat) : R := if trans then f [j, i] else f [i, j]

/-- Shape of a matrix whose `op` is `m × n`. -/
def opDims (trans : Bool) (m n : Nat) : List Nat := if trans then [n, m] else [m, n]

/-- Sum of `g 0 + ... + g (n-1)`. -/
def sumTo [Add R] [Zero R] (n : Nat) (g : Nat → R) : R := ((List.range n).map g).sum

end Einsums.Spec
