import Verif.Spec.Einsum
/-
The summation convention of the Python interface (that of `numpy.einsum`).
-/
namespace Einsums.Spec

/-- `ls` lists, once each, the labels of `A` and of `B` that do not occur in `C`: the ones summed over. -/
def Summed (Al Bl Cl ls : List L) : Prop :=
  ls.Nodup ∧ ∀ l, l ∈ ls ↔ (l ∈ Al ∨ l ∈ Bl) ∧ l ∉ Cl

end Einsums.Spec
