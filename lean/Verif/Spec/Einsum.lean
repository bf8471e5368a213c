import Verif.Spec.Index
/-
Specification of a pairwise tensor contraction over labels, independent of the code.
`L` is the type of labels; an assignment `ρ : L → Nat` gives every label a value.
-/
namespace Einsums.Spec

/-- Assignment `ρ` with label `l` set to `x`. -/
def update [DecidableEq L] (ρ : L → Nat) (l : L) (x : Nat) : L → Nat :=
  fun m => if m = l then x else ρ m

/-- Sum of `F` over all values (below `δ l`) of each label `l` in the list, other labels as in `ρ`. -/
def sumOver [DecidableEq L] [Add R] [Zero R] (δ : L → Nat) :
    List L → (L → Nat) → ((L → Nat) → R) → R
  | [], ρ, F => F ρ
  | l :: ls, ρ, F => ((List.range (δ l)).map fun x => sumOver δ ls (update ρ l x) F).sum

/-- `ls` lists, once each, the labels that occur in both `A` and `B` but not in `C`. -/
def Contracted (Al Bl Cl ls : List L) : Prop :=
  ls.Nodup ∧ ∀ l, l ∈ ls ↔ l ∈ Al ∧ l ∈ Bl ∧ l ∉ Cl

/-- The contraction `Σ_ls A(Al) * B(Bl)` at the values `ρ` of the other labels. -/
def contraction [DecidableEq L] [Add R] [Zero R] [Mul R] (δ : L → Nat) (ls Al Bl : List L)
    (fA fB : List Nat → R) (ρ : L → Nat) : R :=
  sumOver δ ls ρ fun σ => fA (Al.map σ) * fB (Bl.map σ)

/-- `ρ` is in range for the labels in `ls`. -/
def InRange (δ : L → Nat) (ls : List L) (ρ : L → Nat) : Prop := ∀ l ∈ ls, ρ l < δ l

end Einsums.Spec
