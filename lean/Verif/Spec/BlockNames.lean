import Verif.Model.BlockNames
/-
Specification of the names of blocks.  A block tensor is, for its user, a list of named blocks; pushing adds one at the end,
inserting one at a position, and a name stands for the first block that has it.
-/
namespace Einsums.Spec
open Model

/-- The list of named blocks after a call. -/
def added (bs : List (NamedBlock α)) : BlockAdd α → List (NamedBlock α)
  | .push x => bs ++ [x]
  | .insert pos x => bs.take pos.toNat ++ x :: bs.drop pos.toNat

/-- The contents of the blocks, in order. -/
def contentsOf (bs : List (NamedBlock α)) : List (Strided α) := bs.map (·.content)

/-- The names of the blocks, in order. -/
def namesOf (bs : List (NamedBlock α)) : List String := bs.map (·.name)

/-- The contents after a call. -/
def contentAdded (cs : List (Strided α)) : BlockAdd α → List (Strided α)
  | .push x => cs ++ [x.content]
  | .insert pos x => cs.take pos.toNat ++ x.content :: cs.drop pos.toNat

/-- Block `i` is the first of the name. -/
def FirstNamed (bs : List (NamedBlock α)) (name : String) (i : Nat) : Prop :=
  ∃ b, bs[i]? = some b ∧ b.name = name ∧ ∀ j < i, ∀ b', bs[j]? = some b' → b'.name ≠ name

/-- A call that is allowed for `n` blocks: the new one is square, and the position is there. -/
def Allowed (n : Nat) : BlockAdd α → Prop
  | .push x => isSquare x.content = true
  | .insert pos x => isSquare x.content = true ∧ 0 ≤ pos ∧ pos ≤ n

/-- All calls are allowed, one after the other. -/
def AllAllowed : Nat → List (BlockAdd α) → Prop
  | _, [] => True
  | n, op :: ops => Allowed n op ∧ AllAllowed (n + 1) ops

end Einsums.Spec
