import Verif.Model.HostMemory

/-
What C165 speaks about: which memory is allocated, and statements that leave a tensor in place.
-/
namespace Einsums.Spec
open Model

variable {α : Type}

/-- The block `b` is allocated. -/
def Allocated (P : HostProgram α) (b : Nat) : Prop := ∃ k, P.blocks[b]? = some k ∧ k.live = true

/-- The tensor at `x` holds the block `b`. -/
def HeldBy (P : HostProgram α) (b x : Nat) : Prop := ∃ o, P.at' x = some o ∧ o.owner = true ∧ o.block = some b

/-- The statement leaves the tensor at `x` where it is and with its dimensions, and does not destroy the view at `v`. -/
def Leaves (P : HostProgram α) (x v : Nat) : HostStmt α → Prop
  | .reshape y _ => y ≠ x
  | .resize _ y dims => y = x → ∀ o, P.at' x = some o → dims = o.dims
  | .assign _ y z => y = x → ∀ o p, P.at' x = some o → P.at' z = some p → p.dims = o.dims
  | .destroy y => y ≠ x ∧ y ≠ v
  | _ => True

/-- So do all statements of a program. -/
def Undisturbed (grow : Nat → Nat → Nat) (x v : Nat) : List (HostStmt α) → HostProgram α → Prop
  | [], _ => True
  | s :: ss, P => Leaves P x v s ∧ ∀ P', (P.step grow s = .returns P' ∨ P.step grow s = .throws P') → Undisturbed grow x v ss P'

/-- Destroying objects, in the order given. -/
def destroyHost (xs : List Nat) : List (HostStmt α) := xs.map .destroy

/-- No statement reshapes. -/
def NoReshape (prog : List (HostStmt α)) : Prop := ∀ y req, HostStmt.reshape y req ∉ prog

end Einsums.Spec
