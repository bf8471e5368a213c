import Verif.Model.Locks
/-
What the locks of tensors and views should do, in terms of the history of a program: which object has the elements of which
other, and how often each thread has taken and returned the lock.
-/
namespace Einsums
open Model

/-- For every object created by the history, the object whose elements it shows: a tensor its own, a view those of what it is a
view of. -/
def storageStep (s : List Nat) : LockOp → List Nat
  | .tensor => s ++ [s.length]
  | .viewOf o | .copyOfView o | .pointerView o | .diskView o => s ++ [s.getD o s.length]
  | _ => s

def storages (ops : List LockOp) : List Nat := ops.foldl storageStep []

/-- The lock families of a history: a tensor starts a family, a view made by naming a tensor or a view belongs to the family of that;
a copy of a view, a view made of a pointer and a view of a disk tensor start a family of their own. -/
def familyStep (s : List Nat) : LockOp → List Nat
  | .viewOf o => s ++ [s.getD o s.length]
  | .tensor | .copyOfView _ | .pointerView _ | .diskView _ => s ++ [s.length]
  | _ => s

def families (ops : List LockOp) : List Nat := ops.foldl familyStep []

/-- Which objects exist after the history. -/
def aliveStep (s : List Bool) : LockOp → List Bool
  | .tensor | .viewOf _ | .copyOfView _ | .pointerView _ | .diskView _ => s ++ [true]
  | .destroy o => s.set o false
  | _ => s

def Alive (ops : List LockOp) (o : Nat) : Prop := (ops.foldl aliveStep [])[o]? = some true

/-- How an operation with result `done` changes the number of times that thread `t` holds the objects in `S`. -/
def holdChange (S : Nat → Prop) [DecidablePred S] (t : Nat) : LockOp × Bool → Int
  | (.lock t' o, true) | (.tryLock t' o, true) => if t' = t ∧ S o then 1 else 0
  | (.unlock t' o, _) => if t' = t ∧ S o then -1 else 0
  | _ => 0

/-- How often thread `t` holds the objects in `S`: calls of `lock` and `try_lock` that succeeded minus calls of `unlock`. -/
def holds (S : Nat → Prop) [DecidablePred S] (t : Nat) (log : List (LockOp × Bool)) : Int :=
  (log.map (holdChange S t)).sum

/-- How often thread `t` holds the objects of the lock family of `o` after the history `ops` with the results `rs`. -/
def holdsFamily (ops : List LockOp) (rs : List Bool) (o t : Nat) : Int :=
  holds (fun x => (families ops)[x]? = (families ops)[o]?) t (ops.zip rs)

/-- How often thread `t` holds objects that show the same elements as `o`. -/
def holdsElements (ops : List LockOp) (rs : List Bool) (o t : Nat) : Int :=
  holds (fun x => (storages ops)[x]? = (storages ops)[o]?) t (ops.zip rs)

/-- The history makes views only by naming a tensor or a view. -/
def PlainViews (ops : List LockOp) : Prop :=
  ∀ op ∈ ops, match op with
    | .copyOfView _ | .pointerView _ | .diskView _ => False
    | _ => True

end Einsums
