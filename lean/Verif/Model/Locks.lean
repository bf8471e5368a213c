import Verif.Model.Outcome
/-
Model of the locks of tensors and views: utility/TensorBases.hpp 161–199 (`LockableTensorBase`), Tensor.hpp 167, 1015, 1053–1093,
1355 (which constructors share a lock), 1884–1898 (`DiskView`), BlockTensor.hpp 286–298 (`push_block`).

Objects are numbered in the order in which they are created, threads are numbered too.  A lock is a `std::recursive_mutex` held
by a `std::shared_ptr`: it lives as long as an object refers to it.
Simplifications: a thread can lock a mutex any number of times (the standard lets an implementation limit it); the mutex that
a view creates for itself and drops at Tensor.hpp 1355 is not counted.
-/
namespace Einsums.Model

/-- TensorBases.hpp 161–199: the mutex of every object (nothing after its destructor), and for every mutex the thread that owns
it and how often it locked it. -/
structure LockWorld where
  mutex : List (Option Nat)
  owner : Nat → Option (Nat × Nat)

/-- TensorBases.hpp 171–188 and Tensor.hpp 167–1355: what a program can do with the locks. -/
inductive LockOp
  /-- Tensor.hpp 162–167 and the other constructors of tensors, also copies of tensors and tensors made of views -/
  | tensor
  /-- Tensor.hpp 1022–1049: a view of the tensor or view `o`, also by `operator()` -/
  | viewOf (o : Nat)
  /-- Tensor.hpp 1015, 1306: a copy of the view `o` -/
  | copyOfView (o : Nat)
  /-- Tensor.hpp 1053–1093: a view made of the pointer to the elements of `o` -/
  | pointerView (o : Nat)
  /-- Tensor.hpp 1881–1895: a view of the disk tensor `o` -/
  | diskView (o : Nat)
  /-- Tensor.hpp 700, 1121: assignment of `src` to `dst` -/
  | assign (dst src : Nat)
  /-- Tensor.hpp 172, 1016: the end of the lifetime of `o` -/
  | destroy (o : Nat)
  /-- TensorBases.hpp 178 -/
  | lock (t o : Nat)
  /-- TensorBases.hpp 183 -/
  | tryLock (t o : Nat)
  /-- TensorBases.hpp 188 -/
  | unlock (t o : Nat)

/-- TensorBases.hpp 168: the mutex of the object `o`; to use an object that does not exist is undefined. -/
def LockWorld.mutexOf (w : LockWorld) (o : Nat) : Outcome Nat :=
  match w.mutex[o]? with
  | some (some m) => .ok m
  | _ => .ub "use of an object that does not exist"

/-- TensorBases.hpp 171, 173: a new object with a new mutex. -/
def LockWorld.fresh (w : LockWorld) : LockWorld := { w with mutex := w.mutex ++ [some w.mutex.length] }

/-- TensorBases.hpp 178, 183: what `recursive_mutex::lock` does when thread `t` need not wait; nothing if it has to. -/
def LockWorld.acquire (w : LockWorld) (t m : Nat) : Option LockWorld :=
  match w.owner m with
  | none => some { w with owner := fun x => if x = m then some (t, 1) else w.owner x }
  | some (t', n) => if t' = t then some { w with owner := fun x => if x = m then some (t, n + 1) else w.owner x } else none

/-- TensorBases.hpp 188: `recursive_mutex::unlock`; undefined if the thread does not own the mutex. -/
def LockWorld.release (w : LockWorld) (t m : Nat) : Outcome LockWorld :=
  match w.owner m with
  | some (t', n) =>
      if t' = t then .ok { w with owner := fun x => if x = m then (if n ≤ 1 then none else some (t, n - 1)) else w.owner x }
      else .ub "unlock of a mutex of another thread"
  | none => .ub "unlock of a mutex that is not locked"

/-- Tensor.hpp 172, 1016: the destructor of `o`.  To destroy a mutex that is owned is undefined. -/
def LockWorld.destroy (w : LockWorld) (o m : Nat) : Outcome LockWorld :=
  let w' : LockWorld := { w with mutex := w.mutex.set o none }
  if !w'.mutex.contains (some m) && (w.owner m).isSome then .ub "destruction of a locked mutex" else .ok w'

/-- TensorBases.hpp 161–199: one operation.  The second result says whether it is done: `false` for a `try_lock` that returns
`false` and for a `lock` that has to wait (and so has done nothing yet). -/
def lockStep (w : LockWorld) : LockOp → Outcome (LockWorld × Bool)
  | .tensor => .ok (w.fresh, true)
  | .viewOf o => do
      let m ← w.mutexOf o
      return ({ w with mutex := w.mutex ++ [some m] }, true)
  | .copyOfView o => do
      let _ ← w.mutexOf o
      return (w.fresh, true)
  | .pointerView o => do
      let _ ← w.mutexOf o
      return (w.fresh, true)
  | .diskView o => do
      let _ ← w.mutexOf o
      return (w.fresh, true)
  | .assign dst src => do
      let _ ← w.mutexOf dst
      let _ ← w.mutexOf src
      return (w, true)
  | .destroy o => do
      let m ← w.mutexOf o
      let w ← w.destroy o m
      return (w, true)
  | .lock t o => do
      let m ← w.mutexOf o
      match w.acquire t m with
      | some w => return (w, true)
      | none => return (w, false)
  | .tryLock t o => do
      let m ← w.mutexOf o
      match w.acquire t m with
      | some w => return (w, true)
      | none => return (w, false)
  | .unlock t o => do
      let m ← w.mutexOf o
      let w ← w.release t m
      return (w, true)

/-- TensorBases.hpp 161–199: a history of operations from a program without tensors, and what each of them returned. -/
def lockRun (ops : List LockOp) : Outcome (LockWorld × List Bool) :=
  ops.foldlM (fun (p : LockWorld × List Bool) op => do
    let (w, b) ← lockStep p.1 op
    return (w, p.2 ++ [b])) (⟨[], fun _ => none⟩, [])

/-- BlockTensor.hpp 286–298: what `push_block` does to the blocks `os` when the vector has to grow: `Tensor` has no move
constructor (Tensor.hpp 167), so that every block is copied to its new place and the old one destroyed; then the new block. -/
def growBlocks (os : List Nat) : List LockOp :=
  os.map (fun _ => LockOp.tensor) ++ os.map LockOp.destroy ++ [.tensor]

end Einsums.Model
