import Verif.Model.GpuView
/-
Vocabulary for the properties of buffers that are mapped into the address space of the device.
-/
namespace Einsums.Spec
open Einsums.Model

/-- The device sees the byte at the host address `host` at the address `dev`. -/
def Maps (reg : List Registered) (host dev : Nat) : Prop :=
  ∃ r ∈ reg, r.ptr ≤ host ∧ host < r.ptr + r.size ∧ dev = r.dev + (host - r.ptr)

/-- In this operation an allocation of device memory fails. -/
def OutOfMemory : GpuOp → Prop
  | .create _ _ _ _ _ oom => oom = true
  | _ => False

/-- The states in which a program can be: after any sequence of operations; with `oom = false` those in which no allocation of
device memory has failed. -/
inductive Reachable (oom : Bool) : GpuWorld → Prop
  | init : Reachable oom GpuWorld.init
  | step {w w' : GpuWorld} {op : GpuOp} : Reachable oom w → w.allowed op → (OutOfMemory op → oom = true) →
      w.step op = .ok w' → Reachable oom w'

end Einsums.Spec
