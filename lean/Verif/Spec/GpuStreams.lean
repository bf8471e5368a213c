import Verif.Model.GpuStreams
/-
What waiting means.
-/
namespace Einsums.Spec
open Model

/-- Everything the thread has queued, in whatever stream, is done. -/
def AllDone (t : Nat) (S : GpuQueue) : Prop :=
  ∀ (s : Nat) (g : GStream), S.streams[s]? = some g → ∀ i : Nat, g.log[i]? = some t → i < g.done

/-- The thread that takes the step. -/
def threadOf : QEvent → Option Nat
  | .device _ => none
  | .kernel t | .blas t | .solver t | .skipNext t | .store t | .wait t _ | .waitOn t _ | .record t | .recordFails t | .wake t
  | .waitAll t _ | .setStream t _ _ => some t

/-- Whether the next skippable wait of the thread is to be skipped: it asked for that and has not called one since. -/
def Asked (t : Nat) (es : List QEvent) : Prop :=
  ∃ before after, es = before ++ .skipNext t :: after ∧ .wait t true ∉ after

/-- A thread is updating its flag. -/
def Flagging (S : GpuQueue) (t : Nat) : Prop := ∃ w b, S.pc t = .flag w b

/-- What the users of the streams have to keep to: a thread sets its own stream only, and only when its work is done; no two threads
update their flags at the same time. -/
def CarefulStep (S : GpuQueue) : QEvent → Prop
  | .setStream t _ tid => tid = t ∧ AllDone t S
  | .skipNext t => ∀ u, u ≠ t → ¬ Flagging S u
  | .wait t true => ∀ u, u ≠ t → ¬ Flagging S u
  | _ => True

/-- The same for an execution. -/
def Careful (S : GpuQueue) : List QEvent → Prop
  | [] => True
  | e :: es => CarefulStep S e ∧ ∀ S', S.step e = some S' → Careful S' es

end Einsums.Spec
