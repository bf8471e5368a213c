import Verif.Model.Timer
/-
What the timers should account for.  A path is the names of a timer and of those around it, innermost first.
-/
namespace Einsums.Spec
open Model

abbrev TimerPath := List TimerName

/-- The calls, with the OpenMP thread that makes them and the reading of the clock. -/
inductive TimerOp where
  | push (thread : Nat) (inParallel : Bool) (name : TimerName) (now : Int)
  | pop (thread : Nat) (now : Int)
  | popElapsed (thread : Nat) (elapsed : Int)
  deriving DecidableEq, Repr

/-- The thread that makes a call. -/
def TimerOp.thread : TimerOp → Nat
  | .push t _ _ _ => t
  | .pop t _ => t
  | .popElapsed t _ => t

/-- What has happened: the open timers with their starting times, innermost first, or `none` once the root has been
popped; the paths that have been pushed, in order of the first push; the completed calls with their durations. -/
structure TimerLog where
  openTimers : Option (List (TimerName × Int))
  pushed : List TimerPath
  completed : List (TimerPath × Int)
  deriving DecidableEq, Repr

namespace TimerLog

/-- Right after `initialize`, without its own timer. -/
def start : TimerLog := ⟨some [], [], []⟩

/-- Completing the innermost open timer; `elapsed` is computed from its starting time.  The root started at time 0. -/
def complete (elapsed : Int → Int) (l : TimerLog) : TimerLog :=
  match l.openTimers with
  | none => l
  | some [] => { l with openTimers := none, completed := l.completed ++ [([], elapsed 0)] }
  | some ((n, s) :: fs) =>
    { l with openTimers := some fs, completed := l.completed ++ [(n :: fs.map (·.1), elapsed s)] }

/-- One call. -/
def step (l : TimerLog) : TimerOp → TimerLog
  | .push thread par name now =>
    if thread = 0 then
      match l.openTimers with
      | none => l
      | some fs =>
        let n := if par then name ++ TimerState.masterSuffix else name
        { l with
          openTimers := some ((n, now) :: fs)
          pushed := if n :: fs.map (·.1) ∈ l.pushed then l.pushed else l.pushed ++ [n :: fs.map (·.1)] }
    else l
  | .pop thread now => if thread = 0 then l.complete (fun s => now - s) else l
  | .popElapsed thread elapsed => if thread = 0 then l.complete (fun _ => elapsed) else l

/-- A sequence of calls. -/
def run (l : TimerLog) (ops : List TimerOp) : TimerLog := ops.foldl step l

/-- Number of completed calls of a timer. -/
def calls (l : TimerLog) (p : TimerPath) : Nat := (l.completed.filter (·.1 = p)).length

/-- Accumulated time of a timer. -/
def time (l : TimerLog) (p : TimerPath) : Int := ((l.completed.filter (·.1 = p)).map (·.2)).sum

end TimerLog

/-- How a timed block ends: `pop()` at a time, or `pop(elapsed)`. -/
inductive TimerStop where
  | now (t : Int)
  | elapsed (d : Int)
  deriving DecidableEq, Repr

/-- A program with well-nested timers. -/
inductive TimedProgram where
  | done
  /-- A block called `name` from `start` to `stop` around `body`, then `rest`. -/
  | block (name : TimerName) (inParallel : Bool) (start : Int) (stop : TimerStop) (body rest : TimedProgram)

namespace TimedProgram

/-- The name under which a block is timed. -/
def effective (name : TimerName) (inParallel : Bool) : TimerName :=
  if inParallel then name ++ TimerState.masterSuffix else name

/-- How long a block takes. -/
def duration (start : Int) : TimerStop → Int
  | .now t => t - start
  | .elapsed d => d

/-- The call that ends a block. -/
def stopOp : TimerStop → TimerOp
  | .now t => .pop 0 t
  | .elapsed d => .popElapsed 0 d

/-- The calls it makes. -/
def ops : TimedProgram → List TimerOp
  | done => []
  | block name par start stop body rest => .push 0 par name start :: (body.ops ++ stopOp stop :: rest.ops)

/-- The blocks it completes when run inside the timer `p`, with their durations. -/
def blocks (p : TimerPath) : TimedProgram → List (TimerPath × Int)
  | done => []
  | block name par start stop body rest =>
    (effective name par :: p, duration start stop) :: (body.blocks (effective name par :: p) ++ rest.blocks p)

end TimedProgram

/-- `p` comes before `q` in the report: it is around `q`, or within the same timer `a` the branch towards `p` was pushed
first before the branch towards `q`. -/
def ReportedBefore (pushed : List TimerPath) (p q : TimerPath) : Prop :=
  (p <:+ q ∧ p ≠ q) ∨
  ∃ a m n, m :: a <:+ p ∧ n :: a <:+ q ∧ m ≠ n ∧ ∃ i j : Nat, i < j ∧ pushed[i]? = some (m :: a) ∧ pushed[j]? = some (n :: a)

end Einsums.Spec

namespace Einsums.Model
open Spec

namespace TimerState

/-- One call. -/
def step (st : TimerState) : TimerOp → Outcome TimerState
  | .push thread par name now => st.push thread par name now
  | .pop thread now => st.pop thread now
  | .popElapsed thread elapsed => st.popElapsed thread elapsed

/-- A sequence of calls. -/
def run (st : TimerState) (ops : List TimerOp) : Outcome TimerState := ops.foldlM step st

/-- The timer with a path: from the root through the maps of children. -/
def find (st : TimerState) : TimerPath → Option Nat
  | [] => st.root
  | n :: p => (st.find p).bind fun i => st.nodes[i]?.bind fun nd => nd.children.lookup n

/-- Its number of calls; a timer that does not exist has none. -/
def callsOf (st : TimerState) (p : TimerPath) : Nat :=
  ((st.find p).bind fun i => st.nodes[i]?).elim 0 TimerDetail.totalCalls

/-- Its accumulated time. -/
def timeOf (st : TimerState) (p : TimerPath) : Int :=
  ((st.find p).bind fun i => st.nodes[i]?).elim 0 TimerDetail.totalTime

end TimerState
end Einsums.Model
