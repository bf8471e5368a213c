import Verif.Model.Shutdown

/-
What C164 speaks about: uses of the library from `initialize` to `finalize`.
-/
namespace Einsums.Spec
open Model

/-- The library holds nothing: no timers, no streams, handles or pools. -/
def ShutDown (L : LibState) : Prop :=
  L.timer.nodes = [] ∧ L.timer.root = none ∧ L.timer.current = none ∧
  ∀ g, L.gpu = some g → g.pools = [] ∧ g.streams = none ∧ g.blas = none ∧ g.solver = none

/-- A use of the library: `initialize`, timed work, `finalize`. -/
structure LibUse where
  threads : Nat
  clk : Nat → Int
  work : List TimerOp
  arg : FinalizeArg

/-- Its calls in sequence. -/
def LibUse.run (debug : Bool) (openable : String → Bool) (ps : PrintState) (u : LibUse) (L : LibState) : Outcome LibState := do
  let L ← L.initialize u.threads u.clk
  let t ← L.timer.run u.work
  LibState.finalize debug openable ps u.arg { L with timer := t }

/-- The timed calls of a use: `initialize` times a thousand empty blocks to measure the overhead of timing, then the work. -/
def LibUse.log (u : LibUse) : TimerLog :=
  TimerLog.start.run ((List.range 1000).flatMap (fun k =>
    [TimerOp.push 0 false TimerState.overheadName (u.clk (2 * k)), TimerOp.pop 0 (u.clk (2 * k + 1))]) ++ u.work)

/-- The lines of a report on these calls: each timer once, with its time and its number of calls, in the order of the report (C62). -/
def IsReport (indent : Int) (log : TimerLog) (lines : List TimerState.ReportLine) : Prop :=
  ∃ paths : List TimerPath, lines = paths.map (fun p => ⟨indent + 4 * p.length, p.headD [], log.time p, log.calls p⟩) ∧ paths.Nodup ∧
    (∀ p, p ∈ paths ↔ p ∈ log.pushed) ∧ paths.Pairwise (ReportedBefore log.pushed)

/-- The uses of a process in sequence. -/
def runUses (debug : Bool) (openable : String → Bool) (ps : PrintState) : List LibUse → LibState → Outcome LibState
  | [], L => .ok L
  | u :: us, L => do
      let L ← u.run debug openable ps L
      runUses debug openable ps us L

/-- Where the report is to go. -/
def sinkOf : FinalizeArg → Option ReportSink
  | .flag true => some .stdout
  | .flag false => none
  | .cstring f => some (.file f)
  | .string f => some (.file f)

/-- A report can go there. -/
def Writable (openable : String → Bool) : ReportSink → Prop
  | .stdout => True
  | .file f => openable f = true

/-- A use whose report can be written: to somewhere, of timers that are not nested too deep for the indentation of the report, and, in debug
builds, with no timer left running. -/
structure LibUse.Reports (debug : Bool) (openable : String → Bool) (indent : Int) (u : LibUse) (s : ReportSink) : Prop where
  sink : sinkOf u.arg = some s
  writable : Writable openable s
  fits : ∀ p ∈ u.log.pushed, indent + 4 * p.length ≤ 70
  closed : debug = true → u.log.openTimers = some []

end Einsums.Spec
