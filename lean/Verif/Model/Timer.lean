import Verif.Model.Print
import Verif.Model.Stl
/-
The tree of timers: src/Timer.cpp, include/einsums/Timer.hpp, src/Section.cpp.

The `TimerDetail` objects are the entries of a list, their addresses the positions in it: `std::map` never moves its
elements.  Times and durations are integers (ticks of the clock since its epoch), without overflow; every reading of the
clock is an argument.  The mutex makes each call one step.
-/
namespace Einsums.Model

/-- Timer.cpp 28–43: The bytes of a timer's name. -/
abbrev TimerName := List UInt8

/-- Timer.cpp 28–43: `TimerDetail`. -/
structure TimerDetail where
  name : TimerName
  totalTime : Int
  totalCalls : Nat
  parent : Option Nat
  children : List (TimerName × Nat)
  order : List TimerName
  startTime : Int
  deriving DecidableEq, Repr

/-- The warnings of Timer.cpp 154, 180, 202. -/
inductive TimerWarning where
  | push
  | pop
  deriving DecidableEq, Repr

/-- Timer.cpp 45–46: `current_timer`, `root` and the objects they lead to; 143, 173, 195: the three `already_warned`;
`warnings`: the warnings printed. -/
structure TimerState where
  nodes : List TimerDetail
  current : Option Nat
  root : Option Nat
  warnedPush : Bool
  warnedPop : Bool
  warnedPopElapsed : Bool
  warnings : List TimerWarning
  deriving DecidableEq, Repr

namespace TimerState

/-- Timer.cpp 45–46, 143, 173, 195: the state of a new process. -/
def fresh : TimerState := ⟨[], none, none, false, false, false, []⟩

/-- Timer.cpp 28–46: Access through a pointer. -/
def deref (st : TimerState) (i : Nat) : Outcome TimerDetail :=
  match st.nodes[i]? with
  | some nd => .ok nd
  | none => .ub "dangling pointer"

/-- Timer.cpp 149: what is added to the name inside a parallel region. -/
def masterSuffix : TimerName :=
  ascii [' ', '(', 'm', 'a', 's', 't', 'e', 'r', ' ', 't', 'h', 'r', 'e', 'a', 'd', ' ', 'o', 'n', 'l', 'y', ')']

/-- Timer.cpp 160–166: the child called `name` of the timer `cur` at `i`, made if there is none. -/
def child (st : TimerState) (i : Nat) (cur : TimerDetail) (name : TimerName) : List TimerDetail × Nat :=
  match cur.children.lookup name with
  | some j => (st.nodes, j)
  | none =>
    (st.nodes.set i { cur with children := cur.children ++ [(name, st.nodes.length)], order := cur.order ++ [name] } ++
      [⟨name, 0, 0, some i, [], [], 0⟩], st.nodes.length)

/-- Timer.cpp 140–169: `push(name)` by OpenMP thread `thread`; `now` is the reading of the clock on line 167. -/
def push (thread : Nat) (inParallel : Bool) (name : TimerName) (now : Int) (st : TimerState) : Outcome TimerState :=
  if thread = 0 then
    let name := if inParallel then name ++ masterSuffix else name
    match st.current with
    | none =>
      if st.warnedPush then .ok st
      else .ok { st with warnedPush := true, warnings := st.warnings ++ [.push] }
    | some i => do
      let cur ← st.deref i
      let (nodes, j) := st.child i cur name
      let st := { st with nodes := nodes, current := some j }
      let nd ← st.deref j
      .ok { st with nodes := st.nodes.set j { nd with startTime := now } }
  else .ok st

/-- Timer.cpp 187–189, 209–211: accounting for the current timer `nd` at `i` and leaving it. -/
def leave (st : TimerState) (i : Nat) (nd : TimerDetail) (elapsed : Int) : TimerState :=
  { st with
    nodes := st.nodes.set i { nd with totalTime := nd.totalTime + elapsed, totalCalls := nd.totalCalls + 1 }
    current := nd.parent }

/-- Timer.cpp 171–191: `pop()`; `now` is the reading of the clock on line 187. -/
def pop (thread : Nat) (now : Int) (st : TimerState) : Outcome TimerState :=
  if thread = 0 then
    match st.current with
    | none =>
      if st.warnedPop then .ok st
      else .ok { st with warnedPop := true, warnings := st.warnings ++ [.pop] }
    | some i => do
      let nd ← st.deref i
      .ok (st.leave i nd (now - nd.startTime))
  else .ok st

/-- Timer.cpp 193–213: `pop(elapsed)`. -/
def popElapsed (thread : Nat) (elapsed : Int) (st : TimerState) : Outcome TimerState :=
  if thread = 0 then
    match st.current with
    | none =>
      if st.warnedPopElapsed then .ok st
      else .ok { st with warnedPopElapsed := true, warnings := st.warnings ++ [.pop] }
    | some i => do
      let nd ← st.deref i
      .ok (st.leave i nd elapsed)
  else .ok st

/-- "Total Run Time", Timer.cpp 53. -/
def rootName : TimerName := ascii ['T', 'o', 't', 'a', 'l', ' ', 'R', 'u', 'n', ' ', 'T', 'i', 'm', 'e']

/-- "Timer Overhead", Timer.cpp 60. -/
def overheadName : TimerName := ascii ['T', 'i', 'm', 'e', 'r', ' ', 'O', 'v', 'e', 'r', 'h', 'e', 'a', 'd']

/-- Timer.cpp 59–62: the loop of `initialize`; `clk` are the readings of the clock. -/
def overhead (thread : Nat) (inParallel : Bool) (clk : Nat → Int) : Nat → TimerState → Outcome TimerState
  | 0, st => .ok st
  | n + 1, st => do
    let st ← overhead thread inParallel clk n st
    let st ← st.push thread inParallel overheadName (clk (2 * n))
    st.pop thread (clk (2 * n + 1))

/-- Timer.cpp 50–63: `initialize`.  Timers of an earlier call are leaked; nothing leads to them any more. -/
def initialise (thread : Nat) (inParallel : Bool) (clk : Nat → Int) (st : TimerState) : Outcome TimerState :=
  overhead thread inParallel clk 1000
    { st with nodes := [⟨rootName, 0, 1, none, [], [], 0⟩], current := some 0, root := some 0 }

/-- Timer.cpp 65–70: `finalize`; the assertion is checked in debug builds only. -/
def finalize (debug : Bool) (st : TimerState) : Outcome TimerState :=
  if debug ∧ st.root ≠ st.current then .ub "assert(root == current_timer)"
  else .ok { st with nodes := [], current := none, root := none }

/-! ### The report -/

/-- Timer.cpp 85–101: One line of the report: the indentation that precedes it, and the timer it is about.  The
text of the numbers is not
modelled. -/
structure ReportLine where
  indent : Int
  name : TimerName
  totalTime : Int
  totalCalls : Nat
  deriving DecidableEq, Repr

/-- Timer.cpp 85: the line of a timer other than the root.  `{0:<{1}}` with a negative width throws. -/
def reportLine (ps : PrintState) (nd : TimerDetail) : Outcome ReportLine :=
  if 70 - ps.indentLevel < 0 then .error "fmt::format_error: negative width"
  else .ok ⟨ps.indentLevel, nd.name, nd.totalTime, nd.totalCalls⟩

/-- Timer.cpp 93–101: the children of the timer `nd`, each printed by `rec`.  `children[child]` exists for every entry
of `order`; if it did not, the code would make an empty timer. -/
def reportChildren (thread : Nat) (rec : Nat → PrintState → Outcome (PrintState × List ReportLine)) (nd : TimerDetail)
    (ps : PrintState) : Outcome (PrintState × List ReportLine) :=
  if nd.children = [] then .ok (ps, [])
  else do
    let (ps, lines) ← nd.order.foldlM (fun (acc : PrintState × List ReportLine) name => do
      match nd.children.lookup name with
      | none => .ub "no such child"
      | some j =>
        let (ps, lines) ← rec j acc.1
        .ok (ps, acc.2 ++ lines)) (ps.indent thread, [])
    .ok (ps.deindent thread, lines)

/-- Timer.cpp 76–102: `print_timer_info(timer, os)` with the depth of recursion bounded by `fuel`.  The five lines of the
heading are not part of the result. -/
def printTimerInfo (thread : Nat) (st : TimerState) : Nat → Nat → PrintState → Outcome (PrintState × List ReportLine)
  | 0, _, _ => .ub "recursion too deep"
  | fuel + 1, i, ps => do
    let nd ← st.deref i
    let line ← if st.root ≠ some i then (fun l => [l]) <$> reportLine ps nd else .ok []
    let (ps, lines) ← reportChildren thread (printTimerInfo thread st fuel) nd ps
    .ok (ps, line ++ lines)

/-- Timer.cpp 115–138: `report`.  The recursion is at most as deep as there are timers. -/
def report (thread : Nat) (st : TimerState) (ps : PrintState) : Outcome (PrintState × List ReportLine) :=
  match st.root with
  | none => .ub "null pointer"
  | some i => printTimerInfo thread st st.nodes.length i ps

end TimerState

/-! ### Sections -/

/-- Section.cpp 20–27, Section.hpp 66: a section; `impl` is empty after `end()`. -/
structure SectionObj where
  impl : Option (TimerName × Bool)
  deriving DecidableEq, Repr

/-- Section.cpp 29–51, 57–64: the constructors (the domain is for VTune only). -/
def SectionObj.construct (thread : Nat) (inParallel : Bool) (name : List UInt8) (pushTimer : Bool) (now : Int)
    (st : TimerState) : Outcome (SectionObj × TimerState) := do
  let st ← if pushTimer then st.push thread inParallel (trim name) now else .ok st
  .ok (⟨some (trim name, pushTimer)⟩, st)

/-- Section.cpp 66–76: `end()`; 53–55: the destructor calls it. -/
def SectionObj.end' (thread : Nat) (now : Int) (s : SectionObj) (st : TimerState) : Outcome (SectionObj × TimerState) := do
  let st ← match s.impl with
    | some (_, true) => st.pop thread now
    | _ => .ok st
  .ok (⟨none⟩, st)

end Einsums.Model
