import Verif.Model.Outcome
import Mathlib.Data.Nat.Digits.Defs
/-
Line output with indentation: src/Print.cpp.  A text is the list of its bytes.
`indent_level` is a C `int`; overflow after 2^29 nested calls of `indent` is not modelled.
-/
namespace Einsums.Model

/-- Print.cpp 31–36: the global state. -/
structure PrintState where
  indentLevel : Int
  indentString : List UInt8
  printMasterThreadId : Bool
  suppress : Bool
  deriving DecidableEq, Repr

/-- Print.cpp 31–36: the initial values. -/
def PrintState.init : PrintState := ⟨0, [], false, false⟩

namespace PrintState

/-- Print.cpp 48–52: `update_indent_string`. -/
def updateIndentString (s : PrintState) : PrintState :=
  { s with indentString := if 0 < s.indentLevel then List.replicate s.indentLevel.toNat 32 else [] }

/-- Print.cpp 54–59: `indent`, called by OpenMP thread `thread`. -/
def indent (thread : Nat) (s : PrintState) : PrintState :=
  if thread = 0 then updateIndentString { s with indentLevel := s.indentLevel + 4 } else s

/-- Print.cpp 61–68: `deindent`. -/
def deindent (thread : Nat) (s : PrintState) : PrintState :=
  if thread = 0 then
    let level := s.indentLevel - 4
    updateIndentString { s with indentLevel := if level < 0 then 0 else level }
  else s

/-- Print.cpp 74–76: `always_print_thread_id`. -/
def alwaysPrintThreadId (onoff : Bool) (s : PrintState) : PrintState := { s with printMasterThreadId := onoff }

/-- Print.cpp 78–80: `suppress_output`. -/
def suppressOutput (onoff : Bool) (s : PrintState) : PrintState := { s with suppress := onoff }

end PrintState

/-- Print.cpp 91–103: The bytes of an ASCII text. -/
def ascii (cs : List Char) : List UInt8 := cs.map fun c => UInt8.ofNat c.toNat

/-- Print.cpp 95, 99: The decimal digits of a number as text (`operator<<(int)`). -/
def decimal (n : Nat) : List UInt8 :=
  if n = 0 then [48] else ((Nat.digits 10 n).map fun d => UInt8.ofNat (48 + d)).reverse

/-- Print.cpp 95, 99: `std::setw(6)`: padding on the left. -/
def setw6 (s : List UInt8) : List UInt8 := List.replicate (6 - s.length) 32 ++ s

/-- Print.cpp 90–103, 116–129, 140–153: the header of a line, printed by OpenMP thread `thread`, inside a parallel
region or not. -/
def lineHeader (s : PrintState) (inParallel : Bool) (thread : Nat) : List UInt8 :=
  (if inParallel then
    if thread = 0 then
      ascii ['[', ' ', 'm', 'a', 'i', 'n', ' ', '#'] ++ setw6 (decimal 0) ++ ascii [' ', ']', ' ']
    else ascii ['[', ' ', 't', 'i', 'd', ' ', ' ', '#'] ++ setw6 (decimal thread) ++ ascii [' ', ']', ' ']
  else []) ++ s.indentString

/-- Print.cpp 106–107, 131–132: What `"%s"` prints of a string: its bytes up to the first NUL. -/
def cstr (s : List UInt8) : List UInt8 := s.takeWhile (· ≠ 0)

/-- Print.cpp 86–158: Where the text goes. -/
inductive Sink where
  /-- `println` and `fprintln(FILE *)`, which use `printf`. -/
  | file
  /-- `fprintln(std::ostream &)`. -/
  | stream
  deriving DecidableEq, Repr

/-- Print.cpp 105–107, 131–133, 155–156: what one line writes. -/
def lineOutput (sink : Sink) (header line : List UInt8) : List UInt8 :=
  match sink with
  | .file => cstr header ++ (cstr line ++ [10])
  | .stream => header ++ line ++ [10]

/-- Print.cpp 168, 178, 188: `std::getline` on a string stream with the text `s` left: the line and the text left
after it. -/
def getline (s : List UInt8) : Option (List UInt8 × List UInt8) :=
  if s = [] then none else some (s.takeWhile (· ≠ 10), (s.dropWhile (· ≠ 10)).drop 1)

theorem getline_length {s l r : List UInt8} (h : getline s = some (l, r)) : r.length < s.length := by
  unfold getline at h
  split at h
  · cases h
  · rename_i hs
    simp only [Option.some.injEq, Prod.mk.injEq] at h
    have h1 : (s.dropWhile (· ≠ 10)).length ≤ s.length := (List.dropWhile_sublist _).length_le
    have h2 : 0 < s.length := by cases s <;> simp_all
    rw [← h.2, List.length_drop]
    omega

/-- Print.cpp 163–192: the loop of `println` and `fprintln` over the lines of the text. -/
def printLoop (sink : Sink) (header : List UInt8) (s : List UInt8) : List UInt8 :=
  match _h : getline s with
  | none => []
  | some (l, r) => lineOutput sink header l ++ printLoop sink header r
termination_by s.length
decreasing_by exact getline_length _h

/-- Print.cpp 163–192: `println(str)`, `fprintln(fp, str)`, `fprintln(os, str)`: the bytes written. -/
def println (st : PrintState) (sink : Sink) (inParallel : Bool) (thread : Nat) (s : List UInt8) : List UInt8 :=
  if st.suppress then [] else printLoop sink (lineHeader st inParallel thread) s

/-! ### Several threads printing -/

/-- Print.cpp 86–109: Where a thread is in `print_line`. -/
inductive Pc where
  /-- Before taking the lock (line 105), or done. -/
  | outside
  /-- Holding the lock, before line 106. -/
  | locked
  /-- Between lines 106 and 107. -/
  | headerWritten
  /-- After line 107, before releasing the lock. -/
  | lineWritten
  deriving DecidableEq, Repr

/-- Print.cpp 86–109: One thread: the lines still to print, as pairs of header and line, and its position. -/
structure PrintThread where
  todo : List (List UInt8 × List UInt8)
  pc : Pc

/-- Print.cpp 31, 86–109: The threads, the owner of `print::lock` and what has been written. -/
structure PrintSystem where
  threads : Nat → PrintThread
  owner : Option Nat
  output : List UInt8

/-- Print.cpp 86–109: The system with the thread `t` moved. -/
def PrintSystem.move (s : PrintSystem) (t : Nat) (p : PrintThread) (owner : Option Nat) (out : List UInt8) : PrintSystem :=
  ⟨fun u => if u = t then p else s.threads u, owner, s.output ++ out⟩

/-- Print.cpp 105–107, 131–133 and 155–156 as steps of thread `t`: taking the lock, writing the header, writing the line,
releasing the lock.  The three variants of `print_line` share one mutex. -/
inductive PrintStep : PrintSystem → PrintSystem → Prop where
  | lock (s : PrintSystem) (t : Nat) (h : List UInt8) (l : List UInt8) (rest : List (List UInt8 × List UInt8)) :
      s.threads t = ⟨(h, l) :: rest, .outside⟩ → s.owner = none →
      PrintStep s (s.move t ⟨(h, l) :: rest, .locked⟩ (some t) [])
  | header (s : PrintSystem) (t : Nat) (h l : List UInt8) (rest : List (List UInt8 × List UInt8)) :
      s.threads t = ⟨(h, l) :: rest, .locked⟩ →
      PrintStep s (s.move t ⟨(h, l) :: rest, .headerWritten⟩ s.owner (cstr h))
  | line (s : PrintSystem) (t : Nat) (h l : List UInt8) (rest : List (List UInt8 × List UInt8)) :
      s.threads t = ⟨(h, l) :: rest, .headerWritten⟩ →
      PrintStep s (s.move t ⟨(h, l) :: rest, .lineWritten⟩ s.owner (cstr l ++ [10]))
  | unlock (s : PrintSystem) (t : Nat) (h l : List UInt8) (rest : List (List UInt8 × List UInt8)) :
      s.threads t = ⟨(h, l) :: rest, .lineWritten⟩ →
      PrintStep s (s.move t ⟨rest, .outside⟩ none [])

/-- Print.cpp 86–109 (any schedule): Any number of steps of any threads. -/
inductive PrintRun : PrintSystem → PrintSystem → Prop where
  | refl (s : PrintSystem) : PrintRun s s
  | step (s t u : PrintSystem) : PrintRun s t → PrintStep t u → PrintRun s u

end Einsums.Model
