import Verif.Model.Print
/-
What line output should do.
-/
namespace Einsums.Spec

/-- `ls` are the lines of the text `s`: the text is the lines, each ended by a newline, the newline of a non-empty last
line being optional. -/
def IsLines (s : List UInt8) (ls : List (List UInt8)) : Prop :=
  (∀ l ∈ ls, (10 : UInt8) ∉ l) ∧
  (s = ls.flatMap (· ++ [10]) ∨ (s ++ [10] = ls.flatMap (· ++ [10]) ∧ ∃ l, ls.getLast? = some l ∧ l ≠ []))

/-- Calls that change the indentation, with the OpenMP thread that makes them. -/
inductive IndentOp where
  | indent (thread : Nat)
  | deindent (thread : Nat)
  deriving DecidableEq, Repr

/-- What a call of the master thread adds to the number of open indentations; calls of other threads are ignored. -/
def IndentOp.weight : IndentOp → Int
  | .indent 0 => 1
  | .deindent 0 => -1
  | _ => 0

/-- Indentations minus deindentations of the master thread. -/
def balance (ops : List IndentOp) : Int := (ops.map IndentOp.weight).sum

/-- `out` consists of whole lines: `prints` says, line by line, which thread printed which header and line. -/
def WholeLines (out : List UInt8) (prints : List (Nat × List UInt8 × List UInt8)) : Prop :=
  out = prints.flatMap fun p => p.2.1 ++ p.2.2 ++ [10]

end Einsums.Spec

namespace Einsums.Model
open Spec

/-- One call of `indent` or `deindent`. -/
def indentStep (s : PrintState) : IndentOp → PrintState
  | .indent t => s.indent t
  | .deindent t => s.deindent t

/-- Running calls of `indent` and `deindent`. -/
def runIndent (ops : List IndentOp) (s : PrintState) : PrintState := ops.foldl indentStep s

end Einsums.Model
