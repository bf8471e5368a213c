import Verif.Model.Outcome

/-!
# Switching OpenMP threads off in a scope (`Utilities.hpp`)

`DisableOMPThreads` and `DisableOMPNestedScope` change a setting of OpenMP when they are constructed
and set it back when they are destroyed, on the normal path and when an exception leaves the scope.

OpenMP is a contract: `omp_set_num_threads` sets what `omp_get_max_threads` returns (the number of
threads of the next parallel region), and nesting is what OpenMP 5.0 defines it by: the greatest
number of active levels, which `omp_set_nested` moves to 1 or to what the implementation supports
only if nesting is not already off or on.
-/

namespace Einsums.Model

/-- The settings of a thread: `nthreads-var` and `max-active-levels-var` (OpenMP 5.0, 2.5.1). -/
structure OmpState where
  threads : Nat
  levels : Nat
  deriving DecidableEq, Repr

/-- `omp_get_nested()` of OpenMP 5.0, called in src/include/einsums/Utilities.hpp 687. -/
def OmpState.nested (s : OmpState) : Bool := 1 < s.levels

/-- `omp_set_nested(b)` of OpenMP 5.0, called in src/include/einsums/Utilities.hpp 688 and 691;
`supported` is the number of active levels the implementation supports. -/
def OmpState.setNested (supported : Nat) (b : Bool) (s : OmpState) : OmpState :=
  if b then
    if s.levels ≤ 1 then { s with levels := supported } else s
  else
    if 1 < s.levels then { s with levels := 1 } else s

/-- `omp_set_num_threads(n)`, called in src/include/einsums/Utilities.hpp 700 and 703. -/
def OmpState.setNumThreads (n : Nat) (s : OmpState) : OmpState := { s with threads := n }

/-- src/include/einsums/Utilities.hpp 698–701: the constructor of `DisableOMPThreads`: the number it
keeps and the settings it leaves. -/
def openThreads (s : OmpState) : Nat × OmpState := (s.threads, s.setNumThreads 1)

/-- src/include/einsums/Utilities.hpp 703: the destructor of `DisableOMPThreads`. -/
def closeThreads (old : Nat) (s : OmpState) : OmpState := s.setNumThreads old

/-- src/include/einsums/Utilities.hpp 686–689: the constructor of `DisableOMPNestedScope`. -/
def openNested (supported : Nat) (s : OmpState) : Bool × OmpState :=
  (s.nested, s.setNested supported false)

/-- src/include/einsums/Utilities.hpp 691: the destructor of `DisableOMPNestedScope`. -/
def closeNested (supported : Nat) (old : Bool) (s : OmpState) : OmpState := s.setNested supported old

/-- Programs that use the two classes as in src/include/einsums/LinearAlgebra.hpp 664 and 763, as
variables of a block: parallel regions, changes of the settings by the program itself, exceptions,
and blocks. -/
inductive OmpProg where
  | skip
  | seq (p q : OmpProg)
  | region
  | setThreads (n : Nat)
  | setLevels (n : Nat)
  | throw
  | attempt (p : OmpProg)
  | noThreads (p : OmpProg)
  | noNested (p : OmpProg)

/-- The settings afterwards, those every parallel region started with, and whether an exception left
the program.  A destructor runs whether its block ends or is left by an exception
(src/include/einsums/Utilities.hpp 685–708); `attempt` catches. -/
def OmpProg.exec (supported : Nat) : OmpProg → OmpState → OmpState × List OmpState × Bool
  | .skip, s => (s, [], false)
  | .seq p q, s =>
    let r := p.exec supported s
    if r.2.2 then r
    else
      let r' := q.exec supported r.1
      (r'.1, r.2.1 ++ r'.2.1, r'.2.2)
  | .region, s => (s, [s], false)
  | .setThreads n, s => (s.setNumThreads n, [], false)
  | .setLevels n, s => ({ s with levels := n }, [], false)
  | .throw, s => (s, [], true)
  | .attempt p, s =>
    let r := p.exec supported s
    (r.1, r.2.1, false)
  | .noThreads p, s =>
    let o := openThreads s
    let r := p.exec supported o.2
    (closeThreads o.1 r.1, r.2.1, r.2.2)
  | .noNested p, s =>
    let o := openNested supported s
    let r := p.exec supported o.2
    (closeNested supported o.1 r.1, r.2.1, r.2.2)

/-- Scopes that are objects on the heap, made and destroyed in any order: the settings and the numbers
the objects keep (src/include/einsums/Utilities.hpp 697–708). -/
inductive ScopeOp where
  | make
  | destroy (i : Nat)

/-- One operation on objects of `DisableOMPThreads` (src/include/einsums/Utilities.hpp 698–703);
destroying an object that does not exist, or no longer, is undefined. -/
def scopeStep (st : OmpState × List (Option Nat)) : ScopeOp → Outcome (OmpState × List (Option Nat))
  | .make =>
    let o := openThreads st.1
    .ok (o.2, st.2 ++ [some o.1])
  | .destroy i =>
    match st.2[i]? with
    | some (some old) => .ok (closeThreads old st.1, st.2.set i none)
    | _ => .ub "destructor of an object that does not exist"

/-- A sequence of such operations (src/include/einsums/Utilities.hpp 697–708). -/
def scopeRun (s : OmpState) (ops : List ScopeOp) : Outcome (OmpState × List (Option Nat)) :=
  ops.foldlM scopeStep (s, [])

end Einsums.Model
