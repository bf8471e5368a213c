import Verif.Model.OmpScope

/-!
# What scopes without OpenMP threads should do
-/

namespace Einsums.Spec

open Model

/-- The program does not change the number of threads itself. -/
def NoSetThreads : OmpProg → Prop
  | .seq p q => NoSetThreads p ∧ NoSetThreads q
  | .setThreads _ => False
  | .attempt p | .noThreads p | .noNested p => NoSetThreads p
  | _ => True

/-- The program does not change the number of levels itself. -/
def NoSetLevels : OmpProg → Prop
  | .seq p q => NoSetLevels p ∧ NoSetLevels q
  | .setLevels _ => False
  | .attempt p | .noThreads p | .noNested p => NoSetLevels p
  | _ => True

/-- The parallel regions that a program reaches, in order, each with whether it is in a block without
threads and whether it is in a block without nesting; and whether an exception leaves the program. -/
def regions : OmpProg → Bool → Bool → List (Bool × Bool) × Bool
  | .skip, _, _ | .setThreads _, _, _ | .setLevels _, _, _ => ([], false)
  | .region, t, n => ([(t, n)], false)
  | .throw, _, _ => ([], true)
  | .seq p q, t, n =>
    if (regions p t n).2 then regions p t n
    else ((regions p t n).1 ++ (regions q t n).1, (regions q t n).2)
  | .attempt p, t, n => ((regions p t n).1, false)
  | .noThreads p, _, n => regions p true n
  | .noNested p, t, _ => regions p t true

end Einsums.Spec
