import Verif.Spec.Memory
import Mathlib.Data.List.Forall2
/-
Executions of a GPU thread block with barriers, and of a grid of blocks.
-/
namespace Einsums.Spec

/-- `BlockRun phases sched`: the threads of a block execute the phases one after the other (`__syncthreads()` stands between
them); within a phase their operations are interleaved arbitrarily.  Each phase is given by the operations of its threads. -/
inductive BlockRun : List (List (List α)) → List α → Prop
  | done : BlockRun [] []
  | phase {p : List (List α)} {ps : List (List (List α))} {s rest : List α} :
      Schedule p s → BlockRun ps rest → BlockRun (p :: ps) (s ++ rest)

/-- `GridRun blocks sched`: the blocks, each given by its phases, are executed independently of each other: a barrier does not
concern the threads of other blocks. -/
def GridRun (blocks : List (List (List (List α)))) (sched : List α) : Prop :=
  ∃ runs : List (List α), List.Forall₂ BlockRun blocks runs ∧ Schedule runs sched

end Einsums.Spec
