import Verif.Model.BlockAlgebra
import Verif.Model.TensorAlgebra
/-
Model of the version of `sort` for block tensors in src/include/einsums/ContainerSort.hpp.  The version for tiled tensors
(44–120) does not compile when instantiated: two of the template parameters of its `get_grid_ranges_for_many` cannot be
deduced.
-/
namespace Einsums.Model

variable {L : Type} [DecidableEq L] {R : Type} [Add R] [Mul R] [Zero R] [One R] [BEq R]

/-- ContainerSort.hpp 32–36 with BlockTensor.hpp 561, 566: one iteration.  `fill` and `inner` order the loops of the `sort` of
the block. -/
def blockSortStep (useHptt : Bool) (cp : R) (Cl : List L) (ap : R) (Al : List L) (A : Block R)
    (fill inner : Nat → List (List Nat)) (C : Block R) (i : Nat) : Outcome (Block R) := do
  let c ← C.at i
  let a ← A.at i
  let c ← sort useHptt cp Cl (tensorOperand c) ap Al (tensorOperand a) (fill i) (inner i)
  return { C with blocks := C.blocks.set i c }

/-- ContainerSort.hpp 19–37: `sort` of block tensors.  The iterations of the parallel loop use different blocks of `C`; they are
taken in an arbitrary order `sched`. -/
def blockSort (useHptt : Bool) (cp : R) (Cl : List L) (C : Block R) (ap : R) (Al : List L) (A : Block R)
    (fill inner : Nat → List (List Nat)) (sched : List Nat) : Outcome (Block R) :=
  sched.foldlM (blockSortStep useHptt cp Cl ap Al A fill inner) C

end Einsums.Model
