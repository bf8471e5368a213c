import Verif.Model.Als
import Verif.Model.Lapack
/-
Model of `initialize_tucker`, `tucker_ho_svd` and `tucker_ho_oi` (src/include/einsums/Decomposition.hpp 494–683) of a `Tensor`.  LAPACK is
an argument.
-/
namespace Einsums.Model

variable {R : Type} [Add R] [Mul R] [Zero R]

/-- Decomposition.hpp 516: `Tensor{U(All, Range{0, rank})}`. -/
def leadingColumns (z : Nat → R) (U : Strided R) (rank : Nat) : Outcome (Strided R) := do
  let v ← U.sub [.all, .range 0 rank]
  Strided.ofView z v

/-- Decomposition.hpp 502–517: the factor of axis `i`.  A `std::vector` does not check the index. -/
def tuckerFactor (gesdd : GesddFn R) (z : Nat → R) (folds : List (Strided R)) (ranks : List Nat) (i : Nat) : Outcome (Strided R) :=
  match ranks[i]? with
  | none => .ub "ranks[i] out of range"
  | some rank => do
      let f ← factorAt folds i
      let s ← svdDd gesdd f .all
      leadingColumns z s.1 rank

/-- Decomposition.hpp 494–520: `initialize_tucker<TRank>(folds, ranks)`.  The warning of 509–513 is not modelled: it only prints. -/
def initializeTucker (gesdd : GesddFn R) (z : Nat → R) (trank : Nat) (folds : List (Strided R)) (ranks : List Nat) :
    Outcome (List (Strided R)) :=
  (List.range trank).foldlM (fun fs i => do
    let f ← tuckerFactor gesdd z folds ranks i
    return fs ++ [f]) []

/-- Decomposition.hpp 537–544: the unfoldings, unless they are given. -/
def foldsOr (z : Nat → R) (t : Strided R) (folds : List (Strided R)) (sched : Nat → List (List Nat × List Nat × Nat)) :
    Outcome (List (Strided R)) :=
  if folds.length = 0 then unfoldAll z t sched else .ok folds

/-- Decomposition.hpp 528–588: `tucker_ho_svd(tensor, ranks, folds)`: the core and the factors. -/
def tuckerHoSvd (gesdd : GesddFn R) (z : Nat → R) (t : Strided R) (ranks : List Nat) (folds : List (Strided R))
    (sched : Nat → List (List Nat × List Nat × Nat)) : Outcome (Strided R × List (Strided R)) := do
  let us ← foldsOr z t folds sched
  let factors ← initializeTucker gesdd z t.dims.length us ranks
  let g ← tuckerCore z z (fun _ => z) t ranks factors
  return (g, factors)

/-- Decomposition.hpp 623–648: one axis `j` of the loop that forms the fold of axis `i`. -/
def hoOiAxis (z : Nat → R) (ranks : List Nat) (factors : List (Strided R)) (i : Nat) (old : Strided R) (j : Nat) : Outcome (Strided R) :=
  if j = i then .ok old
  else match ranks[j]? with
    | none => .ub "ranks[j] out of range"
    | some rank => do
        let f ← factorAt factors j
        modeProduct z j rank (fun r s => f.read [(s : Int), (r : Int)]) old

/-- Decomposition.hpp 612–654: the new fold of axis `i`.  `new_fold_buffer` is only set by an axis other than `i`: without one, an
uninitialised pointer is dereferenced. -/
def hoOiFold (z : Nat → R) (t : Strided R) (ranks : List Nat) (factors : List (Strided R))
    (sched : Nat → List (List Nat × List Nat × Nat)) (i : Nat) : Outcome (Strided R) :=
  if t.dims.length ≤ 1 then .ub "uninitialised pointer"
  else do
    let old ← (Strided.mk' z t.dims).assign z t
    let b ← (List.range t.dims.length).foldlM (hoOiAxis z ranks factors i) old
    unfold z i b (sched i)

/-- Decomposition.hpp 609–655: the new folds of all axes, from the same factors. -/
def hoOiFolds (z : Nat → R) (t : Strided R) (ranks : List Nat) (factors : List (Strided R))
    (sched : Nat → List (List Nat × List Nat × Nat)) : Outcome (List (Strided R)) :=
  (List.range t.dims.length).foldlM (fun us i => do
    let u ← hoOiFold z t ranks factors sched i
    return us ++ [u]) []

/-- Decomposition.hpp 606–678: the iteration; `stop iter` is the outcome of the test at 661–672 (rounding of norms), `fuel` counts
`n_iter_max - iter`. -/
def hoOiLoop (gesdd : GesddFn R) (z : Nat → R) (t : Strided R) (ranks : List Nat)
    (sched : Nat → List (List Nat × List Nat × Nat)) (stop : Nat → Bool) :
    Nat → Nat → Strided R × List (Strided R) → Outcome (Strided R × List (Strided R))
  | 0, _, st => .ok st
  | fuel + 1, iter, st => do
      let us ← hoOiFolds z t ranks st.2 sched
      let st' ← tuckerHoSvd gesdd z t ranks us sched
      if stop iter then return st' else hoOiLoop gesdd z t ranks sched stop fuel (iter + 1) st'

/-- Decomposition.hpp 596–681: `tucker_ho_oi(tensor, ranks, n_iter_max)`. -/
def tuckerHoOi (gesdd : GesddFn R) (z : Nat → R) (t : Strided R) (ranks : List Nat) (nIterMax : Int)
    (sched sched' : Nat → List (List Nat × List Nat × Nat)) (stop : Nat → Bool) : Outcome (Strided R × List (Strided R)) := do
  let guess ← tuckerHoSvd gesdd z t ranks [] sched
  hoOiLoop gesdd z t ranks sched' stop nIterMax.toNat 0 guess

end Einsums.Model
