import Verif.Model.Decomposition
import Verif.Model.BlockLinAlg
/-
Model of the alternating least squares iteration of `parafac` (src/include/einsums/Decomposition.hpp 235–330), with the
linear solve of linear_algebra_imp/BaseLinearAlgebra.hpp 110–124.

The starting factors are an argument (initialize_cp, 173–233, uses an eigensolver and random numbers).  The test that ends
the iteration (306–322, rounding of norms) is an arbitrary decision.
-/
namespace Einsums.Model

/-- Decomposition.hpp 271–300, 359: The index letters used by `parafac` and `weighted_parafac`. -/
inductive AlsLabel where
  | I | K | M | r | s | P
  deriving DecidableEq

section
variable {R : Type}

/-- BaseLinearAlgebra.hpp 110–124 (external LAPACK routine): LAPACK's xGESV(n, nrhs, A, lda, B, ldb), as it is
called: the content of `B` afterwards, and whether `info` is 0. -/
abbrev GesvFn (R : Type) := Nat → Nat → List R → Nat → List R → Nat → List R × Bool

/-- BaseLinearAlgebra.hpp 110–124: `gesv(&A, &B)` of two `Tensor`s.  Simplification: the factorisation left in `A` is
dropped (`parafac` does not read it). -/
def gesv (solve : GesvFn R) (A B : Strided R) : Strided R × Bool :=
  let n := A.dim 0
  let lda := A.dim 0
  let ldb := B.dim 1
  let nrhs := B.dim 0
  let x := solve n nrhs A.data lda B.data ldb
  ({ B with data := x.1 }, x.2)

variable [Add R] [Mul R] [Zero R] [One R] [BEq R] [Div R]

/-- Decomposition.hpp 273–294: the body of the loop over the other modes; the state is `V` and `KR`, `none` before the
first (`first == true`).  `z` is the content of fresh memory, `check` is `EINSUMS_RUNTIME_INDICES_CHECK`. -/
def alsInner (z : Nat → R) (check : Bool) (rank : Nat) (factors : List (Strided R)) (n : Nat)
    (st : Option (Strided R × Strided R)) (m : Nat) : Outcome (Option (Strided R × Strided R)) :=
  if m = n then .ok st
  else do
    let f ← factorAt factors m
    let ata ← einsum false check 0 [AlsLabel.r, .s] (tensorOperand (Strided.mk' z [rank, rank])) 1 [.I, .r]
      (tensorOperand f) [.I, .s] (tensorOperand f)
    match st with
    | none => do
        let V ← (defaultTensor 2 : Strided R).assign z ata
        let KR ← (defaultTensor 2 : Strided R).assign z f
        return some (V, KR)
    | some (V, KR) => do
        let V' ← einsum false check 0 [AlsLabel.r, .s] (tensorOperand V) 1 [.r, .s] (tensorOperand V) [.r, .s]
          (tensorOperand ata)
        let kr ← khatriRao z check [AlsLabel.I, .r] (tensorOperand KR) [.M, .r] (tensorOperand f)
        let KR' ← KR.assign z kr
        return some (V', KR')

/-- Decomposition.hpp 267–304: one update of `factors[n]`.  The second component says whether LAPACK reported success:
it is not part of the program, which ignores `info`. -/
def alsUpdate (solve : GesvFn R) (z : Nat → R) (check : Bool) (rank : Nat) (unfolded factors : List (Strided R)) (n : Nat) :
    Outcome (List (Strided R) × Bool) := do
  let st ← (List.range factors.length).foldlM (alsInner z check rank factors n) none
  match st with
  | none => .ub "V and KR are empty"
  | some (V, KR) => do
      let u ← factorAt unfolded n
      let f ← factorAt factors n
      let rhs ← einsum false check 0 [AlsLabel.I, .r] (tensorOperand f) 1 [.I, .K] (tensorOperand u) [.K, .r]
        (tensorOperand KR)
      let x := gesv solve V rhs
      return (factors.set n x.1, x.2)

/-- Decomposition.hpp 267–304: all modes once.  (The flag of the state collects that of the solves.) -/
def alsSweep (solve : GesvFn R) (z : Nat → R) (check : Bool) (rank : Nat) (unfolded : List (Strided R))
    (st : List (Strided R) × Bool) : Outcome (List (Strided R) × Bool) :=
  (List.range st.1.length).foldlM (fun st n => do
    let x ← alsUpdate solve z check rank unfolded st.1 n
    return (x.1, st.2 && x.2)) st

/-- Decomposition.hpp 266–323: the iteration; `stop iter` is the outcome of the test at 306–319, `fuel` counts
`n_iter_max - iter`. -/
def alsLoop (solve : GesvFn R) (z : Nat → R) (check : Bool) (rank : Nat) (unfolded : List (Strided R)) (stop : Nat → Bool) :
    Nat → Nat → List (Strided R) × Bool → Outcome (List (Strided R) × Bool)
  | 0, _, st => .ok st
  | fuel + 1, iter, st => do
      let st' ← alsSweep solve z check rank unfolded st
      if stop iter then return st' else alsLoop solve z check rank unfolded stop fuel (iter + 1) st'

/-- Decomposition.hpp 250–253: the unfoldings; `sched i` is the order of the loop of the i-th. -/
def unfoldAll (z : Nat → R) (t : Strided R) (sched : Nat → List (List Nat × List Nat × Nat)) :
    Outcome (List (Strided R)) :=
  (List.range t.dims.length).foldlM (fun us i => do
    let u ← unfold z i t (sched i)
    return us ++ [u]) []

/-- Decomposition.hpp 241–330: `parafac(tensor, rank, n_iter_max)` from the given starting factors. -/
def parafac (solve : GesvFn R) (z : Nat → R) (check : Bool) (t : Strided R) (rank : Nat) (nIterMax : Int)
    (start : List (Strided R)) (sched : Nat → List (List Nat × List Nat × Nat)) (stop : Nat → Bool) :
    Outcome (List (Strided R) × Bool) := do
  let us ← unfoldAll z t sched
  alsLoop solve z check rank us stop nIterMax.toNat 0 (start, true)

end
end Einsums.Model
