import Verif.Model.Als
import Verif.Model.Random
import Verif.Model.Spectral
import Verif.Model.ViewAssign
/-
Model of `initialize_cp` (src/include/einsums/Decomposition.hpp 173–233): the starting factors of the CP decompositions.  LAPACK, the
random engine and the square root are arguments.
-/
namespace Einsums.Model

/-- Decomposition.hpp 189–199: the labels `index::M`, `index::N` and `index::p`. -/
inductive InitLabel
  | M | N | p
  deriving DecidableEq, Repr

variable {R G : Type}

section Scale
variable [Mul R]

/-- Decomposition.hpp 205–206: scale column `v` by `c` if `std::abs(c) > 1.0e-14`, here `big c`. -/
def scaleIfBig (big : R → Bool) (v : Nat) (c : R) (U : Strided R) : Outcome (Strided R) :=
  if big c then scaleColumn v c U else .ok U

/-- Decomposition.hpp 202–208: the columns of the factor of the first mode are scaled by the square roots of the eigenvalues. -/
def scaleFirst (sqrt : R → R) (big : R → Bool) (i : Nat) (S U : Strided R) : Outcome (Strided R) :=
  if i = 0 then
    (List.range (S.dim 0)).foldlM (fun U (v : Nat) => do
      let s ← S.read [(v : Int)]
      scaleIfBig big v (sqrt s) U) U
  else .ok U

end Scale

section
variable [Add R] [Mul R] [Zero R] [One R] [Div R] [BEq R]

/-- Decomposition.hpp 185–208: the eigenvectors of the fold times its transpose, in the columns.  `useHptt`, `ssched`: of `sort`. -/
def gramVectors (syev : SyevFn R) (sqrt : R → R) (big : R → Bool) (z : Nat → R) (check useHptt : Bool) (ssched : List (List Nat)) (i : Nat)
    (fold : Strided R) : Outcome (Strided R) := do
  let m := fold.dim 0
  let sq ← einsum false check 0 [InitLabel.M, .N] (tensorOperand (Strided.mk' z [m, m])) 1 [.M, .p] (tensorOperand fold) [.N, .p]
    (tensorOperand fold)
  let e ← syevT syev true sq (Strided.mk' z [m])
  let U ← sort useHptt 0 [InitLabel.M, .N] (tensorOperand (Strided.mk' z [m, m])) 1 [.N, .M] (tensorOperand e.1) (cartesian [m, m]) ssched
  scaleFirst sqrt big i e.2 U

/-- Decomposition.hpp 213–220: more columns than eigenvectors: the first are `U`'s, the others random.  `asched`: the order of the
assignment to the view. -/
def padColumns (draw : G → R × G) (seed : G) (z : Nat → R) (threads : Nat) (asched : List (List Nat)) (m rank : Nat) (U : Strided R) :
    Outcome (Strided R) := do
  let Unew ← randomTensor draw seed z threads [m, rank]
  let dst ← Unew.sub [.all, .range 0 m]
  let src ← U.sub [.all, .all]
  let dst' ← dst.viewAssign false src asched
  return { Unew with data := dst'.data }

/-- Decomposition.hpp 223: `Tensor{U(All, Range{m - rank, m})}`. -/
def trailingColumns (z : Nat → R) (m rank : Nat) (U : Strided R) : Outcome (Strided R) := do
  let v ← U.sub [.all, .range ((m : Int) - (rank : Int)) m]
  Strided.ofView z v

/-- Decomposition.hpp 184–224: the factor of mode `i`. -/
def cpFactor (syev : SyevFn R) (sqrt : R → R) (big : R → Bool) (draw : G → R × G) (seed : G) (z : Nat → R) (check useHptt : Bool)
    (threads : Nat) (ssched asched : Nat → List (List Nat)) (folds : List (Strided R)) (rank i : Nat) : Outcome (Strided R) := do
  let fold ← factorAt folds i
  let U ← gramVectors syev sqrt big z check useHptt (ssched i) i fold
  if fold.dim 0 < rank then padColumns draw seed z threads (asched i) (fold.dim 0) rank U
  else trailingColumns z (fold.dim 0) rank U

/-- Decomposition.hpp 173–233: `initialize_cp<TRank>(folds, rank)`. -/
def initializeCp (syev : SyevFn R) (sqrt : R → R) (big : R → Bool) (draw : G → R × G) (seed : G) (z : Nat → R) (check useHptt : Bool)
    (threads : Nat) (ssched asched : Nat → List (List Nat)) (trank : Nat) (folds : List (Strided R)) (rank : Nat) :
    Outcome (List (Strided R)) :=
  (List.range trank).foldlM (fun fs i => do
    let f ← cpFactor syev sqrt big draw seed z check useHptt threads ssched asched folds rank i
    return fs ++ [f]) []

/-- Decomposition.hpp 241–330: `parafac(tensor, rank, n_iter_max)`. -/
def parafacFromGuess (syev : SyevFn R) (sqrt : R → R) (big : R → Bool) (draw : G → R × G) (seed : G) (solve : GesvFn R) (z : Nat → R)
    (check useHptt : Bool) (threads : Nat) (ssched asched : Nat → List (List Nat)) (t : Strided R) (rank : Nat) (nIterMax : Int)
    (sched : Nat → List (List Nat × List Nat × Nat)) (stop : Nat → Bool) : Outcome (List (Strided R) × Bool) := do
  let us ← unfoldAll z t sched
  let start ← initializeCp syev sqrt big draw seed z check useHptt threads ssched asched t.dims.length us rank
  alsLoop solve z check rank us stop nIterMax.toNat 0 (start, true)

end
end Einsums.Model
