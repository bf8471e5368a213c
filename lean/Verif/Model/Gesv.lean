import Verif.Model.Block
import Verif.Model.Lapack
/-
Model of `gesv` of LinearAlgebra.hpp, for tensors and for block tensors.

The storage of both tensors goes to LAPACK as it is.  The Fortran routine is an argument (contract in Spec/Gesv.lean).
Simplifications: those of Model/Lapack.lean; A and B do not share storage; an argument that LAPACK rejects is an error
(XERBLA), so `info` is not negative.
-/
namespace Einsums.Model

variable {R : Type} [Zero R]

/-- Vendor.cpp 333–365 (external xGESV): from n, nrhs and the matrices it reads: `info` and the matrices it stores in a and b. -/
abbrev GesvRoutine (R : Type) := Nat → Nat → Mat R → Mat R → Nat × Mat R × Mat R

/-- Vendor.cpp 333–365: `gesv(n, nrhs, a + aoff, lda, ipiv, b + boff, ldb)`. -/
def vendorGesv (gesv : GesvRoutine R) (n nrhs : Nat) (a : List R) (aoff lda : Nat) (b : List R) (boff ldb : Nat) :
    Outcome (Nat × List R × List R) :=
  if lda < max 1 n then .error "XERBLA"
  else if ldb < max 1 n then .error "XERBLA"
  else do
    let M ← colMat n n a aoff lda
    let N ← colMat n nrhs b boff ldb
    let r := gesv n nrhs M N
    let a' ← colStore n n r.2.1 a aoff lda
    let b' ← colStore n nrhs r.2.2 b boff ldb
    return (r.1, a', b')

/-- BaseLinearAlgebra.hpp 112–124, LinearAlgebra.hpp 276–280: `gesv(&A, &B)`: `info`, A and B afterwards. -/
def gesvT (gesv : GesvRoutine R) (A B : Strided R) : Outcome (Nat × Strided R × Strided R) := do
  let r ← vendorGesv gesv (A.dim 0) (B.dim 0) A.data A.off (A.dim 0) B.data B.off (B.dim 1)
  return (r.1, { A with data := r.2.1 }, { B with data := r.2.2 })

/-- BlockLinearAlgebra.hpp 147–158: what one iteration of the parallel loop does, in two steps: `load i` solves block `i` and
reads `info_out`; `store i` writes it.  Other iterations may run in between: `info_out |= info` is not atomic. -/
inductive GesvStep
  | load (i : Nat)
  | store (i : Nat)
deriving DecidableEq

/-- BlockLinearAlgebra.hpp 147–158: the block that a step belongs to. -/
def GesvStep.block : GesvStep → Nat
  | .load i => i
  | .store i => i

/-- BlockLinearAlgebra.hpp 140–161: the state of the loop: A, B, `info_out` and, for each iteration, the value that it is about
to write to `info_out`. -/
structure GesvState (R : Type) where
  A : Block R
  B : Block R
  info : Nat
  pending : Nat → Option Nat

/-- BlockLinearAlgebra.hpp 148–153: `load i` (an iteration of an empty block ends there) and `store i`. -/
def blockGesvStep (gesv : GesvRoutine R) (s : GesvState R) : GesvStep → Outcome (GesvState R)
  | .load i => do
    let a ← s.A.at i
    if a.dim 0 = 0 then return { s with pending := fun j => if j = i then none else s.pending j }
    else do
      let b ← s.B.at i
      let r ← gesvT gesv a b
      return { A := { s.A with blocks := s.A.blocks.set i r.2.1 }
               B := { s.B with blocks := s.B.blocks.set i r.2.2 }
               info := s.info
               pending := fun j => if j = i then some (s.info ||| r.1) else s.pending j }
  | .store i =>
    match s.pending i with
    | none => .ok s
    | some v => .ok { s with info := v }

/-- BlockLinearAlgebra.hpp 135–161: `gesv(&A, &B)` of block tensors, the steps of the iterations in the order `sched`. -/
def blockGesv (gesv : GesvRoutine R) (sched : List GesvStep) (A B : Block R) : Outcome (Nat × Block R × Block R) :=
  if A.blocks.length ≠ B.blocks.length then .error "gesv: Tensors need the same number of blocks."
  else do
    let s ← sched.foldlM (blockGesvStep gesv) ⟨A, B, 0, fun _ => none⟩
    return (s.info, s.A, s.B)

end Einsums.Model
