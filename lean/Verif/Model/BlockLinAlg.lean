import Verif.Model.Block
import Verif.Model.TrueDot
/-
Model of src/include/einsums/linear_algebra_imp/BlockLinearAlgebra.hpp.

`sched` is the order in which the iterations of an OpenMP loop run.  Different block tensors are assumed not to
share storage.  Not modelled because they do not compile when instantiated: `gemv` (67–86 names an undeclared `x`),
the three-operand `dot` (243–267, `AType::tensor_type(A)` without `typename`); and the LAPACK drivers.
-/
namespace Einsums.Model

section
variable {R : Type}

/-- One iteration of the loops over the blocks of `A`: skip the empty ones, update block `i` of `C`
(BlockLinearAlgebra.hpp 50–55, 166–171, 281–287, 303–308, 315–320). -/
def blockStep (A : Block R) (f : Nat → Strided R → Strided R → Outcome (Strided R)) (C : Block R) (i : Nat) :
    Outcome (Block R) := do
  let a ← A.at i
  if a.dim 0 = 0 then return C
  else do
    let c ← C.at i
    let c ← f i a c
    return { C with blocks := C.blocks.set i c }

end

section
variable {R : Type} [Add R] [Mul R] [Zero R] [One R] [BEq R]

/-- BlockLinearAlgebra.hpp 12–60: `gemm<TransA, TransB>(alpha, A, B, beta, &C)`. -/
def blockGemm (ta tb : Bool) (alpha : R) (A B : Block R) (beta : R) (C : Block R) (sched : List Nat) : Outcome (Block R) :=
  if A.blocks.length ≠ B.blocks.length ∨ A.blocks.length ≠ C.blocks.length ∨ B.blocks.length ≠ C.blocks.length then
    .error "gemm: Tensors need the same number of blocks."
  else sched.foldlM (blockStep A fun i a c => B.at i >>= fun b => gemm ta tb alpha a b beta c) C

/-- BlockLinearAlgebra.hpp 164–173: `scale(alpha, &A)`. -/
def blockScale (alpha : R) (A : Block R) (sched : List Nat) : Outcome (Block R) :=
  sched.foldlM (fun A i => blockStep A (fun _ _ c => scale alpha c) A i) A

/-- BlockLinearAlgebra.hpp 175–181: `scale_row(row, alpha, &A)`: scales the view `block(row - start, All)`. -/
def blockScaleRow (row : Nat) (alpha : R) (A : Block R) : Outcome (Block R) := do
  let b ← A.blockOf row
  let t ← A.at b
  match A.ranges[b]? with
  | none => .error "out_of_range"
  | some r => do
      let v ← t.sub [.at (row - r.1), .all]
      let v ← scale alpha v
      return { A with blocks := A.blocks.set b { t with data := v.data } }

/-- BlockLinearAlgebra.hpp 183–189: `scale_column(column, alpha, &A)`: scales the view `block(All, column - start)`. -/
def blockScaleColumn (column : Nat) (alpha : R) (A : Block R) : Outcome (Block R) := do
  let b ← A.blockOf column
  let t ← A.at b
  match A.ranges[b]? with
  | none => .error "out_of_range"
  | some r => do
      let v ← t.sub [.all, .at (column - r.1)]
      let v ← scale alpha v
      return { A with blocks := A.blocks.set b { t with data := v.data } }

/-- BlockLinearAlgebra.hpp 191–241: A `Tensor` as an operand. -/
def tensorOperand (t : Strided R) : Operand R := ⟨t, false, true⟩

/-- BlockLinearAlgebra.hpp 191–215 and 217–241, with `d` the function applied to dense tensors: if the blocks differ,
both operands are converted (`sA`, `sB` the orders of the copies); otherwise a reduction over the blocks. -/
def blockDotWith (d : Operand R → Operand R → Outcome R) (A B : Block R) (sA sB sched : List Nat) : Outcome R :=
  if A.blocks.length ≠ B.blocks.length ∨ A.ranges ≠ B.ranges then do
    let a ← A.toDense sA
    let b ← B.toDense sB
    d (tensorOperand a) (tensorOperand b)
  else sumLoop (fun i => do
    let a ← A.at i
    if a.dim 0 = 0 then return 0
    else do
      let b ← B.at i
      d (tensorOperand a) (tensorOperand b)) sched 0

/-- BlockLinearAlgebra.hpp 191–215: `dot(A, B)`. -/
def blockDot (A B : Block R) (sA sB sched : List Nat) : Outcome R := blockDotWith dotOp A B sA sB sched

/-- BlockLinearAlgebra.hpp 217–241: `true_dot(A, B)`. -/
def blockTrueDot (conj : R → R) (A B : Block R) (sA sB sched : List Nat) : Outcome R :=
  blockDotWith (trueDotOp conj) A B sA sB sched

/-- BlockLinearAlgebra.hpp 269–289: `axpy(alpha, X, &Y)`. -/
def blockAxpy (alpha : R) (X Y : Block R) (sched : List Nat) : Outcome (Block R) :=
  if X.blocks.length ≠ Y.blocks.length then .error "axpy: Tensors need to have the same number of blocks."
  else if X.ranges ≠ Y.ranges then .error "axpy: Tensor blocks need to be compatible."
  else sched.foldlM (blockStep X fun _ x y => axpy alpha x y) Y

/-- BlockLinearAlgebra.hpp 291–310: `axpby(alpha, X, beta, &Y)`. -/
def blockAxpby (alpha : R) (X : Block R) (beta : R) (Y : Block R) (sched : List Nat) : Outcome (Block R) :=
  if X.blocks.length ≠ Y.blocks.length then .error "axpby: Tensors need to have the same number of blocks."
  else if X.ranges ≠ Y.ranges then .error "axpby: Tensor blocks need to be compatible."
  else sched.foldlM (blockStep X fun _ x y => axpby alpha x beta y) Y

/-- BlockLinearAlgebra.hpp 312–322: `direct_product(alpha, A, B, beta, &C)`. -/
def blockDirect (alpha : R) (A B : Block R) (beta : R) (C : Block R) (sched : List Nat) : Outcome (Block R) :=
  sched.foldlM (blockStep A fun i a c => B.at i >>= fun b => directProduct alpha a b beta c) C

end
end Einsums.Model
