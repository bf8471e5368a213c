import Verif.Model.FunctionTensor
import Verif.Model.Dispatch
/-
Model of the linear algebra for tensors of which at least one is not stored like a `Tensor`
(src/include/einsums/linear_algebra_imp/UnoptimizedLinearAlgebra.hpp: function tensors, their views, classes of the user), and of
`dot` of three tensors (BaseLinearAlgebra.hpp 247–268).  The inputs are given by dimensions and `operator()`; the output is a
tensor or a view of one.  The loops are OpenMP loops: `order` is the order in which the iterations are performed (in `dot`, in
which they are added up).  Not modelled: conversions between element types, rounding.
-/
namespace Einsums.Model

/-- UnoptimizedLinearAlgebra.hpp 13–18: what the functions use of an input: `dim(i)` and `operator()`. -/
structure AnyTensor (R : Type) where
  dims : List Nat
  read : List Int → Outcome R

/-- UnoptimizedLinearAlgebra.hpp 28: `dim(i)`. -/
def AnyTensor.dim (t : AnyTensor R) (i : Nat) : Nat := t.dims.getD i 0

/-- Tensor.hpp 487–511: a tensor or a view as input. -/
def Strided.any (t : Strided R) : AnyTensor R := ⟨t.dims, t.read⟩

/-- FunctionTensor.hpp 104–134: a function tensor as input. -/
def FuncTensor.any (t : FuncTensor R) : AnyTensor R := ⟨t.dims.map Int.toNat, t.read⟩

section
variable {R : Type} [Add R] [Mul R] [Zero R]

/-- UnoptimizedLinearAlgebra.hpp 38–44: the multi-index at a row-major position, kept in `int`. -/
def intIndex (sentinel : Nat) (strides : List Nat) : List Int := (toIdx (sentinelToIndices sentinel strides)).map toInt32

/-- UnoptimizedLinearAlgebra.hpp 41–46: the term of `dot` at a row-major position. -/
def genericTerm (conj : R → R) (A B : AnyTensor R) (sentinel : Nat) : Outcome R := do
  let index := intIndex sentinel (dimsToStrides A.dims).2
  let a ← A.read index
  let b ← B.read index
  return conj a * b

/-- UnoptimizedLinearAlgebra.hpp 13–50 (`conj` the identity) and 52–93: `dot` and `true_dot`. -/
def genericDot (order : List Nat) (conj : R → R) (A B : AnyTensor R) : Outcome R :=
  if A.dims ≠ B.dims then .error "Generic tensors have incompatible dimensions!"
  else sumLoop (genericTerm conj A B) order 0

/-- UnoptimizedLinearAlgebra.hpp 122–130: the term of the sum in `gemm`. -/
def genericProduct (ta tb : Bool) (A B : AnyTensor R) (i j k : Nat) : Outcome R := do
  let a ← if ta then A.read [(k : Int), i] else A.read [(i : Int), k]
  let b ← if tb then B.read [(j : Int), k] else B.read [(k : Int), j]
  return a * b

variable [BEq R]

/-- UnoptimizedLinearAlgebra.hpp 132–136 and 170–174: the update of an element of the result. -/
def genericStore (alpha beta : R) (C : Strided R) (index : List Nat) (sum : R) : Outcome (Strided R) :=
  if beta == 0 then C.write (toIdx index) (alpha * sum)
  else C.read (toIdx index) >>= fun c => C.write (toIdx index) (beta * c + alpha * sum)

/-- UnoptimizedLinearAlgebra.hpp 119–136: one iteration of `gemm`. -/
def gemmStep (ta tb : Bool) (inner : Nat) (alpha : R) (A B : AnyTensor R) (beta : R) (C : Strided R) (index : List Nat) :
    Outcome (Strided R) :=
  sumLoop (genericProduct ta tb A B (index.getD 0 0) (index.getD 1 0)) (List.range inner) 0 >>= fun sum =>
    genericStore alpha beta C index sum

/-- UnoptimizedLinearAlgebra.hpp 95–139: `gemm`. -/
def genericGemm (order : List (List Nat)) (ta tb : Bool) (alpha : R) (A B : AnyTensor R) (beta : R) (C : Strided R) :
    Outcome (Strided R) :=
  if (if ta then A.dim 0 else A.dim 1) ≠ (if tb then B.dim 1 else B.dim 0) then
    .error "Matrices require compatible inner dimensions!"
  else if (if ta then A.dim 1 else A.dim 0) ≠ C.dim 0 then
    .error "Input and output matrices need to have compatible rows!"
  else if (if tb then B.dim 0 else B.dim 1) ≠ C.dim 1 then
    .error "Input and output matrices need to have compatible columns!"
  else order.foldlM (gemmStep ta tb (if ta then A.dim 0 else A.dim 1) alpha A B beta) C

/-- UnoptimizedLinearAlgebra.hpp 162–168: the term of the sum in `gemv`. -/
def genericRow (ta : Bool) (A z : AnyTensor R) (i j : Nat) : Outcome R := do
  let a ← if ta then A.read [(j : Int), i] else A.read [(i : Int), j]
  let b ← z.read [(j : Int)]
  return a * b

/-- UnoptimizedLinearAlgebra.hpp 160–174: one iteration of `gemv`. -/
def gemvStep (ta : Bool) (cols : Nat) (alpha : R) (A z : AnyTensor R) (beta : R) (y : Strided R) (index : List Nat) :
    Outcome (Strided R) :=
  sumLoop (genericRow ta A z (index.getD 0 0)) (List.range cols) 0 >>= fun sum => genericStore alpha beta y index sum

/-- UnoptimizedLinearAlgebra.hpp 141–176: `gemv`. -/
def genericGemv (order : List (List Nat)) (ta : Bool) (alpha : R) (A z : AnyTensor R) (beta : R) (y : Strided R) :
    Outcome (Strided R) :=
  if (if ta then A.dim 0 else A.dim 1) ≠ z.dim 0 then .error "Matrix and input vector need to have compatible sizes!"
  else if (if ta then A.dim 1 else A.dim 0) ≠ y.dim 0 then .error "Matrix and output vector need to have compatible sizes!"
  else order.foldlM (gemvStep ta (z.dim 0) alpha A z beta) y

omit [Zero R] [BEq R]

/-- UnoptimizedLinearAlgebra.hpp 237: one iteration of `ger`. -/
def gerStep (alpha : R) (X Y : AnyTensor R) (A : Strided R) (index : List Nat) : Outcome (Strided R) := do
  let x ← X.read [(index.getD 0 0 : Int)]
  let y ← Y.read [(index.getD 1 0 : Int)]
  let a ← A.read (toIdx index)
  A.write (toIdx index) (a + alpha * x * y)

/-- UnoptimizedLinearAlgebra.hpp 224–240: `ger`. -/
def genericGer (order : List (List Nat)) (alpha : R) (X Y : AnyTensor R) (A : Strided R) : Outcome (Strided R) :=
  if A.dim 0 ≠ X.dim 0 ∨ A.dim 1 ≠ Y.dim 0 then .error "Incompatible matrix and vector sizes!"
  else order.foldlM (gerStep alpha X Y) A

/-- UnoptimizedLinearAlgebra.hpp 211–221: one iteration of `direct_product`, at a row-major position. -/
def directStep (alpha : R) (A B : AnyTensor R) (C : Strided R) (sentinel : Nat) : Outcome (Strided R) := do
  let index := intIndex sentinel (dimsToStrides A.dims).2
  let a ← A.read index
  let b ← B.read index
  C.write index (alpha * a * b)

/-- UnoptimizedLinearAlgebra.hpp 178–222: `direct_product`.  The factor of the old value has no name: it is not used. -/
def genericDirectProduct (order : List Nat) (alpha : R) (A B : AnyTensor R) (_beta : R) (C : Strided R) : Outcome (Strided R) :=
  if A.dims ≠ B.dims ∨ A.dims ≠ C.dims then .error "Generic tensors have incompatible dimensions!"
  else order.foldlM (directStep alpha A B) C

/-- UnoptimizedLinearAlgebra.hpp 257–266: one iteration of `scale`. -/
def scaleStep (strides : List Nat) (alpha : R) (A : Strided R) (sentinel : Nat) : Outcome (Strided R) := do
  let index := intIndex sentinel strides
  let a ← A.read index
  A.write index (a * alpha)

/-- UnoptimizedLinearAlgebra.hpp 242–267: `scale`.  (Only for classes of the user; they are taken to be stored like tensors.) -/
def genericScale (order : List Nat) (alpha : R) (A : Strided R) : Outcome (Strided R) :=
  order.foldlM (scaleStep (dimsToStrides A.dims).2 alpha) A

end

section
variable {R : Type} [Add R] [Mul R] [Zero R] [One R] [BEq R] [Div R]

/-- BaseLinearAlgebra.hpp 263–266: the term of the sum in `dot` of three tensors. -/
def tripleTerm (vA vB vC : Strided R) (i : Nat) : Outcome R := do
  let a ← vA.read [(i : Int)]
  let b ← vB.read [(i : Int)]
  let c ← vC.read [(i : Int)]
  return a * b * c

/-- BaseLinearAlgebra.hpp 247–268: `dot(A, B, C)`. -/
def dot3 (order : List Nat) (A B C : Strided R) : Outcome R :=
  if A.dims ≠ B.dims ∨ A.dims ≠ C.dims then .ub "assert"
  else do
    let n := A.dims.foldl (· * ·) 1
    let vA ← A.viewDims [n]
    let vB ← B.viewDims [n]
    let vC ← C.viewDims [n]
    sumLoop (tripleTerm vA vB vC) order 0

end
end Einsums.Model
