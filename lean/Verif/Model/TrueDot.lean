import Verif.Model.Dispatch
/-
Model of `true_dot` (src/include/einsums/linear_algebra_imp/BaseLinearAlgebra.hpp 193–247).

`conj` is complex conjugation on the element type; on real types it is the identity (and then only the
overload for vectors compiles, `std::conj` of a real number being a complex number).
-/
namespace Einsums.Model

section
variable {R : Type} [Add R] [Mul R] [Zero R]

/-- BaseLinearAlgebra.hpp 193–206: `true_dot` of vectors: `blas::dotc` for complex types, `blas::dot` for
real ones (`IsComplexV` of a tensor type looks at its elements, ComplexTraits.hpp 29–30).  Contract of
`dotc`: the sum of conj(x_i) * y_i. -/
def trueDotVec (conj : R → R) (A B : Strided R) : Outcome R :=
  if A.dim 0 ≠ B.dim 0 then .ub "assert"
  else sumLoop (fun i => do
    let u ← memGet A.data (A.off + i * A.stride 0)
    let v ← memGet B.data (B.off + i * B.stride 0)
    return conj u * v) (List.range (A.dim 0)) 0

/-- BaseLinearAlgebra.hpp 214–223: two full views are flattened. -/
def trueDotFull (conj : R → R) (A B : Strided R) : Outcome R :=
  if A.dims ≠ B.dims then .ub "assert"
  else
    let n := A.dims.foldl (· * ·) 1
    trueDotVec conj { data := A.data, off := A.off, dims := [n], strides := [1] }
      { data := B.data, off := B.off, dims := [n], strides := [1] }

/-- BaseLinearAlgebra.hpp 224–246: element by element. -/
def trueDotStrided (conj : R → R) (A B : Strided R) : Outcome R :=
  let st := (dimsToStrides A.dims).2
  sumLoop (fun s => do
    let i := sentinelToIndices s st
    let a ← A.read (toIdx i)
    let b ← B.read (toIdx i)
    return conj a * b) (List.range (st.headD 0 * A.dims.headD 0)) 0

/-- BaseLinearAlgebra.hpp 193–247: `true_dot(A, B)`. -/
def trueDotOp (conj : R → R) (A B : Operand R) : Outcome R :=
  if A.t.dims.length = 1 then trueDotVec conj A.t B.t
  else if A.full && B.full then trueDotFull conj A.t B.t
  else trueDotStrided conj A.t B.t

end
end Einsums.Model
