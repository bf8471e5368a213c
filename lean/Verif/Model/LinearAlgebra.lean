import Verif.Model.Blas
import Verif.Model.IndexUtils
/-
Model of src/include/einsums/linear_algebra_imp/BaseLinearAlgebra.hpp on core tensors.
Ranks are fixed by the types in C++; here `dim`/`stride` read the shape lists.
-/
namespace Einsums.Model

/-- Tensor.hpp 892–902 and 1286–1294: `t.dim(i)` for a literal in-range `i`. -/
def Strided.dim (t : Strided α) (i : Nat) : Nat := t.dims.getD i 0

/-- Tensor.hpp 904–910 and 1296–1302: `t.stride(i)` for a literal in-range `i`. -/
def Strided.stride (t : Strided α) (i : Nat) : Nat := t.strides.getD i 0

variable {R : Type} [Add R] [Mul R] [Zero R] [One R] [BEq R]

/-- BaseLinearAlgebra.hpp 25–31: `gemm<TransA, TransB>(alpha, A, B, beta, &C)`. -/
def gemm (transA transB : Bool) (alpha : R) (A B : Strided R) (beta : R) (C : Strided R) :
    Outcome (Strided R) :=
  let m := C.dim 0
  let n := C.dim 1
  let k := if transA then A.dim 0 else A.dim 1
  vendorGemm transA transB m n k alpha A.data A.off (A.stride 0) B.data B.off (B.stride 0)
    beta C.data C.off (C.stride 0) >>= fun d => .ok { C with data := d }

/-- BaseLinearAlgebra.hpp 42–50: `gemv<TransA>(alpha, A, z, beta, &y)`. -/
def gemv (transA : Bool) (alpha : R) (A z : Strided R) (beta : R) (y : Strided R) :
    Outcome (Strided R) :=
  vendorGemv transA (A.dim 0) (A.dim 1) alpha A.data A.off (A.stride 0) z.data z.off (z.stride 0)
    beta y.data y.off (y.stride 0) >>= fun d => .ok { y with data := d }

/-- BaseLinearAlgebra.hpp 288–290: `ger(alpha, X, Y, &A)`. -/
def ger (alpha : R) (X Y A : Strided R) : Outcome (Strided R) :=
  vendorGer (X.dim 0) (Y.dim 0) alpha X.data X.off (X.stride 0) Y.data Y.off (Y.stride 0)
    A.data A.off (A.stride 0) >>= fun d => .ok { A with data := d }

/-- BaseLinearAlgebra.hpp 127–129: `scale(alpha, &A)`. -/
def scale (alpha : R) (A : Strided R) : Outcome (Strided R) :=
  blasScal (A.dim 0 * A.stride 0) alpha A.data A.off 1 >>= fun d => .ok { A with data := d }

/-- BaseLinearAlgebra.hpp 131–135: `scale_row(row, alpha, &A)` on a matrix. -/
def scaleRow (row : Nat) (alpha : R) (A : Strided R) : Outcome (Strided R) :=
  blasScal (A.dim 1) alpha A.data (A.off + row * A.stride 0) (A.stride 1) >>=
    fun d => .ok { A with data := d }

/-- BaseLinearAlgebra.hpp 137–140: `scale_column(col, alpha, &A)` on a matrix. -/
def scaleColumn (col : Nat) (alpha : R) (A : Strided R) : Outcome (Strided R) :=
  blasScal (A.dim 0) alpha A.data (A.off + col * A.stride 1) (A.stride 0) >>=
    fun d => .ok { A with data := d }

/-- BaseLinearAlgebra.hpp 147–152: `dot` of two vectors (`assert(A.dim(0) == B.dim(0))`). -/
def dotVec (A B : Strided R) : Outcome R :=
  if A.dim 0 ≠ B.dim 0 then .ub "assert"
  else blasDot (A.dim 0) A.data A.off (A.stride 0) B.data B.off (B.stride 0)

/-- BaseLinearAlgebra.hpp 164–174: `dot` of two tensors of rank ≥ 2, both the full view of their
storage: flattened to vectors of the product of the dimensions, row-major. -/
def dotFull (A B : Strided R) : Outcome R :=
  if A.dims ≠ B.dims then .ub "assert"
  else
    let n := A.dims.foldl (· * ·) 1
    dotVec { data := A.data, off := A.off, dims := [n], strides := [1] }
      { data := B.data, off := B.off, dims := [n], strides := [1] }

/-- BaseLinearAlgebra.hpp 174–191: `dot` otherwise: loop over the row-major positions of `A`'s shape. -/
def dotStrided (A B : Strided R) : Outcome R :=
  let st := (dimsToStrides A.dims).2
  sumLoop (fun s => do
    let i := sentinelToIndices s st
    let a ← A.read (toIdx i)
    let b ← B.read (toIdx i)
    return a * b) (List.range (st.headD 0 * A.dims.headD 0)) 0

/-- BaseLinearAlgebra.hpp 270–274: `axpy(alpha, X, &Y)`. -/
def axpy (alpha : R) (X Y : Strided R) : Outcome (Strided R) :=
  blasAxpy (X.dim 0 * X.stride 0) alpha X.data X.off 1 Y.data Y.off 1 >>= fun d => .ok { Y with data := d }

/-- BaseLinearAlgebra.hpp 276–280: `axpby(alpha, X, beta, &Y)`. -/
def axpby (alpha : R) (X : Strided R) (beta : R) (Y : Strided R) : Outcome (Strided R) :=
  vendorAxpby (X.dim 0 * X.stride 0) alpha X.data X.off 1 beta Y.data Y.off 1 >>=
    fun d => .ok { Y with data := d }

/-- Tensor.hpp 392–402: `Tensor::zero()` overwrites the whole storage. -/
def Strided.zero (t : Strided R) : Strided R := { t with data := t.data.map fun _ => 0 }

/-- BaseLinearAlgebra.hpp 331–353: `direct_product(alpha, A, B, beta, &C)` for a `Tensor` C (views have
no `zero()`, so the call does not compile for them).  Iterations in row-major order; see C18 for the
parallel loop of the same form. -/
def directProduct (alpha : R) (A B : Strided R) (beta : R) (C : Strided R) : Outcome (Strided R) :=
  if C.dims ≠ A.dims ∨ C.dims ≠ B.dims then .error "abort: not the same dimensionality"
  else
    let C := if beta == 0 then C.zero else C
    (cartesian C.dims).foldlM (fun C i => do
      let old ← C.read (toIdx i)
      let a ← A.read (toIdx i)
      let b ← B.read (toIdx i)
      C.write (toIdx i) (beta * old + alpha * (a * b))) C

end Einsums.Model
