import Verif.Model.GpuLinear
import Verif.Model.Spectral
import Verif.Model.Gesv
/-
Model of the matrix functions of src/include/einsums/linear_algebra_imp/GPULinearAlgebra.hpp and src/GPULinearAlgebra.hip on
device tensors: `gemm`, `gemv`, `ger`, `gesv`, `syev`, `symm_gemm` and `pow`.

The hipBLAS and hipSOLVER routines have the contracts of the BLAS and LAPACK routines of the same name (Model/Blas.lean,
Model/Lapack.lean); an argument that these report to XERBLA makes the routine return a status from which `hipblas_catch` and
`hipsolver_catch` make an exception.  Kernels: as in Model/Gpu.lean.  All operations are in the order of one stream.
-/
namespace Einsums.Model

variable {K : Type}

/-! ### symm_gemm -/

/-- GPULinearAlgebra.hip 384–395: the indices `(a, b, i, j)` of iteration `c`. -/
def symmDecode (m n c : Nat) : Nat × Nat × Nat × Nat :=
  (c % n, c / n % n, c / n / n % m, c / n / n / m)

/-- GPULinearAlgebra.hip 398–410: the term of iteration `c`. -/
def symmTerm [Mul K] (ta tb : Bool) (m n : Nat) (A B : Strided K) (c : Nat) : Outcome K := do
  let (a, b, i, j) := symmDecode m n c
  let term ← memGet A.data (A.off + if ta then j * A.stride 0 + i else i * A.stride 0 + j)
  let x ← memGet B.data (B.off + if tb then a * B.stride 0 + i else i * B.stride 0 + a)
  let y ← memGet B.data (B.off + if tb then b * B.stride 0 + j else j * B.stride 0 + b)
  return term * (x * y)

/-- GPULinearAlgebra.hip 412: `atomicAdd(C + (a * ldc + b), term)` of iteration `c`. -/
def symmStep [Add K] [Mul K] (ta tb : Bool) (m n : Nat) (A B C : Strided K) (mem : List K) (c : Nat) : Outcome (List K) := do
  let term ← symmTerm ta tb m n A B c
  let (a, b, _, _) := symmDecode m n c
  memUpd mem (C.off + (a * C.stride 0 + b)) fun v => .ok (v + term)

/-- GPULinearAlgebra.hpp 435–437, GPULinearAlgebra.hip 377–383: the iterations of the workers. -/
def symmThreads (A C : Strided K) : List (List Nat) :=
  let n := A.dim 0 * A.dim 0 * C.dim 0 * C.dim 0
  (launchSwapped n).threads fun w size => countersOf n size w

/-- GPULinearAlgebra.hip 381: `m * m * n * n` is computed with `int`. -/
def symmOverflow (m n : Nat) : Bool := decide (2 ^ 31 ≤ m * m ∨ 2 ^ 31 ≤ m * m * n ∨ 2 ^ 31 ≤ m * m * n * n)

/-- GPULinearAlgebra.hpp 416–439, GPULinearAlgebra.hip 375–414: `symm_gemm<TransA, TransB>(A, B, &C)`.  `s0` is the execution
of the kernel that sets C to zero, `s1` that of the kernel that adds the terms.  The assertion is that of the version for host
tensors. -/
def deviceSymmGemm [Add K] [Mul K] [Zero K] (ndebug ta tb : Bool) (A B C : Strided K) (r : Nat → K)
    (s0 : List (Nat × RmwOp)) (s1 : List Nat) : Outcome (Strided K) :=
  if ndebug = false ∧ symmGemmAssert ta tb A B C = false then .ub "assert"
  else do
    let C ← deviceSetAll 0 C r s0
    if symmOverflow (A.dim 0) (C.dim 0) then .ub "signed integer overflow"
    else do
      let d ← s1.foldlM (symmStep ta tb (A.dim 0) (C.dim 0) A B C) C.data
      return { C with data := d }

/-! ### syev, pow -/

/-- GPULinearAlgebra.hpp 644–656, GPULinearAlgebra.hip 493–537: `syev<ComputeEigenvectors>(&A, &W)`: the upper triangle of the
column-major matrix in the memory of A; the work array has the size hipSOLVER asks for. -/
def deviceSyev [Zero K] (syev : SyevFn K) (vectors : Bool) (A W : Strided K) : Outcome (Strided K × Strided K) := do
  let r ← vendorSyev syev vectors (A.dim 0) A.data A.off (A.stride 0) W.data W.off (max 1 (3 * A.dim 0))
  return ({ A with data := r.1 }, { W with data := r.2 })

/-- GPULinearAlgebra.hpp 776–784, 810: the workers of `eig_to_diag`. -/
def eigDiagThreads (n : Nat) : List (List (Nat × RmwOp)) := storeThreads ⟨dim3 32, dim3 1⟩ n

/-- GPULinearAlgebra.hpp 775–785: `eig_to_diag(D, n, lda, eigs, expo)`; `rpow` is `pow`. -/
def eigToDiag (rpow : K → K → K) (D : Strided K) (eigs : Strided K) (expo : K) (r : Nat → K) (sched : List (Nat × RmwOp)) :
    Outcome (Strided K) :=
  runKernel D (fun i => .ok (D.off + (i * D.stride 0 + i))) (fun i _ => do
    let x ← memGet eigs.data (eigs.off + i)
    return rpow x expo) r sched

/-- GPULinearAlgebra.hpp 788–817: `pow(a, alpha, cutoff)` of a real `DeviceTensor`.  `z` is the content of new memory.  The cutoff is
not used.  `sCopy` … `s1` are the executions of the kernels of `Evecs.assign(a)`, `Diag.zero()`, `eig_to_diag` and `symm_gemm`.
For complex tensors the function calls `hyev`, which does not exist. -/
def devicePow [Add K] [Mul K] [Zero K] (ndebug : Bool) (syev : SyevFn K) (rpow : K → K → K) (z : Nat → K) (a : Strided K)
    (alpha _cutoff : K) (r : Nat → K) (sCopy sZero sDiag s0 : List (Nat × RmwOp)) (s1 : List Nat) : Outcome (Strided K) := do
  let E ← deviceAssign .deviceOnly z (Strided.mk' z a.dims) a r sCopy
  let e ← deviceSyev syev true E (Strided.mk' z [a.dim 0])
  let D ← deviceSetAll 0 (Strided.mk' z a.dims) r sZero
  let D ← eigToDiag rpow D e.2 alpha r sDiag
  deviceSymmGemm ndebug false false D e.1 (Strided.mk' z a.dims) r s0 s1

/-! ### gemm, gemv, ger, gesv -/

section
variable [Add K] [Mul K] [Zero K] [One K] [BEq K]

/-- GPULinearAlgebra.hpp 252–264: `gemm<TransA, TransB>(alpha, A, B, beta, &C)`: no special treatment of empty matrices. -/
def deviceGemm (transA transB : Bool) (alpha : K) (A B : Strided K) (beta : K) (C : Strided K) : Outcome (Strided K) :=
  let k := if transA then A.dim 0 else A.dim 1
  fortranGemm transB transA (C.dim 1) (C.dim 0) k alpha B.data B.off (B.stride 0) A.data A.off (A.stride 0) beta
    C.data C.off (C.stride 0) >>= fun d => .ok { C with data := d }

/-- GPULinearAlgebra.hpp 386–402: `gemv<TransA>(alpha, A, x, beta, &y)`.  The routine returns at once if a dimension of the matrix
is zero. -/
def deviceGemv (transA : Bool) (alpha : K) (A x : Strided K) (beta : K) (y : Strided K) : Outcome (Strided K) :=
  (if A.dim 1 = 0 ∨ A.dim 0 = 0 then .ok y.data
   else fortranGemv (!transA) (A.dim 1) (A.dim 0) alpha A.data A.off (A.stride 0) x.data x.off (x.stride 0) beta
    y.data y.off (y.stride 0)) >>= fun d => .ok { y with data := d }

/-- GPULinearAlgebra.hpp 357–376, GPULinearAlgebra.hip 54–79: `ger(alpha, X, Y, &A)`: A is transposed into a temporary, updated by
xGER (complex: xGERC, which conjugates y) and transposed back.  `s1`, `s2` are the executions of the two sorts. -/
def deviceGer (conj : K → K) (z : Nat → K) (alpha : K) (X Y A : Strided K) (r : Nat → K) (s1 s2 : List (Nat × Nat × RmwOp)) :
    Outcome (Strided K) := do
  let temp ← deviceSort 0 ["i", "j"] (Strided.mk' z [A.dim 1, A.dim 0]) 1 ["j", "i"] A r s1
  let d ← fortranGer (X.dim 0) (Y.dim 0) alpha X.data X.off (X.stride 0) (Y.data.map conj) Y.off (Y.stride 0)
    temp.data temp.off (temp.stride 0)
  deviceSort 0 ["i", "j"] A 1 ["j", "i"] { temp with data := d } r s2

/-- GPULinearAlgebra.hpp 535–569: `gesv(&A, &B)`.  On AMD hardware the solution is stored in B; on NVIDIA hardware it is stored in
a temporary X, and B is left as it is.  Simplification: the contents of A afterwards are those of xGESV. -/
def deviceGesv (nvidia : Bool) (gesv : GesvRoutine K) (A B : Strided K) : Outcome (Nat × Strided K × Strided K) := do
  let r ← vendorGesv gesv (A.dim 0) (B.dim 0) A.data A.off (A.stride 0) B.data B.off (B.stride 0)
  return (r.1, { A with data := r.2.1 }, if nvidia then B else { B with data := r.2.2 })

end
end Einsums.Model
