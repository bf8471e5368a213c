import Verif.Model.Gpu
import Verif.Model.LinearAlgebra
import Verif.Model.TileAlgebra
/-
Model of `sort` (src/include/einsums/DeviceSort.hpp) and of the element-wise part of
src/include/einsums/linear_algebra_imp/GPULinearAlgebra.hpp and src/GPULinearAlgebra.hip on device tensors.

As in Model/Gpu.lean an execution of a kernel is an interleaving of the memory operations of its workers.  The hipBLAS
routines `axpy` and `scal` are the BLAS contracts of Model/Blas.lean.  Simplifications: the numbers of elements, which are
passed as `int`, are taken to be exact; the source operands do not share memory with the target.
-/
namespace Einsums.Model

variable {K L : Type} [Add K] [Mul K] [Zero K] [DecidableEq L]

/-! ### sort -/

/-- DeviceSort.hpp 50–62: positions in `A` and in `C` of the element number `curr`; the number is decoded with the strides
of `A` itself. -/
def sortAddrs (Cl : List L) (C : Strided K) (Al : List L) (A : Strided K) (curr : Nat) : Outcome (Nat × Nat) := do
  let inds := sentinelToIndices curr A.strides
  let cinds ← tableIndex inds (compileIndexTable Al Cl)
  return (A.off + combinationToIndex inds A.strides, C.off + combinationToIndex cinds C.strides)

/-- DeviceSort.hpp 64: one memory operation of worker `a.1`, for the element number `a.2.1`.  The registers are numbered by
the workers. -/
def sortStep (beta : K) (Cl : List L) (C : Strided K) (alpha : K) (Al : List L) (A : Strided K) (s : RmwState K)
    (a : Nat × Nat × RmwOp) : Outcome (RmwState K) := do
  let (pa, pc) ← sortAddrs Cl C Al A a.2.1
  match a.2.2 with
  | .load => do
      let v ← memGet s.mem pc
      return { s with reg := fun w => if w = a.1 then v else s.reg w }
  | .store => do
      let x ← memGet A.data pa
      let m ← memUpd s.mem pc fun _ => .ok (beta * s.reg a.1 + alpha * x)
      return { s with mem := m }

/-- DeviceSort.hpp 49 and 166–168: the workers of the kernel.  Each advances by 1, not by the number of workers. -/
def sortThreads (A : Strided K) : List (List (Nat × Nat × RmwOp)) :=
  (launchStraight (sizeMethod A.dims)).threads fun w _ =>
    (List.range' w (sizeMethod A.dims - w)).flatMap fun q => [(w, q, .load), (w, q, .store)]

/-- DeviceSort.hpp 84–182: `sort(beta, C indices, &C, alpha, A indices, A)` for different lists of indices, by the kernel of
the library (tensors with beta = 0 are passed to LibreTT if it is available). -/
def deviceSort (beta : K) (Cl : List L) (C : Strided K) (alpha : K) (Al : List L) (A : Strided K) (r : Nat → K)
    (sched : List (Nat × Nat × RmwOp)) : Outcome (Strided K) := do
  let s ← sched.foldlM (sortStep beta Cl C alpha Al A) ⟨C.data, r⟩
  return { C with data := s.mem }

/-! ### axpy, axpby, scale, direct_product -/

/-- GPULinearAlgebra.hpp 588–593, GPULinearAlgebra.hip 276–373: the workers of `axpby`. -/
def axpbyThreads (X : Strided K) : List (List (Nat × RmwOp)) :=
  updateThreads (launchSwapped (X.dim 0 * X.stride 0)) (X.dim 0 * X.stride 0)

/-- GPULinearAlgebra.hpp 588–593, GPULinearAlgebra.hip 276–373: `axpby(alpha, X, beta, &Y)`: `X.dim(0) * X.stride(0)`
consecutive elements. -/
def deviceAxpby (alpha : K) (X : Strided K) (beta : K) (Y : Strided K) (r : Nat → K) (sched : List (Nat × RmwOp)) :
    Outcome (Strided K) :=
  runKernel Y (fun c => .ok (Y.off + c)) (fun c v => do
    let x ← memGet X.data (X.off + c)
    return alpha * x + beta * v) r sched

/-- GPULinearAlgebra.hpp 576–581: `axpy(alpha, X, &Y)`. -/
def deviceAxpy (alpha : K) (X Y : Strided K) : Outcome (Strided K) :=
  blasAxpy (X.dim 0 * X.stride 0) alpha X.data X.off 1 Y.data Y.off 1 >>= fun d => .ok { Y with data := d }

/-- GPULinearAlgebra.hpp 406–414: `scale(alpha, &A)`: `A.size()` consecutive elements. -/
def deviceScale (alpha : K) (A : Strided K) : Outcome (Strided K) :=
  blasScal (sizeMethod A.dims) alpha A.data A.off 1 >>= fun d => .ok { A with data := d }

/-- GPULinearAlgebra.hpp 663–667: `scale_row(row, alpha, &A)`. -/
def deviceScaleRow (row : Nat) (alpha : K) (A : Strided K) : Outcome (Strided K) :=
  blasScal (A.dim 1) alpha A.data (A.off + row * A.stride 0) (A.stride 1) >>= fun d => .ok { A with data := d }

/-- GPULinearAlgebra.hpp 674–678: `scale_column(col, alpha, &A)`. -/
def deviceScaleColumn (col : Nat) (alpha : K) (A : Strided K) : Outcome (Strided K) :=
  blasScal (A.dim 0) alpha A.data (A.off + col * A.stride 1) (A.stride 0) >>= fun d => .ok { A with data := d }

/-- GPULinearAlgebra.hpp 223–239: the workers of `direct_product`; with beta = 0 the target is not loaded. -/
def productThreads [DecidableEq K] (beta : K) (A : Strided K) : List (List (Nat × RmwOp)) :=
  if beta = 0 then storeThreads (launchSwapped (sizeMethod A.dims)) (sizeMethod A.dims)
  else updateThreads (launchSwapped (sizeMethod A.dims)) (sizeMethod A.dims)

/-- GPULinearAlgebra.hpp 225–233: position of the element number `curr` of the dimensions `dims`. -/
def productAddr (dims : List Nat) (t : Strided K) (curr : Nat) : Nat :=
  t.off + combinationToIndex (sentinelToIndices curr (dimsToStrides dims).2) t.strides

/-- GPULinearAlgebra.hpp 214–241 and 722–763: `direct_product(alpha, A, B, beta, &C)`. -/
def deviceProduct [DecidableEq K] (alpha : K) (A B : Strided K) (beta : K) (C : Strided K) (r : Nat → K)
    (sched : List (Nat × RmwOp)) : Outcome (Strided K) :=
  if A.dims ≠ B.dims ∨ A.dims ≠ C.dims then .ub "assertion failed"
  else runKernel C (fun c => .ok (productAddr A.dims C c)) (fun c v => do
    let a ← memGet A.data (productAddr A.dims A c)
    let b ← memGet B.data (productAddr A.dims B c)
    if beta = 0 then return alpha * a * b else return beta * v + alpha * a * b) r sched

end Einsums.Model
