import Verif.Model.Gpu
import Verif.Model.TileAlgebra
/-
Model of the kernels of src/include/einsums/linear_algebra_imp/GPULinearAlgebra.hpp that compute dot products and of
src/include/einsums/tensor_algebra_backends/GPUTensorAlgebra.hpp, `einsum_generic_algorithm` for device tensors.

The arrays of `A` and `B` are not written by the kernels, so their elements are read together with the arithmetic that uses them;
an operation of a worker is an access to the memory of the result.  `atomicAdd` is one operation (of a complex number: its two
parts are added independently, which has the same effect).  Simplification: one element type.
-/
namespace Einsums.Model

variable {K : Type} [Add K] [Mul K] [Zero K]

/-- GPULinearAlgebra.hpp 50–58; GPUTensorAlgebra.hpp 40–44: a counter is taken apart by the strides `ss` of a dense tensor; `xs` are
the strides of the operand.  Division by a zero stride is undefined. -/
def divAddr : List Nat → List Nat → Nat → Outcome Nat
  | s :: ss, x :: xs, quotient =>
      if s = 0 then .ub "division by zero"
      else do
        let rest ← divAddr ss xs (quotient % s)
        return quotient / s * x + rest
  | _, _, _ => .ok 0

/-! ### Dot products -/

/-- Operations on `*C` in GPULinearAlgebra.hpp 44, 63: `make_zero(*C)` and `atomicAdd_wrap(C, temp)`. -/
inductive AtomicOp
  | zero
  | add
  deriving Repr, DecidableEq

/-- GPULinearAlgebra.hpp 44, 63 and 78, 103: one operation on `*C`; `value w` is `temp` of worker `w`. -/
def atomicStep (value : Nat → Outcome K) (c : K) (a : Nat × AtomicOp) : Outcome K :=
  match a.2 with
  | .zero => .ok 0
  | .add => do
      let v ← value a.1
      return c + v

/-- GPULinearAlgebra.hpp 49: `dims[0] * strides[0]`, `strides` those of a dense tensor (lines 284–289). -/
def dotCount (dims : List Nat) : Nat := dims.headD 0 * (dimsToStrides dims).2.headD 0

/-- GPULinearAlgebra.hpp 50–60: the term of iteration `i` of `dot`. -/
def dotTerm (A B : Strided K) (i : Nat) : Outcome K := do
  let a ← divAddr (dimsToStrides A.dims).2 A.strides i
  let b ← divAddr (dimsToStrides A.dims).2 B.strides i
  let x ← memGet A.data (A.off + a)
  let y ← memGet B.data (B.off + b)
  return x * y

/-- GPULinearAlgebra.hpp 84–100: the term of iteration `i` of `true_dot`; the indices are computed and not used. -/
def trueDotTerm (conj : K → K) (A B : Strided K) (i : Nat) : Outcome K := do
  let _ ← divAddr (dimsToStrides A.dims).2 A.strides i
  let _ ← divAddr (dimsToStrides A.dims).2 B.strides i
  let x ← memGet A.data (A.off + i)
  let y ← memGet B.data (B.off + i)
  return conj x * y

/-- GPULinearAlgebra.hpp 41–63, 293: the operations on `*C` of the workers. -/
def dotThreads (A : Strided K) : List (List (Nat × AtomicOp)) :=
  (launchSwapped (sizeMethod A.dims)).threads fun w _ => if w = 0 then [(w, .zero), (w, .add)] else [(w, .add)]

/-- GPULinearAlgebra.hpp 41–61: `temp` of worker `w`. -/
def dotTemp (term : Nat → Outcome K) (A : Strided K) (w : Nat) : Outcome K :=
  sumLoop term (countersOf (dotCount A.dims) (launchSwapped (sizeMethod A.dims)).size w) 0

/-- GPULinearAlgebra.hpp 33–64, 266–305: `dot`; `c` is the content of the memory allocated for the result. -/
def deviceDot (A B : Strided K) (c : K) (sched : List (Nat × AtomicOp)) : Outcome K :=
  sched.foldlM (atomicStep (dotTemp (dotTerm A B) A)) c

/-- GPULinearAlgebra.hpp 66–104, 307–347: `true_dot`. -/
def deviceTrueDot (conj : K → K) (A B : Strided K) (c : K) (sched : List (Nat × AtomicOp)) : Outcome K :=
  sched.foldlM (atomicStep (dotTemp (trueDotTerm conj A B) A)) c

/-! ### Contractions -/

section
variable {L : Type} [DecidableEq L]

/-- IndexUtils.hpp 16–112: `get_dim_ranges_for_many`: the dimension of a label in `C`, else in `A`, else in `B`, else 1 (the rules
of `get_grid_ranges_for_many`). -/
def dimRanges (Cl : List L) (C : List Nat) (Al : List L) (A : List Nat) (Bl : List L) (B : List Nat) : List Nat :=
  gridRanges Cl C Al A Bl B

/-- GPUTensorAlgebra.hpp 214, 245–246: the numbers of iterations and the launch depend on
`get<0>(unique_dims) * unique_strides[0]`. -/
def einsumCount (dims : List Nat) : Nat := gridCount dims

/-- GPUTensorAlgebra.hpp 62–80, 108–126: the position in the memory of the operand `X` of the element that iteration `i` uses. -/
def operandAddr (us : List L) (dims : List Nat) (Xl : List L) (X : Strided K) (i : Nat) : Outcome Nat := do
  let ix ← tileOfSentinel us dims Xl i
  return X.off + combinationToIndex ix X.strides

/-- GPUTensorAlgebra.hpp 203–208: `direct_product_swap`. -/
def directSwap (Cl Al Bl : List L) : Bool :=
  Al.length == Bl.length && Al.length == Cl.length && (intersect Al Bl).length == Al.length &&
    (intersect Al Cl).length == Al.length && (intersect Cl Bl).length == Al.length

/-- GPUTensorAlgebra.hpp 83, 130: `AB_prefactor * A[A_sentinel] * B[B_sentinel]`. -/
def einsumTerm (ab : K) (us : List L) (dims : List Nat) (Al : List L) (A : Strided K) (Bl : List L) (B : Strided K) (i : Nat) :
    Outcome K := do
  let a ← operandAddr us dims Al A i
  let b ← operandAddr us dims Bl B i
  let x ← memGet A.data a
  let y ← memGet B.data b
  return ab * x * y

variable [BEq K]

/-- GPUTensorAlgebra.hpp 105–136 and PyTensorAlgebra.hpp 147–174, 281–302: the workers of a kernel with `count` iterations that store
or update one element of `C` each. -/
def directThreadsOf (cp : K) (count : Nat) : List (List (Nat × RmwOp)) :=
  if cp == 0 then storeThreads (launchSwapped count) count else updateThreads (launchSwapped count) count

/-- GPUTensorAlgebra.hpp 105–136: the workers of the kernel for direct products. -/
def directThreads (cp : K) (dims : List Nat) : List (List (Nat × RmwOp)) := directThreadsOf cp (einsumCount dims)

/-- GPUTensorAlgebra.hpp 88–137, 276–281: the kernel for direct products. -/
def deviceDirect (cp : K) (Cl : List L) (C : Strided K) (ab : K) (Al : List L) (A : Strided K) (Bl : List L) (B : Strided K)
    (r : Nat → K) (sched : List (Nat × RmwOp)) : Outcome (Strided K) :=
  let us := uniqueLabels Cl Al Bl
  let dims := dimRanges Cl C.dims Al A.dims Bl B.dims
  runKernel C (operandAddr us dims Cl C) (fun i v => do
    let x ← einsumTerm ab us dims Al A Bl B i
    return if cp == 0 then x else cp * v + x) r sched

/-- GPUTensorAlgebra.hpp 156–181: the workers of the kernel for a scalar result. -/
def scalarThreads (dims : List Nat) : List (List (Nat × AtomicOp)) :=
  (launchSwapped (einsumCount dims)).threads fun w _ => [(w, .add)]

/-- GPUTensorAlgebra.hpp 141–182, 298–316: the kernel for a scalar result `c`, set to zero or scaled beforehand. -/
def deviceScalar (cp c ab : K) (Al : List L) (A : Strided K) (Bl : List L) (B : Strided K) (sched : List (Nat × AtomicOp)) :
    Outcome K :=
  let us := uniqueLabels [] Al Bl
  let dims := dimRanges [] [] Al A.dims Bl B.dims
  sched.foldlM (atomicStep fun w => do
    let value ← sumLoop (fun i => do
      let a ← operandAddr us dims Al A i
      let b ← operandAddr us dims Bl B i
      let x ← memGet A.data a
      let y ← memGet B.data b
      return x * y) (countersOf (einsumCount dims) (launchSwapped (einsumCount dims)).size w) 0
    return ab * value) (if cp == 0 then 0 else c * cp)

/-- Operations on the memory of `C` in GPUTensorAlgebra.hpp 37–83: the load and the store of the first loop, and `atomicAdd_wrap`.
The operations are numbered by the iterations of their loops. -/
inductive EinOp
  | load
  | store
  | add
  deriving Repr, DecidableEq

/-- GPUTensorAlgebra.hpp 40–44, 49–53, 62–71: the position that an operation addresses. -/
def einAddr (Cl : List L) (C : Strided K) (Al : List L) (A : Strided K) (Bl : List L) (B : Strided K) (a : Nat × EinOp) :
    Outcome Nat :=
  match a.2 with
  | .add => operandAddr (uniqueLabels Cl Al Bl) (dimRanges Cl C.dims Al A.dims Bl B.dims) Cl C a.1
  | _ => do
      let i ← divAddr (dimsToStrides C.dims).2 C.strides a.1
      return C.off + i

/-- GPUTensorAlgebra.hpp 37–84 and PyTensorAlgebra.hpp 90–129: one operation; `addr` is the position in `C` and `term` the product that
is added. -/
def einStepBy (cp : K) (addr : Nat × EinOp → Outcome Nat) (term : Nat → Outcome K) (s : RmwState K) (a : Nat × EinOp) :
    Outcome (RmwState K) := do
  let p ← addr a
  match a.2 with
  | .load => do
      let v ← memGet s.mem p
      return { s with reg := fun c => if c = a.1 then v else s.reg c }
  | .store => do
      let m ← memUpd s.mem p fun _ => .ok (if cp == 0 then 0 else s.reg a.1 * cp)
      return { s with mem := m }
  | .add => do
      let x ← term a.1
      let m ← memUpd s.mem p fun v => .ok (v + x)
      return { s with mem := m }

/-- GPUTensorAlgebra.hpp 37–84: one operation. -/
def einStep (cp : K) (Cl : List L) (C : Strided K) (ab : K) (Al : List L) (A : Strided K) (Bl : List L) (B : Strided K) :
    RmwState K → Nat × EinOp → Outcome (RmwState K) :=
  einStepBy cp (einAddr Cl C Al A Bl B)
    (einsumTerm ab (uniqueLabels Cl Al Bl) (dimRanges Cl C.dims Al A.dims Bl B.dims) Al A Bl B)

/-- GPUTensorAlgebra.hpp 37–56: the first loop of worker `w` of `size`: `C` (`n` elements) is set to zero or scaled. -/
def einFirst (cp : K) (n size w : Nat) : List (Nat × EinOp) :=
  (countersOf n size w).flatMap fun i => if cp == 0 then [(i, .store)] else [(i, .load), (i, .store)]

/-- GPUTensorAlgebra.hpp 60–84: the second loop of worker `w` of `size`. -/
def einSecond (n size w : Nat) : List (Nat × EinOp) := (countersOf n size w).map fun i => (i, .add)

/-- GPUTensorAlgebra.hpp 20–85, 269 and PyTensorAlgebra.hpp 73–130, 461: the blocks of the launch for `count` iterations and `n` elements
of `C`; `__syncthreads()` stands between the two loops of the threads of a block.  For each block the two phases, for each phase the
threads. -/
def einBlocksOf (cp : K) (n count : Nat) : List (List (List (List (Nat × EinOp)))) :=
  let l := launchSwapped count
  l.grid.coords.map fun b =>
    [l.block.coords.map fun t => einFirst cp n l.size (l.worker b t),
     l.block.coords.map fun t => einSecond count l.size (l.worker b t)]

/-- GPUTensorAlgebra.hpp 20–85, 269: the blocks of the launch. -/
def einBlocks (cp : K) (C : Strided K) (dims : List Nat) : List (List (List (List (Nat × EinOp)))) :=
  einBlocksOf cp (sizeMethod C.dims) (einsumCount dims)

/-- GPUTensorAlgebra.hpp 20–85, 269–274: the kernel for the other contractions. -/
def deviceContract (cp : K) (Cl : List L) (C : Strided K) (ab : K) (Al : List L) (A : Strided K) (Bl : List L) (B : Strided K)
    (r : Nat → K) (sched : List (Nat × EinOp)) : Outcome (Strided K) := do
  let s ← sched.foldlM (einStep cp Cl C ab Al A Bl B) ⟨C.data, r⟩
  return { C with data := s.mem }

end
end Einsums.Model
