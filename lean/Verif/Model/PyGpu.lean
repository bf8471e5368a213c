import Verif.Model.GpuContract
import Verif.Model.PythonPlan
/-
Model of the einsum plans of the Python interface on device memory: the kernels of src/include/einsums/python/PyTensorAlgebra.hpp,
`execute_generic_gpu` and the methods `execute_imp_gpu` of the other plans, and the dispatch in src/python/PyTensorAlgebra.cpp.

An operand (`PyGPUView`) is a strided view of device memory.  Strides are counted in elements: the code divides the strides in
bytes by the size of an element.  Simplifications: one element type (operands of different types are rejected by the code); the
tables that are copied to the device and freed again are not modelled; the copies of `C` between host and device
(`update_D2H`, `update_H2D`) are those of C140, here the host sees the memory of the device; scalars that are passed to hipBLAS by
device pointers are read as documented for device pointers.
-/
namespace Einsums.Model

section
variable {K : Type} [Add K] [Mul K] [Zero K] [One K] [BEq K]

/-- What the GPU decides: the order of the operations of the kernels (PyTensorAlgebra.hpp 73–130, 137–174 and 269–326, 180–263) and the
contents of registers that have not been loaded. -/
structure GpuRun (K : Type) where
  ein : List (Nat × EinOp)
  rmw : List (Nat × RmwOp)
  atomic : List (Nat × AtomicOp)
  reg : Nat → K

/-- PyTensorAlgebra.hip 36–57: `get_dim_ranges_for_many(A, A_perm, B, B_perm, unique_indices)`: the dimensions of `C` are not used. -/
def pyGpuDims (b : PyBase) (A B : List Nat) : List Nat :=
  pyDimLoop (pyDimLoop (List.replicate b.numInds 0) b.Aperm A) b.Bperm B

/-- PyTensorAlgebra.hpp 370–382: the stride of the first index of the operand with number `i`, 0 if there is none. -/
def firstStride : List Nat → List Nat → Nat → Nat
  | p :: ps, s :: ss, i => if p = i then s else firstStride ps ss i
  | _, _, _ => 0

/-- PyTensorAlgebra.hpp 370–410: `A_unique_stride`, `B_unique_stride`, `C_unique_stride`. -/
def pyUniqueStrides (n : Nat) (perm strides : List Nat) : List Nat := (List.range n).map (firstStride perm strides)

/-- PyTensorAlgebra.hpp 113–124, 149–160, 204–213: the position of an operand in iteration `i`. -/
def pyGpuAddr (ud perm : List Nat) (X : Strided K) (i : Nat) : Outcome Nat := do
  let a ← divAddr (dimsToStrides ud).2 (pyUniqueStrides ud.length perm X.strides) i
  return X.off + a

/-- PyTensorAlgebra.hpp 128, 163–172: `AB_prefactor * A[A_sentinel] * B[B_sentinel]`. -/
def pyGpuTerm (b : PyBase) (ud : List Nat) (ab : K) (A B : Strided K) (i : Nat) : Outcome K := do
  let p ← pyGpuAddr ud b.Aperm A i
  let q ← pyGpuAddr ud b.Bperm B i
  let x ← memGet A.data p
  let y ← memGet B.data q
  return ab * x * y

/-- PyTensorAlgebra.hpp 89–107, 111–128: the position in `C` of an operation of `einsum_generic_algorithm_gpu`. -/
def pyGpuEinAddr (b : PyBase) (ud : List Nat) (C : Strided K) (a : Nat × EinOp) : Outcome Nat :=
  match a.2 with
  | .add => pyGpuAddr ud b.Cperm C a.1
  | _ => do
      let i ← divAddr (dimsToStrides C.dims).2 C.strides a.1
      return C.off + i

/-- PyTensorAlgebra.cpp 38–41: `_direct_product_swap`. -/
def pyDirectSwap (b : PyBase) : Bool :=
  decide (b.Aperm.length = b.Bperm.length) && decide (b.Aperm.length = b.Cperm.length) &&
  decide ((pyIntersect b.Aperm b.Bperm).length = b.Aperm.length) &&
  decide ((pyIntersect b.Aperm b.Cperm).length = b.Aperm.length) &&
  decide ((pyIntersect b.Bperm b.Cperm).length = b.Aperm.length)

/-- PyTensorAlgebra.hpp 180–221, 227–263: the blocks of the kernels with a scalar result.  Worker 0 clears the result, the barrier
`__syncthreads()` of its block follows, then every worker adds its sum. -/
def zeroBlocks (count : Nat) : List (List (List (List (Nat × AtomicOp)))) :=
  let l := launchSwapped count
  l.grid.coords.map fun b =>
    [l.block.coords.map fun t => if l.worker b t = 0 then [(0, .zero)] else [],
     l.block.coords.map fun t => [(l.worker b t, .add)]]

/-- PyTensorAlgebra.hpp 180–221: what worker `w` of `einsum_generic_zero_rank_gpu` adds. -/
def pyGpuValue (b : PyBase) (ud : List Nat) (ab : K) (A B : Strided K) (w : Nat) : Outcome K := do
  let value ← sumLoop (fun i => do
    let p ← pyGpuAddr ud b.Aperm A i
    let q ← pyGpuAddr ud b.Bperm B i
    let x ← memGet A.data p
    let y ← memGet B.data q
    return x * y) (countersOf (einsumCount ud) (launchSwapped (einsumCount ud)).size w) 0
  return ab * value

/-- PyTensorAlgebra.hpp 346–507: `execute_generic_gpu`. -/
def pyGpuGeneric (b : PyBase) (run : GpuRun K) (cp : K) (C : Strided K) (ab : K) (A B : Strided K) : Outcome (Strided K) :=
  if b.Cperm.length ≠ C.dims.length ∨ b.Aperm.length ≠ A.dims.length ∨ b.Bperm.length ≠ B.dims.length then
    .error "Tensor ranks do not match the indices!"
  else
    let ud := pyGpuDims b A.dims B.dims
    if ud.length = 0 then .ub "unique_dims[0] of an empty vector"
    else if b.Cperm.length = 0 then
      memUpd C.data C.off (fun old =>
        run.atomic.foldlM (atomicStep (pyGpuValue b ud ab A B)) (if cp == 0 then 0 else old * cp)) >>= fun d =>
      .ok { C with data := d }
    else if pyDirectSwap b then
      runKernel C (pyGpuAddr ud b.Cperm C) (fun i v => do
        let x ← pyGpuTerm b ud ab A B i
        return if cp == 0 then x else cp * v + x) run.reg run.rmw
    else
      run.ein.foldlM (einStepBy cp (pyGpuEinAddr b ud C) (pyGpuTerm b ud ab A B)) ⟨C.data, run.reg⟩ >>= fun s =>
      .ok { C with data := s.mem }

/-- PyTensorAlgebra.hpp 227–263: what worker `w` of `dot_kernel` adds. -/
def pyDotValue (A B : Strided K) (w : Nat) : Outcome K :=
  sumLoop (dotTerm A B) (countersOf (dotCount A.dims) (launchSwapped (dotCount A.dims)).size w) 0

/-- PyTensorAlgebra.hpp 623–667: `PyEinsumDotPlan::execute_imp_gpu`.  The scaled old value is kept on the host and added at the end. -/
def pyGpuDot (run : GpuRun K) (cp : K) (C : Strided K) (ab : K) (A B : Strided K) : Outcome (Strided K) :=
  if A.dims.length ≠ B.dims.length then .error "Tensor ranks do not match the indices!"
  else if A.dims.length = 0 then .ub "unique_strides[0] of an empty vector"
  else
    memUpd C.data C.off (fun old => do
      let v ← run.atomic.foldlM (atomicStep (pyDotValue A B)) 0
      return v * ab + (if cp == 0 then 0 else old * cp)) >>= fun d => .ok { C with data := d }

/-- PyTensorAlgebra.hpp 288–295: the position of an operand in iteration `i` of `direct_product_kernel`. -/
def pyDirectAddr (dims : List Nat) (X : Strided K) (i : Nat) : Outcome Nat := do
  let a ← divAddr (dimsToStrides dims).2 X.strides i
  return X.off + a

/-- PyTensorAlgebra.hpp 298, 300: `AB_prefactor * A[A_sentinel] * B[B_sentinel]`. -/
def pyDirectTerm (ab : K) (A B : Strided K) (i : Nat) : Outcome K := do
  let p ← pyDirectAddr A.dims A i
  let q ← pyDirectAddr A.dims B i
  let x ← memGet A.data p
  let y ← memGet B.data q
  return ab * x * y

/-- PyTensorAlgebra.hpp 737–768 and 269–303: `PyEinsumDirectProductPlan::execute_imp_gpu`. -/
def pyGpuDirect (b : PyBase) (run : GpuRun K) (cp : K) (C : Strided K) (ab : K) (A B : Strided K) : Outcome (Strided K) :=
  if A.dims.length ≠ B.dims.length ∨ A.dims.length ≠ C.dims.length ∨ A.dims.length ≠ b.numInds then
    .error "Tensor ranks do not match the indices!"
  else
    runKernel C (pyDirectAddr A.dims C) (fun i v => do
      let x ← pyDirectTerm ab A B i
      return if cp == 0 then x else cp * v + x) run.reg run.rmw

/-- PyGPUView.hip 224–229: `dim(i)`; `at` throws. -/
def pyDimAt (X : Strided K) (p : Nat) : Outcome Nat :=
  match X.dims[p]? with
  | some d => .ok d
  | none => .error "std::out_of_range"

/-- PyGPUView.hip 235–241: `stride(i)`; `at` throws. -/
def pyStrideAt (X : Strided K) (p : Nat) : Outcome Nat :=
  match X.strides[p]? with
  | some s => .ok s
  | none => .error "std::out_of_range"

/-- PyTensorAlgebra.hpp 841–848, 971–976: `for (i = 0; i < n; i++) d *= view.dim(pos[i])`. -/
def pyProdAt (X : Strided K) (pos : List Nat) (n : Nat) : Outcome Nat :=
  (List.range n).foldlM (fun acc (i : Nat) => match pos[i]? with
    | some p => pyDimAt X p >>= fun d => .ok (acc * d)
    | none => .ub "vector index out of range") 1

/-- PyTensorAlgebra.hpp 309–326, 859–864: `scale_array` on the first `C.size()` elements of `C`. -/
def pyGpuScale (run : GpuRun K) (cp : K) (C : Strided K) : Outcome (Strided K) :=
  runKernel C (fun i => .ok (C.off + i)) (fun _ v => .ok (if cp == 0 then 0 else cp * v)) run.reg run.rmw

/-- PyTensorAlgebra.hpp 833–892: `PyEinsumGerPlan::execute_imp_gpu`. -/
def pyGpuGer (run : GpuRun K) (CA CB : List Nat) (swap : Bool) (cp : K) (C : Strided K) (ab : K) (A B : Strided K) :
    Outcome (Strided K) := do
  let d0 ← pyProdAt C CA CA.length
  let d1 ← pyProdAt C CB CB.length
  let (d0, d1) := if swap then (d1, d0) else (d0, d1)
  let C1 ← if cp == 1 then .ok C else pyGpuScale run cp C
  let (X, Y) := if swap then (B, A) else (A, B)
  let mem ← fortranGer d1 d0 ab Y.data Y.off 1 X.data X.off 1 C1.data C1.off d1
  return { C with data := mem }

/-- `hipblasXgemv`, called in PyTensorAlgebra.hpp 1006–1027: like `xGEMV`; after the checks of its arguments it leaves `y` as it is if
the matrix is empty. -/
def hipGemv (trans : Bool) (m n : Nat) (alpha : K) (a : List K) (aoff lda : Nat) (x : List K) (xoff incx : Nat) (beta : K)
    (y : List K) (yoff incy : Nat) : Outcome (List K) :=
  if (m = 0 ∨ n = 0) ∧ ¬ (lda < max 1 m ∨ incx = 0 ∨ incy = 0) then .ok y
  else fortranGemv trans m n alpha a aoff lda x xoff incx beta y yoff incy

/-- PyTensorAlgebra.hpp 962–1033: `PyEinsumGemvPlan::execute_imp_gpu`.  Line 1004 copies `AB_prefactor` into `gpu_C_prefactor`. -/
def pyGpuGemv (Alink Blink AC : List Nat) (AtLast AlLast BlLast CtLast : Nat) (transA : Bool) (_cp : K)
    (C : Strided K) (ab : K) (A B : Strided K) : Outcome (Strided K) := do
  let d0 ← pyProdAt C AC AC.length
  let d1 ← pyProdAt A Alink AC.length
  let s0 ← pyStrideAt A AtLast
  let s1 ← pyStrideAt A AlLast
  let (d0, d1, s0) := if transA then (d1, d0, s1) else (d0, d1, s0)
  let _ ← pyProdAt B Blink Blink.length
  let sB ← pyStrideAt B BlLast
  let _ ← pyProdAt C AC AC.length
  let sC ← pyStrideAt C CtLast
  let gpuCPrefactor := ab
  let mem ← hipGemv (!transA) d1 d0 ab A.data A.off s0 B.data B.off sB gpuCPrefactor C.data C.off sC
  return { C with data := mem }

/-- PyTensorAlgebra.hpp 1116–1233: `PyEinsumGemmPlan::execute_imp_gpu`.  Line 1176 copies `AB_prefactor` into `gpu_C_prefactor`.  `z`: the
elements are `std::complex<double>`; then line 1197 uses `_trans_A` for the second operand. -/
def pyGpuGemm (z : Bool) (Alink Blink AC BC : List Nat) (AtLast AlLast BtLast BlLast CAtLast CBtLast : Nat)
    (transA transB transC : Bool) (_cp : K) (C : Strided K) (ab : K) (A B : Strided K) :
    Outcome (Strided K) := do
  let dA0 ← pyProdAt C AC AC.length
  let dA1 ← pyProdAt A Alink AC.length
  let sA0 ← pyStrideAt A AtLast
  let sA1 ← pyStrideAt A AlLast
  let (dA0, dA1, sA0) := if transA then (dA1, dA0, sA1) else (dA0, dA1, sA0)
  let dB1 ← pyProdAt C BC BC.length
  let dB0 ← pyProdAt B Blink BC.length
  let sB1 ← pyStrideAt B BtLast
  let sB0 ← pyStrideAt B BlLast
  let (dB1, sB0) := if transB then (dB0, sB1) else (dB1, sB0)
  let sC0 ← pyStrideAt C CAtLast
  let sC1 ← pyStrideAt C CBtLast
  let sC0 := if transC then sC1 else sC0
  let gpuCPrefactor := ab
  let mem ← if transC then
      fortranGemm (!transA) (if z then !transA else !transB) dA0 dB1 dA1 ab A.data A.off sA0 B.data B.off sB0 gpuCPrefactor
        C.data C.off sC0
    else
      fortranGemm transB transA dB1 dA0 dA1 ab B.data B.off sB0 A.data A.off sA0 gpuCPrefactor C.data C.off sC0
  return { C with data := mem }

/-- PyTensorAlgebra.cpp 602–619, 641–656, 678–693, 748–796, 851–919, 974–1023: `plan.execute(...)` on views of device memory.  With
`_swap_AB` the gemv plan is called with the operands exchanged. -/
def pyGpuExecute (z : Bool) (run : GpuRun K) (b : PyBase) (plan : PyPlan) (cp : K) (C : Strided K) (ab : K)
    (A B : Strided K) : Outcome (Strided K) :=
  let useGeneric := !pyContiguousBuffer C || !pyContiguousBuffer A || !pyContiguousBuffer B
  match plan with
  | .generic => pyGpuGeneric b run cp C ab A B
  | .dot => pyGpuDot run cp C ab A B
  | .direct => pyGpuDirect b run cp C ab A B
  | .ger CA CB swap =>
      if useGeneric then pyGpuGeneric b run cp C ab A B else pyGpuGer run CA CB swap cp C ab A B
  | .gemv Al Bl AC a1 a2 b1 c1 tA sw =>
      if useGeneric then pyGpuGeneric b run cp C ab A B
      else if sw then pyGpuGemv Al Bl AC a1 a2 b1 c1 tA cp C ab B A
      else pyGpuGemv Al Bl AC a1 a2 b1 c1 tA cp C ab A B
  | .gemm Al Bl AC BC a1 a2 b1 b2 c1 c2 tA tB tC =>
      if useGeneric then pyGpuGeneric b run cp C ab A B
      else pyGpuGemm z Al Bl AC BC a1 a2 b1 b2 c1 c2 tA tB tC cp C ab A B

/-- PyTensorAlgebra.cpp 162–528 and the execute methods: compile a plan and execute it on views of device memory. -/
def pyGpuEinsum {L : Type} [DecidableEq L] (z : Bool) (run : GpuRun K) (cp : K) (Cl : List L) (C : Strided K) (ab : K)
    (Al : List L) (A : Strided K) (Bl : List L) (B : Strided K) : Outcome (Strided K) :=
  compilePlan Cl Al Bl >>= fun plan => pyGpuExecute z run (pyBase Al Bl Cl) plan cp C ab A B

end
end Einsums.Model
