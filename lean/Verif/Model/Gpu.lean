import Verif.Model.ElementOps
/-
Model of kernel launches on a GPU (src/include/einsums/_GPUUtils.hpp) and of the element-wise kernels of device tensors
(src/include/einsums/gpu/DeviceTensor.hpp, gpu/DeviceTensorView.hpp).

A kernel is a list of memory operations for each worker (GPU thread).  An execution is an interleaving of these lists;
it is an argument of the model (`sched`).  The launch itself, the streams and the copies of dimensions and strides to
the device are not modelled; a kernel has finished when the library call that launched it returns (`stream_wait`).
Simplification: sequentially consistent loads and stores of whole elements; `int` and `size_t` counters are unbounded
(C128 shows that the numbers of workers stay far below 2^31).
-/
namespace Einsums.Model

/-- `dim3` of HIP, _GPUUtils.hpp 507–528. -/
structure Dim3 where
  x : Nat
  y : Nat
  z : Nat
  deriving Repr, DecidableEq

/-- _GPUUtils.hpp 507–528: `dim3(n)`. -/
def dim3 (n : Nat) : Dim3 := ⟨n, 1, 1⟩

/-- `kernel<<<grid, block, ...>>>`: the first argument is the number of blocks, the second the number of threads of
each block (DeviceTensor.hpp 471 and others). -/
structure Launch where
  grid : Dim3
  block : Dim3
  deriving Repr, DecidableEq

/-- _GPUUtils.hpp 480–481, `num_threads` of `get_worker_info`. -/
def Launch.size (l : Launch) : Nat :=
  l.grid.x * l.grid.y * l.grid.z * l.block.x * l.block.y * l.block.z

/-- _GPUUtils.hpp 482–484, `thread_id` of `get_worker_info`, for the thread `t` of the block `b`. -/
def Launch.worker (l : Launch) (b t : Dim3) : Nat :=
  t.x + l.block.x * (t.y + l.block.y * (t.z + l.block.z * (b.x + l.grid.x * (b.y + l.grid.y * b.z))))

/-- _GPUUtils.hpp 480–484: the values of `blockIdx` or `threadIdx`. -/
def Dim3.coords (d : Dim3) : List Dim3 :=
  (List.range d.z).flatMap fun z => (List.range d.y).flatMap fun y => (List.range d.x).map fun x => ⟨x, y, z⟩

/-- _GPUUtils.hpp 507–515, `block_size`. -/
def blockSize (n : Nat) : Dim3 :=
  if n < 32 then dim3 32 else if n < 256 then dim3 (n &&& 0xf0) else dim3 256

/-- _GPUUtils.hpp 520–528, `blocks`. -/
def gpuBlocks (n : Nat) : Dim3 :=
  if n < 256 then dim3 1 else if n ≤ 4096 then dim3 (n / 256) else dim3 16

/-- `<<<block_size(n), blocks(n), ...>>>`: DeviceTensor.hpp 471, 602, 610, 984–987, 1066–1071, 1157, 1628–1691;
DeviceTensorView.hpp 96–175; GPULinearAlgebra.hpp 293, 335, 435, 756; GPULinearAlgebra.hip 284–316;
GPUTensorAlgebra.hpp 270, 277, 314.  The block size is passed as the number of blocks. -/
def launchSwapped (n : Nat) : Launch := ⟨blockSize n, gpuBlocks n⟩

/-- `<<<blocks(n), block_size(n), ...>>>`: ElementOperations.hpp 107, 176, 252, 332, 398, 464, 530; DeviceSort.hpp 166. -/
def launchStraight (n : Nat) : Launch := ⟨gpuBlocks n, blockSize n⟩

/-- The workers of a launch, block by block; each runs `body thread_id num_threads` (_GPUUtils.hpp 480–484). -/
def Launch.threads (l : Launch) (body : Nat → Nat → List α) : List (List α) :=
  l.grid.coords.flatMap fun b => l.block.coords.map fun t => body (l.worker b t) l.size

/-- DeviceTensor.hpp 280–287, `index_to_combination`: from the last dimension to the first; returns what is left of
`quot` and the indices. -/
def indexToCombination : List Nat → Nat → Outcome (Nat × List Nat)
  | [], quot => .ok (quot, [])
  | d :: ds, quot => do
      let (q, out) ← indexToCombination ds quot
      if d = 0 then .ub "division by zero" else return (q / d, (q % d) :: out)

/-- DeviceTensor.hpp 293–306, `combination_to_index`.  Simplification: the conversion of an index to `int` is taken to be
exact, so that the test for a negative index never succeeds. -/
def combinationToIndex : List Nat → List Nat → Nat
  | i :: is, s :: ss => s * i + combinationToIndex is ss
  | _, _ => 0

/-- DeviceTensor.hpp 507–511 and others: position in `data` of the element number `curr` of the dimensions `dims`. -/
def elementAddr (off : Nat) (dims strides : List Nat) (curr : Nat) : Outcome Nat := do
  let (_, inds) ← indexToCombination dims curr
  return off + combinationToIndex inds strides

/-- The two memory operations of `data[i] = f(data[i])` (DeviceTensor.hpp 1295, 1481 and others). -/
inductive RmwOp
  | load
  | store
  deriving Repr, DecidableEq

/-- Device memory of the target and, for each iteration, the register that holds the loaded element
(DeviceTensor.hpp 1295, 1481 and others). -/
structure RmwState (K : Type) where
  mem : List K
  reg : Nat → K

variable {K : Type}

/-- DeviceTensor.hpp 1284–1299 and others: one memory operation of iteration `a.1`.  `addr` is the address of the
element of an iteration; `f` computes the new value from the register. -/
def rmwStep (addr : Nat → Outcome Nat) (f : Nat → K → Outcome K) (s : RmwState K) (a : Nat × RmwOp) :
    Outcome (RmwState K) := do
  let p ← addr a.1
  match a.2 with
  | .load => do
      let v ← memGet s.mem p
      return { s with reg := fun c => if c = a.1 then v else s.reg c }
  | .store => do
      let v ← f a.1 (s.reg a.1)
      let m ← memUpd s.mem p fun _ => .ok v
      return { s with mem := m }

/-- DeviceTensor.hpp 1284–1299: the loop `while (curr < n) { ...; curr += kernel_size; }` of every worker of an update
`data[i] = f(data[i])` (the same with `for` in ElementKernels.hpp 155, 186, 211, 245). -/
def updateThreads (l : Launch) (n : Nat) : List (List (Nat × RmwOp)) :=
  l.threads fun w size => (countersOf n size w).flatMap fun c => [(c, .load), (c, .store)]

/-- DeviceTensor.hpp 366–381, 503–517: the same loop of a kernel that only stores. -/
def storeThreads (l : Launch) (n : Nat) : List (List (Nat × RmwOp)) :=
  l.threads fun w size => (countersOf n size w).map fun c => (c, .store)

/-- DeviceTensor.hpp 1284–1299 and others: an execution of a kernel on the storage of `t`.  `r` are the values of the
registers before they are loaded. -/
def runKernel (t : Strided K) (addr : Nat → Outcome Nat) (f : Nat → K → Outcome K) (r : Nat → K)
    (sched : List (Nat × RmwOp)) : Outcome (Strided K) := do
  let s ← sched.foldlM (rmwStep addr f) ⟨t.data, r⟩
  return { t with data := s.mem }

/-- DeviceTensor.hpp 483–520 and 600–614; DeviceTensorView.hpp 126–131: the workers of `set_all`, `zero` and assignment
of a number. -/
def setAllThreads (t : Strided K) : List (List (Nat × RmwOp)) :=
  storeThreads (launchSwapped (sizeMethod t.dims)) (linearSize t.strides t.dims)

/-- DeviceTensor.hpp 483–520 and 600–614; DeviceTensorView.hpp 126–131: `set_all(value)`. -/
def deviceSetAll (value : K) (t : Strided K) (r : Nat → K) (sched : List (Nat × RmwOp)) : Outcome (Strided K) :=
  runKernel t (elementAddr t.off t.dims t.strides) (fun _ _ => .ok value) r sched

/-- DeviceTensor.hpp 1454–1610 and 1625–1659; DeviceTensorView.hpp 145–180: the workers of `+=`, `-=`, `*=`, `/=` with a
number.  The number of elements is `_strides[0] * _dims[0]`. -/
def opScalarThreads (t : Strided K) : List (List (Nat × RmwOp)) :=
  updateThreads (launchSwapped (sizeMethod t.dims)) (linearSize t.strides t.dims)

/-- DeviceTensor.hpp 1454–1610 and 1625–1659; DeviceTensorView.hpp 145–180: `t op= scalar`; `op` is the operation with
the number. -/
def deviceOpScalar (op : K → K) (t : Strided K) (r : Nat → K) (sched : List (Nat × RmwOp)) : Outcome (Strided K) :=
  runKernel t (elementAddr t.off t.dims t.strides) (fun _ v => .ok (op v)) r sched

/-- DeviceTensor.hpp 1267–1445 and 1661–1695: the workers of `+=`, `-=`, `*=`, `/=` with a device tensor.  The launch
depends on the size of the argument, the number of elements on the target. -/
def opTensorThreads (t u : Strided K) : List (List (Nat × RmwOp)) :=
  updateThreads (launchSwapped (sizeMethod u.dims)) (linearSize t.strides t.dims)

/-- DeviceTensor.hpp 1267–1445 and 1661–1695: `t op= u`; the indices are those of `t`, the strides those of `u`. -/
def deviceOpTensor (op : K → K → K) (t u : Strided K) (r : Nat → K) (sched : List (Nat × RmwOp)) : Outcome (Strided K) :=
  runKernel t (elementAddr t.off t.dims t.strides) (fun c v => do
    let q ← elementAddr u.off t.dims u.strides c
    let x ← memGet u.data q
    return op v x) r sched

/-- DeviceTensor.hpp 348–388: the workers of `copy_to_tensor`, launched for `m` elements, copying `n`. -/
def copyThreads (m n : Nat) : List (List (Nat × RmwOp)) := storeThreads (launchSwapped m) n

/-- DeviceTensor.hpp 348–388, `copy_to_tensor`: the element of `u` with the same indices is stored in `t`.  Simplification:
`u` does not share memory with `t`. -/
def deviceCopy (t u : Strided K) (r : Nat → K) (sched : List (Nat × RmwOp)) : Outcome (Strided K) :=
  runKernel t (elementAddr t.off t.dims t.strides) (fun c _ => do
    let q ← elementAddr u.off t.dims u.strides c
    memGet u.data q) r sched

/-- DeviceTensor.hpp 950–969: `_mode`, where the elements of a device tensor live. -/
inductive DeviceMode
  | notInitialized
  | mapped
  | pinned
  | deviceOnly
  deriving Repr, DecidableEq

/-- DeviceTensor.hpp 920–924 (1001–1005, 1083–1087): does the assignment have to allocate?  (`_data` is null only for
tensors that are not initialised; their dimensions are 0.) -/
def deviceRealloc (dims other : List Nat) : Bool :=
  (List.range dims.length).any fun i => dims.getD i 0 = 0 ∨ dims.getD i 0 ≠ other.getD i 0

/-- DeviceTensor.hpp 926–988 (1007–1072): the target of the copy, with the contents `z` of fresh memory. -/
def deviceTarget (mode : DeviceMode) (z : Nat → K) (t : Strided K) (dims : List Nat) : Outcome (Strided K) :=
  if deviceRealloc t.dims dims then
    match mode with
    | .notInitialized => .error "Tensor being assigned to is not initialized!"
    | _ => .ok (Strided.mk' z dims)
  else .ok t

/-- DeviceTensor.hpp 984–988 (1064–1072): the workers of the assignment of `u` to a tensor with the dimensions and
strides of `t`. -/
def assignThreads (t u : Strided K) : List (List (Nat × RmwOp)) :=
  copyThreads (sizeMethod u.dims) (linearSize t.strides t.dims)

/-- DeviceTensor.hpp 917–994 (998–1078): assignment of a device tensor. -/
def deviceAssign (mode : DeviceMode) (z : Nat → K) (t u : Strided K) (r : Nat → K) (sched : List (Nat × RmwOp)) :
    Outcome (Strided K) := do
  let t' ← deviceTarget mode z t u.dims
  deviceCopy t' u r sched

/-- DeviceTensor.hpp 1080–1149: assignment of a host tensor; `size()` elements are copied. -/
def deviceAssignHost (mode : DeviceMode) (z : Nat → K) (t u : Strided K) : Outcome (Strided K) := do
  let t' ← deviceTarget mode z t u.dims
  match mode with
  | .notInitialized => .error "Tensor being assigned to was not initialized!"
  | _ =>
      let n := sizeMethod t'.dims
      if n ≤ t'.data.length ∧ n ≤ u.data.length then .ok { t' with data := u.data.take n ++ t'.data.drop n }
      else .ub "copy outside the allocation"

/-- DeviceTensor.hpp 1151–1164: assignment of a device view; neither shapes nor `_mode` are looked at. -/
def deviceAssignView (t u : Strided K) (r : Nat → K) (sched : List (Nat × RmwOp)) : Outcome (Strided K) :=
  deviceCopy t u r sched

/-- DeviceTensor.hpp 442–475: the workers of the construction of a device tensor from a device view. -/
def fromViewThreads (v : Strided K) : List (List (Nat × RmwOp)) :=
  copyThreads (linearSize (transformStrides v.dims) v.dims) (linearSize (transformStrides v.dims) v.dims)

/-- DeviceTensor.hpp 442–475: construction of a device tensor from a device view. -/
def deviceFromView (z : Nat → K) (v : Strided K) (r : Nat → K) (sched : List (Nat × RmwOp)) : Outcome (Strided K) :=
  deviceCopy (Strided.mk' z v.dims) v r sched

/-- DeviceTensorView.hpp 104–116: the workers of the assignment to a device view. -/
def viewAssignThreads (v : Strided K) : List (List (Nat × RmwOp)) := copyThreads (sizeMethod v.dims) (sizeMethod v.dims)

/-- DeviceTensorView.hpp 104–116: assignment to a device view; the shapes are not compared. -/
def viewAssign (v u : Strided K) (r : Nat → K) (sched : List (Nat × RmwOp)) : Outcome (Strided K) := deviceCopy v u r sched

/-- DeviceTensorView.hpp 45–101: assignment of a host array to a device view. -/
def viewAssignArray (v : Strided K) (xs : List K) (r : Nat → K) (sched : List (Nat × RmwOp)) : Outcome (Strided K) :=
  runKernel v (elementAddr v.off v.dims v.strides) (fun c _ => memGet xs c) r sched

/-- DeviceTensorView.hpp 11–28: copy construction of a device view; the copy has its own memory, of
`_dims[0] * _strides[0]` elements.  `v.data` is the allocation the view looks into. -/
def deviceViewCopy (v : Strided K) : Outcome (Strided K) :=
  let n := linearSize v.strides v.dims
  if v.off + n ≤ v.data.length then .ok { v with data := (v.data.drop v.off).take n, off := 0 }
  else .ub "copy from outside the allocation"

end Einsums.Model
