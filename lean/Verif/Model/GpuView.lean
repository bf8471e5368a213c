import Verif.Model.Blas
/-
Model of `PyGPUView` (src/python/PyGPUView.hip, src/include/einsums/python/PyGPUView.hpp): Python buffers made available to the
device, mapped (`MAP`) or copied (`COPY`).

The HIP calls are described by their documentation.  `hipHostRegister` fails for an empty range and for a range that overlaps a
registered one, and may fail for other reasons (`refuse`); `hipMalloc` may fail (`oom`).  Addresses are natural numbers; the
arithmetic on them does not overflow.  `MappingList` holds a lock during each operation, so its operations are atomic.
-/
namespace Einsums.Model

/-! ### Mapped buffers -/

/-- PyGPUView.hip 34, 48 (external HIP): a range of host memory registered with the driver, and the address at which the device sees
it. -/
structure Registered where
  ptr : Nat
  size : Nat
  dev : Nat
  deriving Repr, DecidableEq

/-- PyGPUView.hip 24–72 `MappingData`; a view is named by its address. -/
structure Mapping where
  ptr : Nat
  size : Nat
  observers : List Nat
  deriving Repr, DecidableEq

/-- PyGPUView.hpp 56–69: what is observable of a view in mode `MAP`: the address of the object, host pointer and size, device
pointer. -/
structure MappedView where
  id : Nat
  ptr : Nat
  size : Nat
  dev : Nat
  deriving Repr, DecidableEq

/-- PyGPUView.hip 73 (`_pointers`), the driver's table, the views that exist, and the memory of the Python buffers that exist. -/
structure GpuWorld where
  maps : List Mapping
  reg : List Registered
  views : List MappedView
  buffers : List (Nat × Nat)
  deriving Repr, DecidableEq

/-- PyGPUView.hip 34 (external HIP): the two ranges have a byte in common. -/
def rangesOverlap (p n q m : Nat) : Bool := decide (p < q + m ∧ q < p + n)

/-- PyGPUView.hip 34 (external HIP): `hipHostRegister`; `none` is a failure. -/
def hostRegister (refuse : Bool) (reg : List Registered) (ptr size dev : Nat) : Option (List Registered) :=
  if refuse || size == 0 || reg.any fun r => rangesOverlap r.ptr r.size ptr size then none
  else some (reg ++ [⟨ptr, size, dev⟩])

/-- PyGPUView.hip 37–41 (external HIP): `hipHostUnregister`.  An exception thrown by a destructor ends the program. -/
def hostUnregister (reg : List Registered) (ptr : Nat) : Outcome (List Registered) :=
  if reg.any fun r => r.ptr == ptr then .ok (reg.filter fun r => r.ptr != ptr)
  else .ub "exception in a destructor"

/-- PyGPUView.hip 45–53: `get_gpu_pointer(host_pointer)` of the mapping that begins at `base`. -/
def gpuPointer (reg : List Registered) (base host : Nat) : Outcome Nat :=
  match reg.find? fun r => r.ptr == base with
  | some r => .ok (r.dev + (host - base))
  | none => .error "hipErrorInvalidValue"

/-- PyGPUView.hip 138–142: `notify`: mappings without observers are removed and their memory is unregistered. -/
def notify (maps : List Mapping) (reg : List Registered) : Outcome (List Mapping × List Registered) := do
  let reg ← (maps.filter fun m => m.observers.isEmpty).foldlM (fun reg m => hostUnregister reg m.ptr) reg
  return (maps.filter fun m => !m.observers.isEmpty, reg)

/-- PyGPUView.hip 105: `diff >= 0 && diff < size && diff + size <= size`. -/
def Mapping.covers (m : Mapping) (ptr size : Nat) : Bool :=
  decide (m.ptr ≤ ptr ∧ ptr - m.ptr < m.size ∧ ptr - m.ptr + size ≤ m.size)

/-- PyGPUView.hip 101–110: the loop over the mappings: the first that covers the range gets the view as an observer. -/
def attachFirst (id ptr size : Nat) : List Mapping → Option (Nat × List Mapping)
  | [] => none
  | m :: ms =>
      if m.covers ptr size then some (m.ptr, { m with observers := m.observers ++ [id] } :: ms)
      else (attachFirst id ptr size ms).map fun r => (r.1, m :: r.2)

/-- PyGPUView.hip 98–118: `attach(view, pointer, size)`.  `none`: `hipHostRegister` failed and nothing is changed. -/
def attach (refuse : Bool) (dev id ptr size : Nat) (maps : List Mapping) (reg : List Registered) :
    Outcome (Option (Nat × List Mapping × List Registered)) :=
  match attachFirst id ptr size maps with
  | some (base, maps) => do
      let (maps, reg) ← notify maps reg
      let p ← gpuPointer reg base ptr
      return some (p, maps, reg)
  | none =>
      match hostRegister refuse reg ptr size dev with
      | none => .ok none
      | some reg => do
          let (maps, reg) ← notify (maps ++ [⟨ptr, size, [id]⟩]) reg
          let p ← gpuPointer reg ptr ptr
          return some (p, maps, reg)

/-- PyGPUView.hip 123–132: `detach(view)`. -/
def detach (id : Nat) (maps : List Mapping) (reg : List Registered) : Outcome (List Mapping × List Registered) :=
  notify (maps.map fun m => { m with observers := m.observers.filter fun o => o != id }) reg

/-- PyGPUView.hip 145–202: what the Python program does: buffers come into being and go, views in mode `MAP` are constructed (145–185) and
destroyed (187–202).  `refuse`: the driver refuses to register the memory; `oom`: one of the `hipMalloc` of 181–182 fails;
`dev`: where the driver puts newly registered memory. -/
inductive GpuOp
  | newBuffer (ptr size : Nat)
  | freeBuffer (ptr size : Nat)
  | create (id ptr size dev : Nat) (refuse oom : Bool)
  | destroy (id : Nat)
  deriving Repr, DecidableEq

/-- PyGPUView.hip 145–202: one operation.  If an exception leaves the constructor, no destructor runs. -/
def GpuWorld.step (w : GpuWorld) : GpuOp → Outcome GpuWorld
  | .newBuffer p n => .ok { w with buffers := (p, n) :: w.buffers }
  | .freeBuffer p n => .ok { w with buffers := w.buffers.erase (p, n) }
  | .create id ptr size dev refuse oom => do
      match ← attach refuse dev id ptr size w.maps w.reg with
      | none => return w
      | some (p, maps, reg) =>
          return { w with maps := maps, reg := reg, views := if oom then w.views else ⟨id, ptr, size, p⟩ :: w.views }
  | .destroy id => do
      let (maps, reg) ← detach id w.maps w.reg
      return { w with maps := maps, reg := reg, views := w.views.filter fun v => v.id != id }

/-- PyGPUView.hip 145–202: which operations can happen: objects have different addresses, only objects that exist are destroyed, a view is made of the
memory of a buffer.  The constructor of a view requests the buffer for its own duration only (line 146: a local
variable), so a buffer can go at any time. -/
def GpuWorld.allowed (w : GpuWorld) : GpuOp → Prop
  | .newBuffer p n => ∀ b ∈ w.buffers, rangesOverlap b.1 b.2 p n = false
  | .freeBuffer p n => (p, n) ∈ w.buffers
  | .create id ptr size _ _ _ => (∀ v ∈ w.views, v.id ≠ id) ∧ ∃ b ∈ w.buffers, b.1 ≤ ptr ∧ ptr + size ≤ b.1 + b.2
  | .destroy id => ∃ v ∈ w.views, v.id = id

/-- PyGPUView.hip 73, 85–91: at the start nothing is mapped. -/
def GpuWorld.init : GpuWorld := ⟨[], [], [], []⟩

/-! ### Copied buffers -/

section
variable {K : Type}

/-- PyGPUView.hip 146–151: a Python buffer: the memory it lies in, its position, shape and strides.  Simplification: strides are
counted in items, not in bytes. -/
structure HostArray (K : Type) where
  mem : List K
  off : Nat
  shape : List Nat
  strides : List Int
  deriving Repr, DecidableEq

/-- PyGPUView.hpp 56–69: a view in mode `COPY`: host pointer, `_alloc_size`, and the memory of the device. -/
structure CopyView (K : Type) where
  off : Nat
  alloc : Nat
  dev : List K
  deriving Repr, DecidableEq

/-- PyGPUView.hip 158–159, 277 (external HIP): `hipMemcpy` from `n` items of host memory. -/
def hostRead (mem : List K) (off n : Nat) : Outcome (List K) :=
  if off + n ≤ mem.length then .ok ((mem.drop off).take n) else .ub "access outside the storage"

/-- PyGPUView.hip 283 (external HIP): `hipMemcpy` to host memory. -/
def hostWrite (mem : List K) (off : Nat) (xs : List K) : Outcome (List K) :=
  if off + xs.length ≤ mem.length then .ok (mem.take off ++ xs ++ mem.drop (off + xs.length))
  else .ub "access outside the storage"

/-- PyGPUView.hip 145–167: the constructor in mode `COPY`: `strides[0] * shape[0]` are allocated and copied; a negative number is a
very large `size_t`. -/
def copyView (a : HostArray K) : Outcome (CopyView K) :=
  match a.strides, a.shape with
  | s :: _, d :: _ =>
      if s * (d : Int) < 0 then .error "hipErrorOutOfMemory"
      else do
        let dev ← hostRead a.mem a.off (s * (d : Int)).toNat
        return ⟨a.off, (s * (d : Int)).toNat, dev⟩
  | _, _ => .ub "element 0 of an empty vector"

/-- PyGPUView.hip 275–279: `update_H2D()`. -/
def CopyView.updateH2D (v : CopyView K) (mem : List K) : Outcome (CopyView K) := do
  let dev ← hostRead mem v.off v.alloc
  return { v with dev := dev }

/-- PyGPUView.hip 281–285: `update_D2H()`. -/
def CopyView.updateD2H (v : CopyView K) (mem : List K) : Outcome (List K) := hostWrite mem v.off (v.dev.take v.alloc)

end
end Einsums.Model
