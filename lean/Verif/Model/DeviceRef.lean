import Verif.Model.Block
/-
Model of the element access of device tensors: `HostDevReference` (src/include/einsums/DeviceTensor.hpp) and the
subscripts of `DeviceTensor` (src/include/einsums/gpu/DeviceTensor.hpp) and of `BlockDeviceTensor`
(src/include/einsums/BlockTensor.hpp).

The memory is a list of separate allocations, each on the host or on the device.  The copies between them succeed
and are complete when the call returns (the calls are followed by a synchronisation, or are synchronous themselves).
-/
namespace Einsums.Model

/-- DeviceTensor.hpp 33: `HostToDeviceMode`. -/
inductive DevMode where
  | unknown | devOnly | mapped | pinned
  deriving DecidableEq

/-- gpu/DeviceTensor.hpp 128–143: an allocation made for a tensor: host memory, or device memory. -/
structure DevBuffer (R : Type) where
  onHost : Bool
  data : List R
  deriving DecidableEq

/-- gpu/DeviceTensor.hpp 128–143: all allocations. -/
abbrev DevMem (R : Type) := List (DevBuffer R)

/-- DeviceTensor.hpp 93–115: `HostDevReference`: a pointer (allocation and position, or null) and `is_on_host`. -/
structure HDRef where
  ptr : Option (Nat × Nat)
  onHost : Bool
  deriving DecidableEq

section
variable {R : Type}

/-- DeviceTensor.hpp 130, 133: reading through a pointer: a load on the host, or a copy from device memory.  A
pointer of the other kind, or outside the allocation, is undefined behaviour. -/
def DevMem.load (M : DevMem R) (host : Bool) (b o : Nat) : Outcome R :=
  match M[b]? with
  | none => .ub "dangling pointer"
  | some B =>
      if B.onHost = host then
        match B.data[o]? with
        | some v => .ok v
        | none => .ub "access outside the allocation"
      else .ub "pointer of the other memory"

/-- DeviceTensor.hpp 146, 149: writing through a pointer: a store on the host, or a copy to device memory. -/
def DevMem.store (M : DevMem R) (host : Bool) (b o : Nat) (v : R) : Outcome (DevMem R) :=
  match M[b]? with
  | none => .ub "dangling pointer"
  | some B =>
      if B.onHost = host then
        if o < B.data.length then .ok (M.set b { B with data := B.data.set o v })
        else .ub "access outside the allocation"
      else .ub "pointer of the other memory"

/-- DeviceTensor.hpp 125–138: `get()`, also the conversion to `T` (298). -/
def HDRef.get [Zero R] (r : HDRef) (M : DevMem R) : Outcome R :=
  match r.ptr with
  | none => .ok 0
  | some (b, o) => M.load r.onHost b o

/-- DeviceTensor.hpp 147, 165, 169: storing through `_ptr`; a null pointer is undefined behaviour (143: an `assert`;
160: a null dereference). -/
def HDRef.put (r : HDRef) (M : DevMem R) (v : R) : Outcome (DevMem R) :=
  match r.ptr with
  | none => .ub "null reference"
  | some (b, o) => M.store r.onHost b o v

/-- DeviceTensor.hpp 143–153: `ref = value`. -/
def HDRef.assign (r : HDRef) (M : DevMem R) (v : R) : Outcome (DevMem R) := r.put M v

/-- DeviceTensor.hpp 158–173: `ref = other reference`. -/
def HDRef.assignRef [Zero R] (r : HDRef) (M : DevMem R) (other : HDRef) : Outcome (DevMem R) :=
  if r.onHost then do
    let v ← other.get M
    r.put M v
  else if other.onHost then do
    let v ← other.get M
    r.put M v
  else if r.ptr ≠ other.ptr then do
    let v ← other.get M
    r.put M v
  else .ok M

/-- DeviceTensor.hpp 178–287: the compound assignments. -/
inductive RefOp where
  | add | sub | mul | div
  deriving DecidableEq

/-- DeviceTensor.hpp 181, 196, 211, 225, 239, 253, 267, 281: `*_ptr OP= v` on the host. -/
def RefOp.host [Add R] [Sub R] [Mul R] [Div R] : RefOp → R → R → R
  | .add, a, v => a + v
  | .sub, a, v => a - v
  | .mul, a, v => a * v
  | .div, a, v => a / v

/-- DeviceTensor.hpp 183, 198, 213, 227, 241, 255, 269, 283: the value copied to the device, from the present value `a`
and the operand `v`; the addition is `other + get()`. -/
def RefOp.device [Add R] [Sub R] [Mul R] [Div R] : RefOp → R → R → R
  | .add, a, v => v + a
  | .sub, a, v => a - v
  | .mul, a, v => a * v
  | .div, a, v => a / v

/-- DeviceTensor.hpp 178–188, 207–217, 235–245, 263–273: `ref OP= value`.  The `assert` of a null reference comes
first. -/
def HDRef.compound [Zero R] [Add R] [Sub R] [Mul R] [Div R] (r : HDRef) (M : DevMem R) (op : RefOp) (v : R) :
    Outcome (DevMem R) :=
  if r.ptr = none then .ub "null reference"
  else if r.onHost then do
    let a ← r.get M
    r.put M (op.host a v)
  else do
    let a ← r.get M
    r.put M (op.device a v)

/-- DeviceTensor.hpp 193–202, 222–230, 250–258, 278–286: `ref OP= other reference`. -/
def HDRef.compoundRef [Zero R] [Add R] [Sub R] [Mul R] [Div R] (r : HDRef) (M : DevMem R) (op : RefOp) (other : HDRef) :
    Outcome (DevMem R) :=
  if r.onHost then do
    let v ← other.get M
    let a ← r.get M
    r.put M (op.host a v)
  else do
    let v ← other.get M
    let a ← r.get M
    r.put M (op.device a v)

end

/-- DeviceTensor.hpp 333–375: a device tensor: its allocation (`_host_data` in the modes MAPPED and PINNED, `_data` in
the mode DEV_ONLY), mode, dimensions and strides. -/
structure DevTensor where
  buf : Nat
  mode : DevMode
  dims : List Nat
  strides : List Nat
  deriving DecidableEq

/-- gpu/DeviceTensor.hpp 55–103, 234–276: construction with the given dimensions.  The elements are indeterminate:
`z k` is what the fresh memory holds at position `k`. -/
def DevTensor.create {R : Type} (z : Nat → R) (M : DevMem R) (mode : DevMode) (dims : List Nat) :
    Outcome (DevMem R × DevTensor) :=
  let size := linearSize (transformStrides dims) dims
  match mode with
  | .unknown => .error "Did not understand the provided mode!"
  | .devOnly => .ok (M ++ [⟨false, (List.range size).map z⟩], ⟨M.length, mode, dims, transformStrides dims⟩)
  | .mapped => .ok (M ++ [⟨true, (List.range size).map z⟩], ⟨M.length, mode, dims, transformStrides dims⟩)
  | .pinned => .ok (M ++ [⟨true, (List.range size).map z⟩], ⟨M.length, mode, dims, transformStrides dims⟩)

/-- gpu/DeviceTensor.hpp 822–828 (also 621–633, 797–802): the ordinal, an unsigned 64-bit number. -/
def DevTensor.ordinal (t : DevTensor) (idx : List Int) : Nat :=
  (innerProduct (normIdx t.dims idx) t.strides % 2 ^ 64).toNat

/-- gpu/DeviceTensor.hpp 818–845: `T(i, j, ...)` on a non-const tensor. -/
def DevTensor.ref (t : DevTensor) (idx : List Int) : Outcome HDRef :=
  if t.dims.length < idx.length then .ub "assert: too many indices"
  else if sizeMethod t.dims < t.ordinal idx then .error "Array index out of range!"
  else match t.mode with
    | .mapped => .ok ⟨some (t.buf, t.ordinal idx), true⟩
    | .pinned => .ok ⟨some (t.buf, t.ordinal idx), true⟩
    | .devOnly => .ok ⟨some (t.buf, t.ordinal idx), false⟩
    | .unknown => .error "Tensor was not initialized!"

/-- gpu/DeviceTensor.hpp 785–811: `T(i, j, ...)` on a const tensor: the value, without a check of the range. -/
def DevTensor.value {R : Type} (t : DevTensor) (M : DevMem R) (idx : List Int) : Outcome R :=
  match t.mode with
  | .mapped => if t.dims.length < idx.length then .ub "assert: too many indices" else M.load true t.buf (t.ordinal idx)
  | .pinned => if t.dims.length < idx.length then .ub "assert: too many indices" else M.load true t.buf (t.ordinal idx)
  | .devOnly => if t.dims.length < idx.length then .ub "assert: too many indices" else M.load false t.buf (t.ordinal idx)
  | .unknown => .error "Tensor was not initialized!"

/-- BlockTensor.hpp 26–43: a block tensor with device tensors as blocks; the bookkeeping as in `Block`. -/
structure BlockDev where
  rank : Nat
  blocks : List DevTensor
  ranges : List (Int × Int)
  dim : Nat

/-- BlockTensor.hpp 48–65: `update_dims`, for device tensors. -/
def BlockDev.ofBlocks (rank : Nat) (blocks : List DevTensor) : BlockDev :=
  let ds := blocks.map fun t => t.dims.headD 0
  ⟨rank, blocks, (blockRanges ds 0).1, (blockRanges ds 0).2⟩

/-- BlockTensor.hpp 1241–1276: `T(i, j, ...)`: `_ranges.at(-1)` throws, outside the blocks the empty reference is
returned.  The loop over the indices is that of host block tensors (`Block.locate`), which reads `_ranges` and `_dim`
only. -/
def BlockDev.ref (T : BlockDev) (idx : List Int) : Outcome HDRef :=
  match Block.locate (R := Unit) ⟨T.rank, [], T.ranges, [], T.dim, ()⟩ idx none [] with
  | .noBlock => .error "out_of_range"
  | .outside => .ok ⟨none, true⟩
  | .inside b l =>
      match T.blocks[b]? with
      | some t => t.ref l
      | none => .error "out_of_range"

end Einsums.Model
