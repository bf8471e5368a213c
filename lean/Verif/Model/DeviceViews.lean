import Verif.Model.DeviceRef

/-
Model of the views of device tensors (src/include/einsums/DeviceTensor.hpp, gpu/DeviceTensor.hpp and gpu/DeviceTensorView.hpp): how they are
made from a tensor, how their elements are read, how they are copied and flattened.

The memory is that of `DeviceRef`.  A view reads through the device pointer in every mode; in the modes MAPPED and PINNED that is the device
address of the memory on the host, so what it reads is what the allocation holds.  Calls of HIP succeed; a copy that would leave an
allocation is undefined behaviour.
-/
namespace Einsums.Model
open Spec (Sel)

/-- DeviceTensor.hpp 1183–1232: a view: the allocation its `_data` points into, the position of the first element, dimensions and strides. -/
structure DevView where
  buf : Nat
  off : Nat
  dims : List Nat
  strides : List Nat
  deriving DecidableEq, Repr

section
variable {R : Type}

/-- gpu/DeviceTensorView.hpp 226–236 with 182–196: `V(i, j, ...)`: the value.  The indices are not checked. -/
def DevView.value (v : DevView) (M : DevMem R) (idx : List Int) : Outcome R :=
  if v.dims.length < idx.length then .ub "assert: too many indices"
  else
    match M[v.buf]? with
    | none => .ub "dangling pointer"
    | some B =>
        let o : Int := v.off + innerProduct (normIdx v.dims idx) v.strides
        if o < 0 then .ub "access outside the allocation"
        else
          match B.data[o.toNat]? with
          | some x => .ok x
          | none => .ub "access outside the allocation"

/-- gpu/DeviceTensorView.hpp 260–354 (`common_initialization`) with explicit dimensions, offsets and strides: a view of the tensor or view
whose elements begin at `off` in the allocation `buf` and have the strides `pstrides`.  Simplification: a view with a negative dimension is
reported as undefined here; in the code the object exists and every use of it is out of range. -/
def devView (M : DevMem R) (buf off : Nat) (pstrides : List Nat) (dims offsets : List Int) (strides : List Nat) : Outcome DevView :=
  match M[buf]? with
  | none => .ub "dangling pointer"
  | some B =>
      let o : Int := off + innerProduct offsets pstrides
      if o < 0 ∨ o > B.data.length then .ub "pointer outside the allocation"
      else if dims.any (· < 0) then .ub "negative dimension"
      else .ok ⟨buf, o.toNat, dims.map Int.toNat, strides⟩

/-- gpu/DeviceTensor.hpp 846–891: `T(args...)` with at least one `All`.  The loop is, letter by letter, that of Tensor.hpp 556–579, which
`subLoop` models. -/
def DevTensor.sub (t : DevTensor) (M : DevMem R) (args : List Sel) : Outcome DevView :=
  if args.length ≠ t.dims.length then .ub "wrong number of arguments"
  else
    let s := subLoop (t.dims.zip t.strides) 0 args { offsets := List.replicate t.dims.length 0, dims := [], strides := [] }
    devView M t.buf 0 t.strides s.dims s.offsets s.strides

/-- gpu/DeviceTensor.hpp 893–915: `T(Range, ..., Range)`. -/
def DevTensor.ranges (t : DevTensor) (M : DevMem R) (rs : List (Int × Int)) : Outcome DevView :=
  if rs.length ≠ t.dims.length then .ub "wrong number of ranges"
  else
    let dims := (t.dims.zip rs).map fun p => (if p.2.2 < 0 then (p.1 : Int) + p.2.2 else p.2.2) - p.2.1
    devView M t.buf 0 t.strides dims (rs.map (·.1)) t.strides

/-- DeviceTensor.hpp 830–835: `to_rank_1_view` of a tensor; the strides are those of the tensor for rank 1, and computed otherwise
(gpu/DeviceTensorView.hpp 306–334). -/
def DevTensor.flat (t : DevTensor) : DevView :=
  let size := linearSize t.strides t.dims
  ⟨t.buf, 0, [size], if t.dims.length = 1 then t.strides else transformStrides [size]⟩

/-- gpu/DeviceTensorView.hpp 12–28: the copy constructor: new device memory for `_dims[0] * _strides[0]` elements, into which as many are
copied from the first element of the view on. -/
def DevView.copy (v : DevView) (M : DevMem R) : Outcome (DevMem R × DevView) :=
  match M[v.buf]? with
  | none => .ub "dangling pointer"
  | some B =>
      let size := linearSize v.strides v.dims
      if v.off + size ≤ B.data.length then
        .ok (M ++ [⟨false, (B.data.drop v.off).take size⟩], ⟨M.length, 0, v.dims, v.strides⟩)
      else .ub "copy outside the allocation"

/-- gpu/DeviceTensorView.hpp 240–257: `to_rank_1_view` of a view: for rank 1 `return *this`, a copy. -/
def DevView.flat (v : DevView) (M : DevMem R) : Outcome (DevMem R × DevView) :=
  if v.dims.length = 1 then v.copy M
  else if v.strides.getLast? ≠ some 1 then .error "Creating a Rank-1 TensorView for this Tensor(View) is not supported."
  else .ok (M, ⟨v.buf, v.off, [linearSize v.strides v.dims], [1]⟩)

end

end Einsums.Model
