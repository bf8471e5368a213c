import Verif.Model.Tensor
/-
Model of src/include/einsums/RuntimeTensor.hpp: tensors and views whose rank is known at run time only.

A `RuntimeTensor` is a `Strided` with offset 0.  A `RuntimeTensorView` adds the members `_size` and `_index_strides`.
Loops marked `EINSUMS_OMP_PARALLEL_FOR` take the order `sch` in which the iterations happen; one iteration touches one
element of the destination and is one step.
Simplifications: names are dropped; element conversions between types are applied to the source beforehand.
-/
namespace Einsums.Model
open Spec (Sel)

/-- RuntimeTensor.hpp 659–664: members of `RuntimeTensorView`. -/
structure RtView (α : Type) where
  view : Strided α
  ixStrides : List Nat
  size : Nat
  deriving Repr, DecidableEq

/-- RuntimeTensor.hpp 90–112: the constructors from dimensions.  The loop is the one of `dims_to_strides`; `z` is the
content of fresh memory. -/
def rtNew (z : Nat → α) (dims : List Nat) : Strided α :=
  { data := vecResize z (dimsToStrides dims).1 [], off := 0, dims := dims, strides := (dimsToStrides dims).2 }

/-- RuntimeTensor.hpp 114–124 (construction from a `Tensor`), 362–379 and 381–402 (assignment of a `Tensor`): the storage
gets the size `other.size()`, then `other.size()` elements are copied. -/
def rtOfTensor (t : Strided α) : Outcome (Strided α) :=
  if t.data.length < sizeMethod t.dims then .ub "memcpy past the end"
  else .ok { data := t.data.take (sizeMethod t.dims), off := 0, dims := t.dims, strides := t.strides }

/-- RuntimeTensor.hpp 139–144 (and 839–844, 853–858, 1139–1144, ...): the address of element number `hold`, from the
strides of a row-major tensor and the actual strides.  Division by zero is undefined. -/
def ordLoop (hold : Nat) : List Nat → List Nat → Outcome Nat
  | x :: xs, s :: ss =>
      if x = 0 then .ub "division by zero"
      else do
        let rest ← ordLoop (hold % x) xs ss
        return s * (hold / x) + rest
  | _, _ => .ok 0

/-- Reading `p[o]` for the data pointer `p` of a tensor or view (RuntimeTensor.hpp 145). -/
def ptrRead (t : Strided α) (o : Nat) : Outcome α :=
  match t.data[t.off + o]? with
  | some v => .ok v
  | none => .ub "access outside the storage"

/-- `p[o] = g(p[o])` for the data pointer `p` of a tensor or view (RuntimeTensor.hpp 846, 860, 1146, 1306–1312). -/
def ptrModify (t : Strided α) (o : Nat) (g : α → α) : Outcome (Strided α) :=
  if t.off + o < t.data.length then .ok { t with data := t.data.modify (t.off + o) g }
  else .ub "access outside the storage"

/-- RuntimeTensor.hpp 126–147: construction from a `TensorView`. -/
def rtOfView (z : Nat → α) (v : Strided α) (sch : List Nat) : Outcome (Strided α) :=
  let t := rtNew z v.dims
  sch.foldlM (fun (t : Strided α) (i : Nat) => do
    let o ← ordLoop i t.strides v.strides
    let x ← ptrRead v o
    ptrModify t i fun _ => x) t

/-- RuntimeTensor.hpp 161–187: `_data.at(indices_to_sentinel_negative_check(...))` with the test of the number of
indices in 174–176 and 183–185; `at` throws when out of range. -/
def rtAddr (t : Strided α) (idx : List Int) : Outcome Nat :=
  if idx.length < t.dims.length then .error "Too few indices passed to subscript tensor!"
  else do
    let o ← indicesToSentinelNegativeCheck t.strides t.dims idx
    if o.toNat < t.data.length then .ok o.toNat else .error "out_of_range"

/-- RuntimeTensor.hpp 171–187: `T(index)` for a container of indices, as an rvalue. -/
def rtGet (t : Strided α) (idx : List Int) : Outcome α := do
  let a ← rtAddr t idx
  match t.data[a]? with
  | some v => .ok v
  | none => .ub "access outside the storage"

/-- RuntimeTensor.hpp 171–178: `T(index) = v`. -/
def rtSet (t : Strided α) (idx : List Int) (v : α) : Outcome (Strided α) := do
  let a ← rtAddr t idx
  return { t with data := t.data.set a v }

/-- RuntimeTensor.hpp 211–221: `T(i, j, ...)` with integers on a tensor that is not const. -/
def rtGetInts (t : Strided α) (idx : List Int) : Outcome α :=
  if idx.length < t.dims.length then .error "can not handle fewer integral indices than rank"
  else if idx.length > t.dims.length then .error "Too many indices passed to subscript operator!"
  else rtGet t idx

/-- RuntimeTensor.hpp 880–890: `V(index)` for a container of indices: no test of their number, no test of the
address. -/
def rtvGet (v : RtView α) (idx : List Int) : Outcome α := do
  let o ← indicesToSentinelNegativeCheck v.view.strides v.view.dims idx
  ptrRead v.view o.toNat

/-- RuntimeTensor.hpp 880–884: `V(index) = x`. -/
def rtvSet (v : RtView α) (idx : List Int) (x : α) : Outcome (RtView α) := do
  let o ← indicesToSentinelNegativeCheck v.view.strides v.view.dims idx
  let t ← ptrModify v.view o.toNat fun _ => x
  return { v with view := t }

/-- RuntimeTensor.hpp 928–938: `V(i, j, ...)` with integers on a view that is not const. -/
def rtvGetInts (v : RtView α) (idx : List Int) : Outcome α :=
  if idx.length < v.view.dims.length then .error "can not handle fewer integral indices than rank"
  else if idx.length > v.view.dims.length then .error "Too many indices passed to subscript operator!"
  else rtvGet v idx

/-- RuntimeTensor.hpp 1022–1034: `V(i)` with one `ptrdiff_t`: neither the rank nor the range of the index is looked
at. -/
def rtvGet1 (v : RtView α) (i : Int) : Outcome α :=
  match v.view.dims, v.view.strides with
  | d :: _, s :: _ =>
      let o : Int := v.view.off + (if i < 0 then i + d else i) * s
      if o < 0 then .ub "access outside the storage"
      else match v.view.data[o.toNat]? with
        | some x => .ok x
        | none => .ub "access outside the storage"
  | _, _ => .ub "_dims[0] of an empty vector"

/-- Conversion of an `int64_t` to `size_t` (RuntimeTensor.hpp 295, 336). -/
def toSize (i : Int) : Nat := (i % 2 ^ 64).toNat

/-- Conversion of a `size_t` to `ptrdiff_t` (IndexUtils.hpp 319). -/
def toPtrdiff (n : Nat) : Int := (n : Int).bmod (2 ^ 64)

/-- RuntimeTensor.hpp 295–314 (the same in 336–355, 1056–1075, 1097–1116): one slice of an axis of dimension `d` and
stride `s`: the kept axis, if any, and the offset.  `start` and `end` are unsigned: `start < 0` and `end < 0` never hold,
`end >= 0` always holds, and `start == -1` compares with 2^64 − 1. -/
def sliceStep (d s : Nat) (r : Int × Int) : Outcome (Option (Nat × Nat) × Nat) :=
  let start := toSize r.1
  let stop := toSize r.2
  if start = 2 ^ 64 - 1 then .ok (none, stop)
  else if start ≥ d ∨ stop > d ∨ start ≥ stop then .error "Index out of range! Either the start or end is out of range!"
  else .ok (some (stop - start, s), start)

/-- RuntimeTensor.hpp 289–316: the loop over the axes; axes without a slice are kept.  Kept dimensions and strides, and
one offset per axis. -/
def sliceLoop : List Nat → List Nat → List (Int × Int) → Outcome (List (Nat × Nat) × List Nat)
  | d :: ds, s :: ss, [] => do
      let r ← sliceLoop ds ss []
      return ((d, s) :: r.1, 0 :: r.2)
  | d :: ds, s :: ss, x :: xs => do
      let k ← sliceStep d s x
      let r ← sliceLoop ds ss xs
      return (k.1.toList ++ r.1, k.2 :: r.2)
  | _, _, _ => .ok ([], [])

/-- RuntimeTensor.hpp 739–781: the constructors from a tensor or view, dimensions, strides and offsets.  A tensor checks
the address (`at`, 161–169), a view does not (870–878): there forming a pointer outside the storage is undefined. -/
def rtvMake (isTensor : Bool) (t : Strided α) (kept : List (Nat × Nat)) (offs : List Nat) : Outcome (RtView α) := do
  let dims := kept.map (·.1)
  let o ← indicesToSentinelNegativeCheck t.strides t.dims (offs.map toPtrdiff)
  if t.off + o.toNat < t.data.length then
    .ok { view := { data := t.data, off := t.off + o.toNat, dims := dims, strides := kept.map (·.2) },
          ixStrides := (dimsToStrides dims).2, size := sizeMethod dims }
  else if isTensor then .error "out_of_range" else .ub "pointer outside the storage"

/-- RuntimeTensor.hpp 280–319, 321–360 (tensors), 1041–1080, 1082–1121 (views): `T(slices)`. -/
def rtSlice (isTensor : Bool) (t : Strided α) (slices : List (Int × Int)) : Outcome (RtView α) :=
  if slices.length > t.dims.length then .error "Too many indices passed to tensor!"
  else do
    let r ← sliceLoop t.dims t.strides slices
    rtvMake isTensor t r.1 r.2

/-- RuntimeTensor.hpp 255–270 (the same in 972–987 and 1002–1017): the slice made of one argument; a negative integer is
increased by the dimension.  Simplification: the integer's type is wide enough for the sum. -/
def argSlice (d : Nat) : Sel → Int × Int
  | .all => (0, d)
  | .range a b => (a, b)
  | .at k => (-1, if k < 0 then k + d else k)

/-- RuntimeTensor.hpp 245–273 (tensors), 962–1020 (views): `T(args...)` with at least one argument that is not an
integer. -/
def rtArgs (isTensor : Bool) (t : Strided α) (args : List Sel) : Outcome (RtView α) :=
  if args.length > t.dims.length then .error "Too many indices passed to subscript operator!"
  else rtSlice isTensor t ((t.dims.zip args).map fun p => argSlice p.1 p.2)

/-- RuntimeTensor.hpp 232–238 (tensors), 949–955 (views): the view made by fewer integers than the rank on a const
tensor. -/
def rtInts (isTensor : Bool) (t : Strided α) (idx : List Int) : Outcome (RtView α) :=
  rtSlice isTensor t (idx.map fun i => (-1, i))

/-- RuntimeTensor.hpp 671–681: a view of a whole runtime tensor; 813–832: of a whole `Tensor`, for which `size()` is
computed as in Tensor.hpp 921. -/
def rtvWhole (t : Strided α) (size : Nat) : RtView α :=
  { view := t, ixStrides := (dimsToStrides t.dims).2, size := size }

/-- RuntimeTensor.hpp 683–737: a view with other dimensions of the storage of a tensor or view.  Neither the number of
elements nor the strides of `other` are looked at. -/
def rtvReshape (t : Strided α) (dims : List Nat) : RtView α :=
  { view := { data := t.data, off := t.off, dims := dims, strides := (dimsToStrides dims).2 },
    ixStrides := (dimsToStrides dims).2, size := (dimsToStrides dims).1 }

/-- RuntimeTensor.hpp 629–634 and 1399–1404: `to_rank_1_view`. -/
def rtRank1 (t : Strided α) : RtView α := rtvReshape t [linearSize t.strides t.dims]

/-- RuntimeTensor.hpp 836–862 (`zero`, `set_all`), 1295–1315 (`V OP= b` for a number): every element of the view is
updated by `g`. -/
def rtvMap (g : α → α) (v : RtView α) (sch : List Nat) : Outcome (RtView α) := do
  let t ← sch.foldlM (fun (t : Strided α) (i : Nat) => do
    let o ← ordLoop i v.ixStrides v.view.strides
    ptrModify t o g) v.view
  return { v with view := t }

/-- RuntimeTensor.hpp 1123–1179, 1207–1232 and 1261–1287 (assignment to a view), 1317–1372 (`V OP= B`): the tests of rank and dimensions, then
element by element; the source is read at the address computed from its strides. -/
def rtvZip (op : α → α → α) (v : RtView α) (src : Strided α) (sch : List Nat) : Outcome (RtView α) :=
  if v.view.dims.length ≠ src.dims.length then .error "different rank"
  else if v.view.dims ≠ src.dims then .error "different dimensions"
  else do
    let t ← sch.foldlM (fun (t : Strided α) (i : Nat) => do
      let o ← ordLoop i v.ixStrides v.view.strides
      let o' ← ordLoop i v.ixStrides src.strides
      let x ← ptrRead src o'
      ptrModify t o fun y => op y x) v.view
    return { v with view := t }

/-- RuntimeTensor.hpp 1181–1205, 1234–1259: assignment of a `RuntimeTensor` to a view: the source is read at the
position of the counter. -/
def rtvAssignTensor (v : RtView α) (src : Strided α) (sch : List Nat) : Outcome (RtView α) :=
  if v.view.dims.length ≠ src.dims.length then .error "different rank"
  else if v.view.dims ≠ src.dims then .error "different dimensions"
  else do
    let t ← sch.foldlM (fun (t : Strided α) (i : Nat) => do
      let o ← ordLoop i v.ixStrides v.view.strides
      let x ← ptrRead src i
      ptrModify t o fun _ => x) v.view
    return { v with view := t }

/-- RuntimeTensor.hpp 431–451 and 483–504: assignment of a runtime tensor: dimensions and strides are copied, the
storage gets the size of the source's. -/
def rtAssign (z : Nat → α) (dst src : Strided α) (sch : List Nat) : Outcome (Strided α) :=
  let t : Strided α := { data := vecResize z src.data.length dst.data, off := 0, dims := src.dims, strides := src.strides }
  sch.foldlM (fun (t : Strided α) (i : Nat) => do
    let x ← ptrRead src i
    ptrModify t i fun _ => x) t

/-- RuntimeTensor.hpp 453–481: assignment of a runtime view with the same element type. -/
def rtAssignView (z : Nat → α) (dst : Strided α) (src : RtView α) (sch : List Nat) : Outcome (Strided α) :=
  let t : Strided α :=
    if dst.dims ≠ src.view.dims then
      { data := vecResize z src.size dst.data, off := 0, dims := src.view.dims, strides := (dimsToStrides src.view.dims).2 }
    else dst
  sch.foldlM (fun (t : Strided α) (i : Nat) => do
    let x ← rtvGet src (toIdx (sentinelToIndices i t.strides))
    ptrModify t i fun _ => x) t

/-- RuntimeTensor.hpp 404–429 (a `TensorView`) and 506–531 (a runtime view with another element type): the strides are
copied from the view, and the position of every element of the new storage is decomposed with them.  `get` is the
subscript operator of the source: for a `TensorView` the one of Tensor.hpp 1190–1213, for a runtime view `rtvGet`. -/
def rtAssignStrided (z : Nat → α) (dst : Strided α) (dims strides : List Nat) (size : Nat) (get : List Int → Outcome α)
    (sch : List Nat) : Outcome (Strided α) :=
  let t : Strided α := { data := vecResize z size dst.data, off := 0, dims := dims, strides := strides }
  sch.foldlM (fun (t : Strided α) (i : Nat) => do
    let x ← get (toIdx (sentinelToIndices i t.strides))
    ptrModify t i fun _ => x) t

/-- RuntimeTensor.hpp 404–429: assignment of a `TensorView`. -/
def rtAssignTensorView (z : Nat → α) (dst src : Strided α) (sch : List Nat) : Outcome (Strided α) :=
  rtAssignStrided z dst src.dims src.strides (sizeMethod src.dims) src.read sch

/-- RuntimeTensor.hpp 506–531: assignment of a runtime view with another element type. -/
def rtAssignViewConv (z : Nat → α) (dst : Strided α) (src : RtView α) (sch : List Nat) : Outcome (Strided α) :=
  rtAssignStrided z dst src.view.dims src.view.strides src.size (rtvGet src) sch

/-- RuntimeTensor.hpp 539–556: `T OP= b` for a number; the ranges of the threads are those of Tensor.hpp 852–863. -/
def rtCompoundScalar (op : α → α → α) (t : Strided α) (b : α) (sch : List Nat) : Strided α :=
  t.compoundScalar op b sch

/-- RuntimeTensor.hpp 558–576: `T OP= B` for a runtime tensor: sizes are compared, elements taken in the order of
storage. -/
def rtCompoundTensor (op : α → α → α) (t b : Strided α) (sch : List Nat) : Outcome (Strided α) :=
  if t.data.length ≠ b.data.length then .error "tensors differ in size"
  else sch.foldlM (fun (t : Strided α) (i : Nat) => do
    let x ← ptrRead b i
    ptrModify t i fun y => op y x) t

/-- RuntimeTensor.hpp 578–599: `T OP= V` for a runtime view. -/
def rtCompoundView (op : α → α → α) (t : Strided α) (v : RtView α) (sch : List Nat) : Outcome (Strided α) :=
  if v.view.dims.length ≠ t.dims.length then .error "different ranks"
  else if v.view.dims ≠ t.dims then .error "different dimensions"
  else sch.foldlM (fun (t : Strided α) (i : Nat) => do
    let idx := toIdx (sentinelToIndices i t.strides)
    let x ← rtvGet v idx
    let y ← rtGet t idx
    rtSet t idx (op y x)) t

end Einsums.Model
