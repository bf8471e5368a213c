import Verif.Model.RuntimeTensor
/-
Model of src/include/einsums/python/PyTensor.hpp: what Python sees of runtime tensors and views.

`__getitem__` and `__setitem__` of a tensor first make the view of the whole tensor (lines 1513–1537) and then do what those
of a view do, so that the functions below are about views.
Loops marked `EINSUMS_OMP_PARALLEL_FOR` take the order `sch` in which the iterations happen; one iteration touches one
element of the destination and is one step.
Simplifications: no Python class overrides the methods (the branches `if (override)`); a subscript in a tuple is a Python
`int` or a `slice`; the memory of a buffer and of the destination do not overlap.
-/
namespace Einsums.Model

/-- An entry of a Python subscript (PyTensor.hpp 963–976). -/
inductive PyArg
  | int (k : Int)
  | slice (start stop step : Option Int)
  deriving Repr, DecidableEq

/-- What `__getitem__` returns (PyTensor.hpp 1030–1046): a number or a view. -/
inductive PyItem (α : Type)
  | scalar (x : α)
  | view (v : RtView α)
  deriving Repr, DecidableEq

/-- PyTensor.hpp 944, 967 `pybind11::cast<size_t>`: throws for integers that are not values of `size_t`. -/
def castSize (k : Int) : Outcome Nat :=
  if 0 ≤ k ∧ k < 2 ^ 64 then .ok k.toNat else .error "Unable to cast Python instance to C++ type"

/-- One bound of a slice with a positive step, by Python's `PySlice_AdjustIndices`, which `compute` calls
(PyTensor.hpp 970, 1129). -/
def adjustBound (d : Nat) (dflt : Int) : Option Int → Int
  | none => dflt
  | some k => if k < 0 then (if k + d < 0 then 0 else k + d) else if k ≥ d then d else k

/-- PyTensor.hpp 969–974 and 1127–1135: the range made of a slice on an axis of dimension `d`.  A missing step is 1; for
the step 0 `compute` fails and leaves the step at 0. -/
def pySliceRange (d : Nat) (start stop step : Option Int) : Outcome (Int × Int) :=
  if step.getD 1 ≠ 1 then .error "Can not handle slices with step sizes other than 1!"
  else .ok (adjustBound d 0 start, adjustBound d d stop)

/-- PyTensor.hpp 961–976: the ranges made of the arguments.  The callers see to it that there are no more arguments than
axes. -/
def pyRanges : List Nat → List PyArg → Outcome (List (Int × Int))
  | _ :: ds, .int k :: as => do
      let n ← castSize k
      let r ← pyRanges ds as
      return (-1, (n : Int)) :: r
  | d :: ds, .slice a b s :: as => do
      let x ← pySliceRange d a b s
      let r ← pyRanges ds as
      return x :: r
  | _, _ => .ok []

/-- PyTensor.hpp 960–978: `subscript_to_view`. -/
def pySubView (v : RtView α) (args : List PyArg) : Outcome (RtView α) := do
  let xs ← pyRanges v.view.dims args
  rtSlice false v.view xs

/-- PyTensor.hpp 938–945: the indices of `subscript_to_val`; a slice has no value as `size_t`.  The later conversion to
`ptrdiff_t` is IndexUtils.hpp 319. -/
def pyVals : List PyArg → Outcome (List Int)
  | [] => .ok []
  | .int k :: as => do
      let n ← castSize k
      let r ← pyVals as
      return toPtrdiff n :: r
  | .slice _ _ _ :: _ => .error "Unable to cast Python instance to C++ type"

/-- `pybind11::isinstance<pybind11::slice>(arg)` (PyTensor.hpp 1040). -/
def PyArg.isSlice : PyArg → Bool
  | .int _ => false
  | .slice _ _ _ => true

/-- PyTensor.hpp 1030–1046: `v[args]` for a tuple. -/
def pyGetTuple (v : RtView α) (args : List PyArg) : Outcome (PyItem α) :=
  if args.length < v.view.dims.length then do
    let w ← pySubView v args
    return .view w
  else if args.length > v.view.dims.length then .error "Too many indices passed to tensor!"
  else if args.any PyArg.isSlice then do
    let w ← pySubView v args
    return .view w
  else do
    let idx ← pyVals args
    let x ← rtvGet v idx
    return .scalar x

/-- PyTensor.hpp 1126–1138: `v[a:b:s]` for a single slice. -/
def pyGetSlice (v : RtView α) (start stop step : Option Int) : Outcome (PyItem α) :=
  match v.view.dims with
  | [] => .ub "_dims[0] of an empty vector"
  | d :: _ => do
      let x ← pySliceRange d start stop step
      let w ← rtSlice false v.view [x]
      return .view w

/-- PyTensor.hpp 1204–1210 with 1523–1527 and 1607: `v[k]` for a single integer; pybind11 rejects integers that are not values of
`int`. -/
def pyGetInt (v : RtView α) (k : Int) : Outcome (PyItem α) :=
  if k < -2 ^ 31 ∨ 2 ^ 31 ≤ k then .error "incompatible function arguments"
  else if v.view.dims.length = 1 then do
    let x ← rtvGet1 v k
    return .scalar x
  else do
    let w ← rtSlice false v.view [(-1, k)]
    return .view w

/-- PyTensor.hpp 1091–1112: `v[args] = x` for a number; the view itself with the storage after the assignment.  The
subscript evaluated for the value returned in 1104 and 1111 succeeds whenever the assignment did. -/
def pySetTuple (v : RtView α) (args : List PyArg) (x : α) (sch : List Nat) : Outcome (RtView α) :=
  if args.length < v.view.dims.length ∨ (args.length = v.view.dims.length ∧ args.any PyArg.isSlice) then do
    let w ← pySubView v args
    let w' ← rtvMap (fun _ => x) w sch
    return { v with view := { v.view with data := w'.view.data } }
  else if args.length > v.view.dims.length then .error "Too many indices passed to tensor!"
  else do
    let idx ← pyVals args
    rtvSet v idx x

/-! ### Iterators -/

/-- PyTensor.hpp 41–45: members of `PyTensorIterator`. -/
structure PyIter (α : Type) where
  cur : Nat
  elements : Nat
  ixStrides : List Nat
  tensor : RtView α
  stop : Bool
  reverse : Bool
  deriving Repr, DecidableEq

/-- PyTensor.hpp 59–85: the constructors from a tensor or view; `other.size() - 1` is unsigned. -/
def pyIter (v : RtView α) (reverse : Bool) : PyIter α :=
  { cur := if reverse then toSize ((v.size : Int) - 1) else 0, elements := v.size, ixStrides := (dimsToStrides v.view.dims).2,
    tensor := v, stop := false, reverse := reverse }

/-- PyTensor.hpp 48–51: the copy constructor. -/
def PyIter.copy (it : PyIter α) (reverse : Bool) : PyIter α :=
  { it with stop := decide (it.cur ≥ it.elements), reverse := reverse != it.reverse }

/-- PyTensor.hpp 90–114: `next`; `none` is `StopIteration`.  The mutex makes one call one step. -/
def PyIter.next (it : PyIter α) : Outcome (Option α × PyIter α) :=
  if it.stop then .ok (none, it)
  else do
    let x ← rtvGet it.tensor ((sentinelToIndices it.cur it.ixStrides).map toPtrdiff)
    let cur := if it.reverse then toSize ((it.cur : Int) - 1) else toSize ((it.cur : Int) + 1)
    return (some x, { it with cur := cur, stop := it.stop || decide (cur ≥ it.elements) })

/-- PyTensor.hpp 1497: `__next__` called `n` times: what the calls return, and the iterator. -/
def PyIter.nexts : Nat → PyIter α → Outcome (List (Option α) × PyIter α)
  | 0, it => .ok ([], it)
  | n + 1, it => do
      let r ← it.next
      let s ← PyIter.nexts n r.2
      return (r.1 :: s.1, s.2)

/-- PyTensor.hpp 1499: `iter(it)`: a copy. -/
def PyIter.iter (it : PyIter α) : PyIter α := it.copy false

/-- PyTensor.hpp 1500: `reversed(it)`. -/
def PyIter.reversed (it : PyIter α) : PyIter α := it.copy true

/-! ### Buffers -/

/-- `pybind11::buffer_info` (PyTensor.hpp 136): `items o` is the item `o` bytes after `ptr`, `none` outside the exporter's
memory or between two items.  Simplification: byte offsets are integers; the sums in `size_t` wrap around to the same addresses. -/
structure PyBuffer (β : Type) where
  items : Int → Option β
  shape : List Nat
  strides : List Int
  itemsize : Nat

/-- PyTensor.hpp 166, 848 `buffer_data[k]`. -/
def PyBuffer.read (b : PyBuffer β) (k : Int) : Outcome β :=
  match b.items (b.itemsize * k) with
  | some x => .ok x
  | none => .ub "read outside the buffer"

/-- PyTensor.hpp 161–165 (the same in 643–647, 673–677, 838–842, 1264–1269, 1383–1388, 1436–1441): the position in the buffer
of element number `hold`.  The C++ division rounds towards zero. -/
def bufSent (itemsize : Nat) (hold : Nat) : List Nat → List Int → Outcome Int
  | x :: xs, s :: ss =>
      if x = 0 ∨ itemsize = 0 then .ub "division by zero"
      else do
        let rest ← bufSent itemsize (hold % x) xs ss
        return s.tdiv itemsize * (hold / x : Nat) + rest
  | _, _ => .ok 0

/-- PyTensor.hpp 142–152 (the same in 622–632, 822–831): `is_view`, for the row-major strides `st`. -/
def bufIsView (st : List Nat) (b : PyBuffer β) : Bool :=
  decide (b.strides.map (fun s => s.tdiv b.itemsize) ≠ st.map fun n : Nat => (n : Int))

/-- PyTensor.hpp 158–169 (the same in 640–651, 670–701, 835–850): where element number `i` is read: for a buffer without gaps
in row-major order, at `i` (`memcpy` and the loops in 689–700, 846–849). -/
def bufPos (st : List Nat) (b : PyBuffer β) (i : Nat) : Outcome Int :=
  if bufIsView st b then bufSent b.itemsize i st b.strides else .ok (i : Int)

/-- PyTensor.hpp 156–170 (the same in 638–652, 669–701, 833–850): the loop over the elements of the tensor.  `conv` is the
conversion of an item. -/
def bufLoop (op : α → α → α) (conv : β → α) (t : Strided α) (b : PyBuffer β) (sch : List Nat) : Outcome (Strided α) :=
  sch.foldlM (fun (t' : Strided α) (i : Nat) => do
    let k ← bufPos t.strides b i
    let x ← b.read k
    ptrModify t' i fun y => op y (conv x)) t

/-- PyTensor.hpp 135–174: the constructor from a buffer; `conv` is the conversion that the `switch` in 708–778 chooses by
the buffer's format, `none` for the formats it does not know. -/
def rtOfBuffer (z : Nat → α) (conv : Option (β → α)) (b : PyBuffer β) (sch : List Nat) : Outcome (Strided α) :=
  match conv with
  | none => .error "Can not convert format descriptor"
  | some c => bufLoop (fun _ x => x) c (rtNew z b.shape) b sch

/-- PyTensor.hpp 613–657: `t.assign(buffer)`: the tensor afterwards, and the exception thrown if any: shape and storage are
changed before the format is looked at. -/
def rtAssignBuffer (z : Nat → α) (conv : Option (β → α)) (t : Strided α) (b : PyBuffer β) (sch : List Nat) :
    Outcome (Strided α × Option String) :=
  let st := dimsToStrides b.shape
  let t' : Strided α := { data := vecResize z st.1 t.data, off := 0, dims := b.shape, strides := st.2 }
  match conv with
  | none => .ok (t', some "Can not convert format descriptor")
  | some c => do
      let t'' ← bufLoop (fun _ x => x) c t' b sch
      return (t'', none)

/-- PyTensor.hpp 815–855: `t OP= buffer`. -/
def rtOpBuffer (op : α → α → α) (conv : Option (β → α)) (t : Strided α) (b : PyBuffer β) (sch : List Nat) :
    Outcome (Strided α) :=
  if t.dims.length ≠ b.shape.length then .error "different rank"
  else if t.dims ≠ b.shape then .error "different dimensions"
  else match conv with
    | none => .error "Can not convert format descriptor"
    | some c => bufLoop op c t b sch

/-- PyTensor.hpp 1366–1396 (`v.assign(buffer)`), 1421–1449 (`v OP= buffer`), with 1260–1277: the tests of rank and
dimensions, then element by element. -/
def rtvOpBuffer (op : α → α → α) (conv : Option (β → α)) (v : RtView α) (b : PyBuffer β) (sch : List Nat) :
    Outcome (RtView α) :=
  if v.view.dims.length ≠ b.shape.length then .error "different rank"
  else if v.view.dims ≠ b.shape then .error "different dimensions"
  else match conv with
    | none => .error "Can not convert format descriptor"
    | some c => do
      let t ← sch.foldlM (fun (t : Strided α) (i : Nat) => do
        let o ← ordLoop i v.ixStrides v.view.strides
        let k ← bufSent b.itemsize i v.ixStrides b.strides
        let x ← b.read k
        ptrModify t o fun y => op y (c x)) v.view
      return { v with view := t }

/-- PyTensor.hpp 1060–1077: `v[args] = buffer`. -/
def pySetBuffer (conv : Option (β → α)) (v : RtView α) (args : List PyArg) (b : PyBuffer β) (sch : List Nat) :
    Outcome (RtView α) :=
  if args.length < v.view.dims.length ∨ (args.length = v.view.dims.length ∧ args.any PyArg.isSlice) then do
    let w ← pySubView v args
    let w' ← rtvOpBuffer (fun _ x => x) conv w b sch
    return { v with view := { v.view with data := w'.view.data } }
  else if args.length > v.view.dims.length then .error "Too many indices passed to tensor!"
  else .error "Can not assign buffer object to a single position!"

/-- PyTensor.hpp 1585–1593 and 1646–1654: the buffer that a tensor or view exports; `sz` is `sizeof(T)`. -/
def rtExport (sz : Nat) (t : Strided α) : PyBuffer α :=
  { items := fun o =>
      if (sz : Int) ∣ o ∧ 0 ≤ (t.off : Int) + o / sz then t.data[((t.off : Int) + o / sz).toNat]? else none,
    shape := t.dims, strides := t.strides.map fun s => ((sz * s : Nat) : Int), itemsize := sz }

/-- PyTensor.hpp 907–930: a view of the memory of a buffer, for a buffer that is the memory `data` of an exporter from
element `off` on, of the same element type (another one throws, 912–914), with strides `strides` in bytes.  `shape[0]` of a
buffer without axes is undefined (921).  Negative strides become huge unsigned ones, and addresses computed with them wrap
around: here they are left out as undefined. -/
def rtvOfBuffer (sameType : Bool) (data : List α) (off : Nat) (shape : List Nat) (strides : List Int) (itemsize : Nat) :
    Outcome (RtView α) :=
  if sameType = false then .error "Can not create RuntimeTensorView from buffer whose type does not match!"
  else if shape = [] then .ub "shape[0] of an empty vector"
  else if itemsize = 0 then .ub "division by zero"
  else if ∃ s ∈ strides, s < 0 then .ub "negative stride"
  else .ok { view := { data := data, off := off, dims := shape, strides := strides.map fun s => (s.tdiv itemsize).toNat },
             ixStrides := (dimsToStrides shape).2, size := (dimsToStrides shape).1 }

end Einsums.Model
