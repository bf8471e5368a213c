import Verif.Model.IndexUtils
import Verif.Spec.Memory
/-
Model of `Tensor` and `TensorView` in src/include/einsums/Tensor.hpp: storage, element access,
constructors, reshape, resize, assignment, compound assignment, sub-views.

One structure serves for both classes: the storage list, the position of the first element in it,
dimensions and strides.  A `Tensor` owns its storage and has offset 0; a `TensorView` shares the
storage of its parent, so writing through a view is modelled by returning the view with the new
storage, which is the parent's new storage as well.
Simplifications: `int64_t`/`size_t` are unbounded; names and mutexes are dropped.
-/
namespace Einsums.Model
open Spec (Sel ReqDim)

/-- Tensor.hpp 150–173 (members `_data`, `_dims`, `_strides` of `Tensor`) and 1432–1440 (members of
`TensorView`; its `_data` pointer is the parent's storage plus `off`). -/
structure Strided (α : Type u) where
  data : List α
  off : Nat
  dims : List Nat
  strides : List Nat
  deriving Repr, DecidableEq

/-- Tensor.hpp 196–207: functor `Stride` applied by `std::transform(rbegin, rend, rbegin)`: walks the
dimensions from the last to the first, emitting the running product. -/
def transformStrides (dims : List Nat) : List Nat :=
  ((dims.reverse.foldl (fun (acc : Nat × List Nat) d => (acc.1 * d, acc.1 :: acc.2)) (1, [])).2)

/-- Tensor.hpp 206: `_strides.size() == 0 ? 0 : _strides[0] * _dims[0]`. -/
def linearSize (strides dims : List Nat) : Nat :=
  match strides, dims with
  | s :: _, d :: _ => s * d
  | _, _ => 0

/-- `std::vector::resize(n)`: truncate or append.  Tensors use `AlignedAllocator` (Tensor.hpp 142), whose `construct`
without arguments does nothing (STL.hpp 449–454), so the element appended at position `k` has an indeterminate value:
`z k`, whatever the fresh memory holds there. -/
def vecResize (z : Nat → α) (n : Nat) (l : List α) : List α :=
  l.take n ++ (List.range' l.length (n - l.length)).map z

/-- Tensor.hpp 190–210 and 295–312: constructor from dimensions.  `z` is the content of the
fresh memory (`vecResize`). -/
def Strided.mk' (z : Nat → α) (dims : List Nat) : Strided α :=
  let strides := transformStrides dims
  { data := vecResize z (linearSize strides dims) [], off := 0, dims := dims, strides := strides }

/-- Tensor.hpp 494–500 (and 1192–1198 for views): `if (_index < 0) index_list[i] = _dims[i] + _index`.-/
def normIdx : List Nat → List Int → List Int
  | d :: ds, i :: is => (if i < 0 then (d : Int) + i else i) :: normIdx ds is
  | _, is => is

/-- Tensor.hpp 472, 504, 535, 672, 1203–1282: `std::inner_product(index.begin(), index.end(), _strides.begin(),
0)`. -/
def innerProduct : List Int → List Nat → Int
  | i :: is, s :: ss => i * s + innerProduct is ss
  | _, _ => 0

/-- Tensor.hpp 487–537 and 1190–1213: the element addressed by an explicit multi-index.  A wrong
number of indices violates an `assert`; an ordinal outside the storage is undefined behaviour. -/
def Strided.addr (t : Strided α) (idx : List Int) : Outcome Nat :=
  if idx.length ≠ t.dims.length then .ub "assert: wrong number of indices"
  else
    let o : Int := t.off + innerProduct (normIdx t.dims idx) t.strides
    if 0 ≤ o ∧ o < t.data.length then .ok o.toNat else .ub "access outside the storage"

/-- `t(idx...)` as an rvalue. Tensor.hpp 487–511. -/
def Strided.read (t : Strided α) (idx : List Int) : Outcome α := do
  let a ← t.addr idx
  match t.data[a]? with
  | some v => .ok v
  | none => .ub "access outside the storage"

/-- `t(idx...) = v`. Tensor.hpp 513–537. -/
def Strided.write (t : Strided α) (idx : List Int) (v : α) : Outcome (Strided α) := do
  let a ← t.addr idx
  return { t with data := t.data.set a v }

/-- Tensor.hpp 321–346: Indices produced by the library's own loops are non-negative. -/
def toIdx (idx : List Nat) : List Int := idx.map Int.ofNat

/-- `ranges::views::cartesian_product` of `ints(0, dim)`: row-major enumeration (used by
`get_dim_ranges`, Tensor.hpp 318 etc.).  Simplification: for an empty tuple range-v3 returns an
empty range; rank-0 tensors have their own class and do not use this. -/
def cartesian : List Nat → List (List Nat)
  | [] => [[]]
  | d :: ds => (List.range d).flatMap fun i => (cartesian ds).map fun r => i :: r

/-- Tensor.hpp 321–346: Loop `for (t : cartesian_product(dims)) target(t) = source(t)`. -/
def copyLoop (src : Strided α) : List (List Nat) → Strided α → Outcome (Strided α)
  | [], dst => .ok dst
  | i :: is, dst => do
      let v ← src.read (toIdx i)
      let dst ← dst.write (toIdx i) v
      copyLoop src is dst

/-- Tensor.hpp 321–346: `Tensor(const TensorView &)`. -/
def Strided.ofView (z : Nat → α) (v : Strided α) : Outcome (Strided α) :=
  let t := Strided.mk' z v.dims
  copyLoop v (cartesian t.dims) t

/-- Tensor.hpp 921 and 1324: `size()`; `std::accumulate` with the `int` initial value 1 converts
every intermediate product to a 32-bit `int`; the result is converted to `size_t` (64 bit). -/
def sizeMethod (dims : List Nat) : Nat :=
  let acc : BitVec 32 := dims.foldl (fun a d => (a.signExtend 64 * BitVec.ofNat 64 d).truncate 32) 1
  (acc.signExtend 64).toNat

/-- Product of the requested dimensions other than −1 (Tensor.hpp 262–267). -/
def reqProduct : List ReqDim → Nat
  | [] => 1
  | .auto :: rs => reqProduct rs
  | .n d :: rs => d * reqProduct rs

/-- Replace −1 by a value (Tensor.hpp 271). -/
def fillAuto (v : Nat) : List ReqDim → List Nat
  | [] => []
  | .auto :: rs => v :: fillAuto v rs
  | .n d :: rs => d :: fillAuto v rs

/-- Tensor.hpp 237–288: reshaping constructor `Tensor(Tensor &&existing, name, dims...)`.
Simplification: `existing.size()` is taken as the exact number of elements (see `sizeMethod`
for what the code computes beyond 2^31 elements). Integer division by zero is undefined behaviour. -/
def reshape (existing : Strided α) (req : List ReqDim) : Outcome (Strided α) :=
  let nfound := (req.filter (· == ReqDim.auto)).length
  if nfound > 1 then .error "More than one -1 was provided." else
  let dimsO : Outcome (List Nat) :=
    if nfound = 1 then
      let size := reqProduct req
      let total := existing.dims.foldl (· * ·) 1
      if size > total then .error "Size of new tensor is larger than the parent tensor."
      else if size = 0 then .ub "division by zero"
      else .ok (fillAuto (total / size) req)
    else .ok (fillAuto 0 req)
  dimsO >>= fun dims =>
    let strides := transformStrides dims
    if existing.data.length ≠ linearSize strides dims then
      .error "Provided dims to not match size of parent tensor"
    else .ok { data := existing.data, off := 0, dims := dims, strides := strides }

/-- Tensor.hpp 353–387: `resize`. -/
def Strided.resize (z : Nat → α) (t : Strided α) (dims : List Nat) : Strided α :=
  if t.dims = dims then t
  else
    let strides := transformStrides dims
    { data := vecResize z (linearSize strides dims) t.data, off := 0, dims := dims, strides := strides }

/-- Tensor.hpp 392–419 `zero`, `set_all` and `operator=(T)` 846–850. -/
def Strided.setAll (v : α) (t : Strided α) : Strided α :=
  { t with data := List.replicate t.data.length v }

/-- Tensor.hpp 700–730: `operator=(const Tensor &)`; `std::copy` of the whole source storage into the
destination storage: writing past the end of the destination is undefined behaviour. -/
def Strided.assign (z : Nat → α) (dst src : Strided α) : Outcome (Strided α) :=
  let realloc := (dst.dims.zip src.dims).any fun p => p.1 == 0 || p.1 != p.2
  let dst' : Strided α :=
    if realloc then
      let strides := transformStrides src.dims
      { data := vecResize z (linearSize strides src.dims) dst.data, off := 0, dims := src.dims,
        strides := strides }
    else dst
  if src.data.length ≤ dst'.data.length then
    .ok { dst' with data := src.data ++ dst'.data.drop src.data.length }
  else .ub "std::copy past the end"

/-- Tensor.hpp 735–750: the dimension scan of `operator=(const Tensor<TOther> &)`. -/
def assignOtherScan (rank : Nat) : List (Nat × Nat) → Bool → Outcome Bool
  | [], r => .ok r
  | (d, o) :: ps, r =>
      if d = 0 then assignOtherScan rank ps true
      else if d ≠ o then
        if rank ≠ 1 then .error "dimensions do not match" else assignOtherScan rank ps true
      else assignOtherScan rank ps r

/-- Tensor.hpp 732–772: `operator=(const Tensor<TOther, Rank> &)`; `conv` is the element
conversion, applied here to the source beforehand. -/
def Strided.assignOther (z : Nat → α) (conv : β → α) (dst : Strided α) (src : Strided β) :
    Outcome (Strided α) :=
  assignOtherScan dst.dims.length (dst.dims.zip src.dims) false >>= fun realloc =>
    let dst' : Strided α :=
      if realloc then
        let strides := transformStrides src.dims
        { data := vecResize z (linearSize strides src.dims) dst.data, off := 0, dims := src.dims,
          strides := strides }
      else dst
    copyLoop { src with data := src.data.map conv } (cartesian dst'.dims) dst'

/-- Tensor.hpp 782–809: `operator=(const TensorView &)` (and the non-basic tensor version): loops
over the destination's dimensions. -/
def Strided.assignView (dst src : Strided α) : Outcome (Strided α) :=
  copyLoop src (cartesian dst.dims) dst

/-- Tensor.hpp 852–888, index range of thread `tid` of `n` over `len` elements. -/
def chunkBegin (len n tid : Nat) : Nat := (len / n) * tid
/-- Tensor.hpp 852–888: the end of that range; the last thread takes the remainder. -/
def chunkEnd (len n tid : Nat) : Nat := if tid = n - 1 then len else (len / n) * tid + len / n

/-- The positions updated by thread `tid` (Tensor.hpp 852–888), in order. -/
def chunkPositions (len n tid : Nat) : List Nat :=
  (List.range (chunkEnd len n tid - chunkBegin len n tid)).map (chunkBegin len n tid + ·)

/-- The updates performed by each of `n` threads over `len` elements (Tensor.hpp 852–888). -/
def compoundThreads (len n : Nat) : List (List Nat) := (List.range n).map (chunkPositions len n)

/-- Tensor.hpp 852–863: `t OP= b` for a scalar, when the element updates happen in the order `sched`.
One element update (load, operate, store) is one step. -/
def Strided.compoundScalar (op : α → α → α) (t : Strided α) (b : α) (sched : List Nat) : Strided α :=
  { t with data := sched.foldl (fun d p => d.modify p (fun x => op x b)) t.data }

/-- Tensor.hpp 865–882: The updates of `t OP= u`, reading `u`'s storage; reading past its end is undefined
behaviour. -/
def compoundLoop (op : α → α → α) (u : List α) : List Nat → List α → Outcome (List α)
  | [], d => .ok d
  | p :: ps, d =>
      match u[p]? with
      | some y => compoundLoop op u ps (d.modify p (fun x => op x y))
      | none => .ub "read past the end"

/-- Tensor.hpp 865–882: `t OP= u` for a tensor `u` other than `t`. -/
def Strided.compoundTensor (op : α → α → α) (t u : Strided α) (sched : List Nat) : Outcome (Strided α) :=
  if sizeMethod t.dims ≠ sizeMethod u.dims then .error "tensors differ in size"
  else compoundLoop op u.data sched t.data >>= fun d => .ok { t with data := d }

/-- State of the loop in Tensor.hpp 556–579: `offsets`, and `dims`/`strides` as filled so far; their
length is `counter`.  A dimension is an `Int` here since `range[1] - range[0]` may be negative. -/
structure SubState where
  offsets : List Int
  dims : List Int
  strides : List Nat
  deriving Repr, DecidableEq

/-- Tensor.hpp 557–578 (and 603–624), body for argument number `i`. -/
def subStep (dim stride : Nat) (i : Nat) (a : Sel) (s : SubState) : SubState :=
  match a with
  | .at k => { s with offsets := s.offsets.set i (if k < 0 then (dim : Int) + k else k) }
  | .all => { s with strides := s.strides ++ [stride], dims := s.dims ++ [(dim : Int)] }
  | .range a b =>
      let b' := if b < 0 then (dim : Int) + b else b
      { offsets := s.offsets.set s.dims.length a, dims := s.dims ++ [b' - a],
        strides := s.strides ++ [stride] }

/-- The whole loop of Tensor.hpp 556–579. -/
def subLoop : List (Nat × Nat) → Nat → List Sel → SubState → SubState
  | (d, st) :: ds, i, a :: as, s => subLoop ds (i + 1) as (subStep d st i a s)
  | _, _, _, s => s

/-- Tensor.hpp 1348–1430, `common_initialization` with explicit dimensions, offsets and strides:
`_data = &other._data[inner_product(offsets, other._strides)]`.  Forming a pointer outside the
storage (or past its end) is undefined behaviour.  Simplification: a view with a negative dimension
is reported as undefined here; in the code the object exists and every use of it is out of range. -/
def mkView (t : Strided α) (dims : List Int) (offsets : List Int) (strides : List Nat) :
    Outcome (Strided α) :=
  let o : Int := t.off + innerProduct offsets t.strides
  if o < 0 ∨ o > t.data.length then .ub "pointer outside the storage"
  else if dims.any (· < 0) then .ub "negative dimension"
  else .ok { data := t.data, off := o.toNat, dims := dims.map Int.toNat, strides := strides }

/-- Tensor.hpp 540–628: `T(args...)` with at least one `All`. -/
def Strided.sub (t : Strided α) (args : List Sel) : Outcome (Strided α) :=
  if args.length ≠ t.dims.length then .ub "wrong number of arguments"
  else
    let s := subLoop (t.dims.zip t.strides) 0 args
      { offsets := List.replicate t.dims.length 0, dims := [], strides := [] }
    mkView t s.dims s.offsets s.strides

/-- Tensor.hpp 630–650: `T(Range, ..., Range)`. -/
def Strided.ranges (t : Strided α) (rs : List (Int × Int)) : Outcome (Strided α) :=
  if rs.length ≠ t.dims.length then .ub "wrong number of ranges"
  else
    let dims := (t.dims.zip rs).map fun p =>
      (if p.2.2 < 0 then (p.1 : Int) + p.2.2 else p.2.2) - p.2.1
    mkView t dims (rs.map (·.1)) t.strides

/-- Tensor.hpp 907–912: `Tensor::to_rank_1_view`: `TensorView<T,1>{*this, dim}`.  For rank 1 the
parent's strides are used; otherwise the products of dimensions agree and row-major strides are
computed for the single dimension (Tensor.hpp 1390–1410). -/
def Strided.toRank1 (t : Strided α) : Strided α :=
  let size := linearSize t.strides t.dims
  { data := t.data, off := t.off, dims := [size],
    strides := if t.dims.length = 1 then t.strides else transformStrides [size] }

/-- Tensor.hpp 1304–1320: `TensorView::to_rank_1_view`. -/
def Strided.viewToRank1 (t : Strided α) : Outcome (Strided α) :=
  if t.dims.length = 1 then .ok t
  else if t.strides.getLast? ≠ some 1 then
    .error "Creating a Rank-1 TensorView for this Tensor(View) is not supported."
  else .ok { data := t.data, off := t.off, dims := [linearSize t.strides t.dims], strides := [1] }

/-- Tensor.hpp 893–905, 1276–1292: `dim(d)`/`stride(d)`; negative `d` counts from the end; any
other out-of-range `d` reads outside the array. -/
def axisGet (l : List Nat) (d : Int) : Outcome Nat :=
  let d' := if d < 0 then d + l.length else d
  if d' < 0 then .ub "array index" else
  match l[d'.toNat]? with
  | some x => .ok x
  | none => .ub "array index"

end Einsums.Model
