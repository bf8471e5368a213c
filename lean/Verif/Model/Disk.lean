import Verif.Model.LinearAlgebra
/-
Model of disk tensors (Tensor.hpp 1453–1990): `write`, `read`, `DiskTensor` and `DiskView`.

HDF5 is an external library.  A data set is what its documentation promises: a shape and one value per
multi-index; reading or writing a hyperslab `offset`, `count` touches exactly the elements
`offset ≤ i < offset + count`, in row-major order of the memory buffer; a hyperslab that does not lie inside
the data set is refused before anything is transferred, and `h5cpp` turns the refusal into an exception.
Closing and flushing of files, compression, chunk caching and type conversion are not modelled.
-/
namespace Einsums.Model
open Einsums.Spec

variable {R : Type}

/-- A data set of an HDF5 file (external; used at Tensor.hpp 1485–1492 and 1889): its shape and its
elements.  Only the elements inside the shape exist. -/
structure Dataset (R : Type) where
  dims : List Nat
  elem : List Nat → R

/-- The open HDF5 files: file number, link name, data set.  File 0 is `state::data()`
(State.hpp 15; external). -/
abbrev Files (R : Type) := Nat → String → Option (Dataset R)

/-- Replace one data set of the files (external: HDF5, used by Tensor.hpp 1487 and 1680). -/
def Files.set (w : Files R) (h : Nat × String) (d : Dataset R) : Files R :=
  fun f n => if f = h.1 ∧ n = h.2 then some d else w f n

/-- HDF5's check of a hyperslab against the shape of the data set (external, used by Tensor.hpp 1889 and
1939).  The counts and offsets are `size_t`; a negative number given by the user has become a number above
`2^63`, which HDF5 refuses.  Simplification: it stays negative here, and is refused. -/
def slabFits : List Nat → List Int → List Int → Bool
  | [], [], [] => true
  | d :: ds, o :: os, c :: cs => decide (0 ≤ o ∧ 0 ≤ c ∧ o + c ≤ d) && slabFits ds os cs
  | _, _, _ => false

/-- Is the multi-index inside the hyperslab (external, used by Tensor.hpp 1939)? -/
def insideSlab : List Nat → List Nat → List Nat → Bool
  | [], [], [] => true
  | o :: os, c :: cs, k :: ks => decide (o ≤ k ∧ k < o + c) && insideSlab os cs ks
  | _, _, _ => false

/-- Position of a multi-index relative to the first element of a hyperslab (external, used by
Tensor.hpp 1939). -/
def unshift : List Nat → List Nat → List Nat
  | k :: ks, o :: os => (k - o) :: unshift ks os
  | _, _ => []

/-- `h5::read<T>(disk, ptr, count, offset)` (external; called at Tensor.hpp 1889 and 1896): the hyperslab is
copied to the beginning of the buffer.  A buffer that is too short is undefined behaviour. -/
def Dataset.read (d : Dataset R) (mem : List R) (counts offsets : List Int) : Outcome (List R) :=
  if slabFits d.dims offsets counts then
    let cs := counts.map Int.toNat
    let os := offsets.map Int.toNat
    if numel cs ≤ mem.length then
      .ok ((box cs).map (fun j => d.elem (shift os j)) ++ mem.drop (numel cs))
    else .ub "read past the end of the buffer"
  else .error "hyperslab outside the data set"

/-- `h5::write<T>(disk, ptr, count, offset)` (external; called at Tensor.hpp 1491, 1911 and 1939).  A buffer that
is too short is undefined behaviour. -/
def Dataset.write (d : Dataset R) (mem : List R) (counts offsets : List Int) : Outcome (Dataset R) :=
  if slabFits d.dims offsets counts then
    let cs := counts.map Int.toNat
    let os := offsets.map Int.toNat
    if numel cs ≤ mem.length then
      .ok { d with elem := fun k =>
        if insideSlab os cs k then (mem[rowMajor (unshift k os) cs]?).getD (d.elem k) else d.elem k }
    else .ub "write past the end of the buffer"
  else .error "hyperslab outside the data set"

/-- A disk tensor (Tensor.hpp 1852–1866): the open data set `_disk`, the shape given by the program and
`_existed`.  `_strides` is only passed on to the views, which do not use it. -/
structure DiskTensor where
  name : String
  dims : List Nat
  disk : Nat × String
  existed : Bool

/-- The default chunk (Tensor.hpp 1654–1662): one along the first axis, at most 64 along the others. -/
def defaultChunk : List Nat → List Nat
  | [] => []
  | _ :: ds => 1 :: ds.map fun d => if d < 64 then d else 64

/-- HDF5's check of the chunk of a new data set (external, used by Tensor.hpp 1680): every chunk dimension is
positive and no larger than the dimension of the (fixed size) data set. -/
def chunkFits : List Nat → List Nat → Bool
  | [], [] => true
  | d :: ds, c :: cs => decide (0 < c ∧ c ≤ d) && chunkFits ds cs
  | _, _ => false

/-- Tensor.hpp 1601–1635: the constructor with a given chunk.  A data set that exists is opened; otherwise one is
created, with unspecified contents `z`.  An exception while creating ends the process (`std::abort`).
Simplification: opening an existing link never fails. -/
def DiskTensor.make (z : List Nat → R) (w : Files R) (file : Nat) (name : String) (chunk dims : List Nat) :
    Outcome (DiskTensor × Files R) :=
  match w file name with
  | some _ => .ok (⟨name, dims, (file, name), true⟩, w)
  | none =>
      if chunkFits dims chunk then .ok (⟨name, dims, (file, name), false⟩, w.set (file, name) ⟨dims, z⟩)
      else .error "abort: unable to create disk tensor"

/-- Tensor.hpp 1637–1686: the constructor with the default chunk. -/
def DiskTensor.makeDefault (z : List Nat → R) (w : Files R) (file : Nat) (name : String) (dims : List Nat) :
    Outcome (DiskTensor × Files R) :=
  DiskTensor.make z w file name (defaultChunk dims) dims

/-- Tensor.hpp 1690–1742: the constructor from a tensor (`create_disk_tensor_like`).  Existence is looked up in
the given file, but an existing data set is opened in `state::data()` (line 1726).  Opening a data set that is
not there ends the process.  Simplification: the new data set gets the tensor's shape (the rank of `cdims` is
left unset by the code). -/
def DiskTensor.like (z : List Nat → R) (w : Files R) (file : Nat) (name : String) (dims : List Nat) :
    Outcome (DiskTensor × Files R) :=
  match w file name with
  | some _ =>
      match w 0 name with
      | some _ => .ok (⟨name, dims, (0, name), true⟩, w)
      | none => .error "abort: unable to open disk tensor"
  | none =>
      if chunkFits dims (defaultChunk dims) then
        .ok (⟨name, dims, (file, name), false⟩, w.set (file, name) ⟨dims, z⟩)
      else .error "abort: unable to create disk tensor"

/-- Tensor.hpp 1781–1800: the offsets of `A(args...)`; zero unless an integer or a range is given.  Arguments
that are not there leave the defaults. -/
def diskOffsets : List Nat → List Sel → List Int
  | [], _ => []
  | _ :: ds, [] => 0 :: diskOffsets ds []
  | _ :: ds, .at k :: as => k :: diskOffsets ds as
  | _ :: ds, .all :: as => 0 :: diskOffsets ds as
  | _ :: ds, .range a _ :: as => a :: diskOffsets ds as

/-- Tensor.hpp 1785–1800: the counts of `A(args...)`; one unless `All` or a range is given. -/
def diskCounts : List Nat → List Sel → List Int
  | [], _ => []
  | _ :: ds, [] => 1 :: diskCounts ds []
  | _ :: ds, .at _ :: as => 1 :: diskCounts ds as
  | d :: ds, .all :: as => (d : Int) :: diskCounts ds as
  | _ :: ds, .range a b :: as => (b - a) :: diskCounts ds as

/-- Tensor.hpp 1769: the rank of the view, the number of `All` and `Range` arguments. -/
def selRank (as : List Sel) : Nat := (as.filter fun | .at _ => false | _ => true).length

/-- Tensor.hpp 1787 and 1802–1808: `dims_all` starts as zeros; the counts above one are copied to its beginning. -/
def diskDims (rank : Nat) (counts : List Int) : List Nat :=
  let big := (counts.filter fun c => decide (1 < c)).map Int.toNat
  big ++ List.replicate (rank - big.length) 0

/-- A view of a disk tensor (Tensor.hpp 1972–1988). -/
structure DiskView (R : Type) where
  disk : Nat × String
  dims : List Nat
  counts : List Int
  offsets : List Int
  tensor : Strided R
  readOnly : Bool

/-- Tensor.hpp 1768–1813 (1815–1850 and `readOnly` for a const disk tensor) with the constructor 1885–1898:
`A(args...)`.  A fresh tensor of shape `dims_all` is filled from the file.  More arguments than the rank write
past the end of the arrays: undefined behaviour. -/
def DiskTensor.view (z : Nat → R) (w : Files R) (A : DiskTensor) (args : List Sel) (readOnly : Bool) :
    Outcome (DiskView R) :=
  if args.length ≤ A.dims.length then
    let counts := diskCounts A.dims args
    let offsets := diskOffsets A.dims args
    let dims := diskDims (selRank args) counts
    match w A.disk.1 A.disk.2 with
    | none => .error "no such data set"
    | some d =>
        let t := Strided.mk' z dims
        d.read t.data counts offsets >>= fun mem =>
          .ok ⟨A.disk, dims, counts, offsets, { t with data := mem }, readOnly⟩
  else .ub "more arguments than axes"

/-- Tensor.hpp 1936–1940: `put`. -/
def DiskView.put (w : Files R) (v : DiskView R) : Outcome (Files R) :=
  if v.readOnly then .ok w
  else
    match w v.disk.1 v.disk.2 with
    | none => .error "no such data set"
    | some d => d.write v.tensor.data v.counts v.offsets >>= fun d' => .ok (w.set v.disk d')

/-- Tensor.hpp 1902: the destructor. -/
def DiskView.close (w : Files R) (v : DiskView R) : Outcome (Files R) := v.put w

/-- Tensor.hpp 1906–1914: `operator=(const T *)` goes straight to the file. -/
def DiskView.assignPtr (w : Files R) (v : DiskView R) (mem : List R) : Outcome (Files R) :=
  match w v.disk.1 v.disk.2 with
  | none => .error "no such data set"
  | some d => d.write mem v.counts v.offsets >>= fun d' => .ok (w.set v.disk d')

/-- Tensor.hpp 1917–1931: `operator=(const Tensor &)` changes the tensor in memory. -/
def DiskView.assign (z : Nat → R) (v : DiskView R) (t : Strided R) : Outcome (DiskView R) :=
  if v.readOnly then .error "read only disk view"
  else if (v.dims.zip t.dims).any (fun p => p.1 != p.2) then .error "dims do not match"
  else v.tensor.assign z t >>= fun t' => .ok { v with tensor := t' }

/-- Tensor.hpp 1942–1945: `operator()` of a const view reads the tensor in memory. -/
def DiskView.get (v : DiskView R) (j : List Int) : Outcome R := v.tensor.read j

/-- Tensor.hpp 1947–1950: `v(j...) = x` changes the tensor in memory. -/
def DiskView.set (v : DiskView R) (j : List Int) (x : R) : Outcome (DiskView R) :=
  v.tensor.write j x >>= fun t => .ok { v with tensor := t }

/-- Tensor.hpp 1962: `set_all`. -/
def DiskView.setAll (v : DiskView R) (x : R) : DiskView R := { v with tensor := v.tensor.setAll x }

/-- Tensor.hpp 1453–1492: `write(file, tensor)` with default arguments: a data set of the tensor's shape is
created when there is none of that name (unspecified contents `z`, no chunks); then the whole tensor is written at
offset zero. -/
def writeTensor (z : List Nat → R) (w : Files R) (file : Nat) (name : String) (t : Strided R) : Outcome (Files R) :=
  let d := (w file name).getD ⟨t.dims, z⟩
  d.write t.data (t.dims.map Int.ofNat) (t.dims.map fun _ => 0) >>= fun d' => .ok (w.set (file, name) d')

/-- Tensor.hpp 1554–1567: `read<T, Rank>(file, name)`: the whole data set, as a tensor of its shape; any failure
(also a data set of another rank) ends the process. -/
def readTensor (z : Nat → R) (w : Files R) (file : Nat) (name : String) (rank : Nat) : Outcome (Strided R) :=
  match w file name with
  | none => .error "abort: unable to open disk tensor"
  | some d =>
      if d.dims.length = rank then
        let t := Strided.mk' z d.dims
        d.read t.data (d.dims.map Int.ofNat) (d.dims.map fun _ => 0) >>= fun mem =>
          .ok { t with data := mem }
      else .error "abort: unable to open disk tensor"

/-- Calls a program makes on the views of one disk tensor; views are numbered
(Tensor.hpp 1768–1970). -/
inductive DiskOp (R : Type)
  | view (id : Nat) (args : List Sel)
  | get (id : Nat) (j : List Nat)
  | set (id : Nat) (j : List Nat) (x : R)
  | setAll (id : Nat) (x : R)
  | assign (id : Nat) (t : Strided R)
  | put (id : Nat)
  | close (id : Nat)

/-- The state of such a program: the files and the views alive (Tensor.hpp 1768–1970). -/
structure DiskState (R : Type) where
  files : Files R
  views : Nat → Option (DiskView R)

/-- Replace one view of the program (Tensor.hpp 1768–1970). -/
def DiskState.setView (s : DiskState R) (id : Nat) (v : Option (DiskView R)) : DiskState R :=
  { s with views := fun i => if i = id then v else s.views i }

/-- The live view with a number; using one that is not alive is undefined behaviour (Tensor.hpp 1768–1970). -/
def DiskState.lookup (s : DiskState R) (id : Nat) : Outcome (DiskView R) :=
  match s.views id with
  | some v => .ok v
  | none => .ub "no such view"

/-- One call (Tensor.hpp 1768–1970); `z` is what fresh memory contains, `ro` says that the disk tensor is
const. -/
def diskStep (z : Nat → R) (A : DiskTensor) (ro : Bool) (s : DiskState R) : DiskOp R → Outcome (DiskState R × Option R)
  | .view id args => A.view z s.files args ro >>= fun v => .ok (s.setView id (some v), none)
  | .get id j => s.lookup id >>= fun v => v.get (toIdx j) >>= fun x => .ok (s, some x)
  | .set id j x => s.lookup id >>= fun v => v.set (toIdx j) x >>= fun v' => .ok (s.setView id (some v'), none)
  | .setAll id x => s.lookup id >>= fun v => .ok (s.setView id (some (v.setAll x)), none)
  | .assign id t => s.lookup id >>= fun v => v.assign z t >>= fun v' => .ok (s.setView id (some v'), none)
  | .put id => s.lookup id >>= fun v => v.put s.files >>= fun w => .ok ({ s with files := w }, none)
  | .close id => s.lookup id >>= fun v => v.close s.files >>= fun w =>
      .ok ({ s with files := w }.setView id none, none)

/-- A sequence of calls, with the values they return (Tensor.hpp 1768–1970). -/
def diskRun (z : Nat → R) (A : DiskTensor) (ro : Bool) :
    DiskState R → List (DiskOp R) → Outcome (DiskState R × List (Option R))
  | s, [] => .ok (s, [])
  | s, op :: ops => diskStep z A ro s op >>= fun p => diskRun z A ro p.1 ops >>= fun q => .ok (q.1, p.2 :: q.2)

end Einsums.Model
