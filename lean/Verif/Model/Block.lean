import Verif.Model.LinearAlgebra
/-
Model of src/include/einsums/BlockTensor.hpp (`BlockTensorBase` with `Tensor` blocks).

Names of blocks, locking and device tensors are not modelled.  Not modelled because they do not compile when
instantiated: the constructor from a `Dim` object (162–174) and the const `operator()` taking a container
(516–556, it assigns `_zero_value`).
-/
namespace Einsums.Model

/-- BlockTensor.hpp 26–43: the members of a block tensor of rank `rank`. -/
structure Block (R : Type) where
  rank : Nat
  blocks : List (Strided R)
  ranges : List (Int × Int)
  dims : List Nat
  dim : Nat
  zeroVal : R
  deriving DecidableEq

section
variable {R : Type}

/-- BlockTensor.hpp 56–64: the loop of `update_dims`: the ranges and the total. -/
def blockRanges : List Nat → Nat → List (Int × Int) × Nat
  | [], sum => ([], sum)
  | d :: ds, sum => (((sum : Nat), ((sum + d : Nat) : Int)) :: (blockRanges ds (sum + d)).1, (blockRanges ds (sum + d)).2)

/-- BlockTensor.hpp 48–65: `update_dims`. -/
def Block.updateDims (T : Block R) : Block R :=
  let ds := T.blocks.map (·.dim 0)
  { T with dims := ds, ranges := (blockRanges ds 0).1, dim := (blockRanges ds 0).2 }

/-- BlockTensor.hpp 71: the default constructor (a tensor without blocks). -/
def Block.empty [Zero R] (rank : Nat) : Block R := ⟨rank, [], [], [], 0, 0⟩

/-- BlockTensor.hpp 107–121, 140–154: construction with the given block sizes.  The elements are
indeterminate: `z n` is the content of the fresh memory of a block of size `n`. -/
def Block.mk' [Zero R] (z : Nat → Nat → R) (rank : Nat) (sizes : List Nat) : Block R :=
  Block.updateDims { (Block.empty rank : Block R) with
    blocks := sizes.map fun n => Strided.mk' (z n) (List.replicate rank n) }

/-- BlockTensor.hpp 181–189: `block_of(index)`. -/
def Block.blockOf (T : Block R) (index : Nat) : Outcome Nat :=
  match T.ranges.findIdx? fun (r : Int × Int) => decide (r.1 ≤ (index : Int) ∧ r.2 > (index : Int)) with
  | some i => .ok i
  | none => .error "Index out of range!"

/-- BlockTensor.hpp 257–262 (and 271–276, 287–292, 301–306): are all dimensions equal to the first? -/
def isSquare (t : Strided R) : Bool := t.dims.all (· == t.dim 0)

/-- BlockTensor.hpp 256–265, 286–295: `push_block`. -/
def Block.push (T : Block R) (t : Strided R) : Outcome (Block R) :=
  if isSquare t then .ok (Block.updateDims { T with blocks := T.blocks ++ [t] })
  else .error "Can only push square/hypersquare tensors to a block tensor."

/-- BlockTensor.hpp 270–281, 300–311: `insert_block`; a position outside the vector is undefined behaviour. -/
def Block.insert (T : Block R) (pos : Int) (t : Strided R) : Outcome (Block R) :=
  if isSquare t then
    if 0 ≤ pos ∧ pos ≤ T.blocks.length then
      .ok (Block.updateDims { T with blocks := T.blocks.take pos.toNat ++ t :: T.blocks.drop pos.toNat })
    else .ub "insert outside the vector"
  else .error "Can only push square/hypersquare tensors to a block tensor."

/-- BlockTensor.hpp 382–403: What the loop over the indices finds. -/
inductive Located where
  /-- all indices in the block, and the indices inside it -/
  | inside (b : Nat) (idx : List Int)
  /-- an index outside the block of the first one -/
  | outside
  /-- the first index in no block: `block` stays −1 -/
  | noBlock

/-- BlockTensor.hpp 382–403 (and 331–354, 429–453, 479–503): the loop over the indices.  `_index` is a reference
to the array element (`std::tie` in STL.hpp 97), so it sees the normalisation of negative indices. -/
def Block.locate (T : Block R) : List Int → Option Nat → List Int → Located
  | [], some b, acc => .inside b acc
  | [], none, _ => .noBlock
  | i :: is, blk, acc =>
      let i := if i < 0 then (T.dim : Int) + i else i
      let blk := match blk with
        | some b => some b
        | none => T.ranges.findIdx? fun (r : Int × Int) => decide (r.1 ≤ i ∧ i < r.2)
      match blk with
      | none => .noBlock
      | some b =>
          match T.ranges[b]? with
          | none => .noBlock
          | some r => if r.1 ≤ i ∧ i < r.2 then T.locate is (some b) (acc ++ [i - r.1]) else .outside

/-- `_blocks.at(b)`, also `block(id)` (BlockTensor.hpp 216, 221). -/
def Block.at (T : Block R) (b : Nat) : Outcome (Strided R) :=
  match T.blocks[b]? with
  | some t => .ok t
  | none => .error "out_of_range"

/-- BlockTensor.hpp 423–456, and 466–506 with a container of `rank` indices: `T(i, j, ...)` on a non-const
tensor, as an rvalue.  `_ranges.at(-1)` throws. -/
def Block.getMut [Zero R] (T : Block R) (idx : List Int) : Outcome (Block R × R) :=
  match T.locate idx none [] with
  | .noBlock => .error "out_of_range"
  | .outside => .ok ({ T with zeroVal := 0 }, 0)
  | .inside b l => do
      let t ← T.at b
      let v ← t.read l
      return (T, v)

/-- BlockTensor.hpp 423–456, 466–506: `T(i, j, ...) = v`.  Outside the blocks the assignment goes to
`_zero_value`. -/
def Block.set (T : Block R) (idx : List Int) (v : R) : Outcome (Block R) :=
  match T.locate idx none [] with
  | .noBlock => .error "out_of_range"
  | .outside => .ok { T with zeroVal := v }
  | .inside b l => do
      let t ← T.at b
      let t ← t.write l v
      return { T with blocks := T.blocks.set b t }

/-- BlockTensor.hpp 376–406: `T(i, j, ...)` on a const tensor.  `return 0` returns a reference to a temporary,
`_ranges[-1]` is outside the vector, and the element is addressed without checks. -/
def Block.getConst (T : Block R) (idx : List Int) : Outcome R :=
  match T.locate idx none [] with
  | .noBlock => .ub "_ranges[-1]"
  | .outside => .ub "reference to a temporary"
  | .inside b l => do
      let t ← T.at b
      let o := innerProduct l t.strides
      if 0 ≤ o then
        match t.data[t.off + o.toNat]? with
        | some v => .ok v
        | none => .ub "access outside the storage"
      else .ub "access outside the storage"

/-- BlockTensor.hpp 326–359: `data(i, j, ...)`: `none` is the null pointer, otherwise the block and the ordinal. -/
def Block.dataAt (T : Block R) (idx : List Int) : Outcome (Option (Nat × Int)) :=
  match T.locate idx none [] with
  | .noBlock => .ub "_ranges[-1]"
  | .outside => .ok none
  | .inside b l => do
      let t ← T.at b
      return some (b, innerProduct l t.strides)

/-- BlockTensor.hpp 382–403: `T.block(b)(idx...) = v`. -/
def Block.setInBlock (T : Block R) (b : Nat) (idx : List Int) (v : R) : Outcome (Block R) := do
  let t ← T.at b
  let t ← t.write idx v
  return { T with blocks := T.blocks.set b t }

/-- BlockTensor.hpp 194–211: `zero` and `set_all`. -/
def Block.setAll (v : R) (T : Block R) : Block R := { T with blocks := T.blocks.map (·.setAll v) }

/-- BlockTensor.hpp 634–642: `T OP= b` for a scalar; the updates of each block by C13. -/
def Block.compoundScalar (op : R → R → R) (T : Block R) (v : R) : Block R :=
  { T with blocks := T.blocks.map fun t => if t.dim 0 = 0 then t else t.compoundScalar op v (List.range t.data.length) }

/-- BlockTensor.hpp 653–659: one iteration of `T OP= b`. -/
def Block.compoundStep (op : R → R → R) (b T : Block R) (i : Nat) : Outcome (Block R) := do
  let t ← T.at i
  if t.dim 0 = 0 then return T
  else do
    let u ← b.at i
    let t ← t.compoundTensor op u (List.range t.data.length)
    return { T with blocks := T.blocks.set i t }

/-- BlockTensor.hpp 644–661: `T OP= b` for a block tensor, iterations in the order `sched`. -/
def Block.compoundBlock (op : R → R → R) (T b : Block R) (sched : List Nat) : Outcome (Block R) :=
  if T.blocks.length ≠ b.blocks.length then .error "tensors differ in number of blocks"
  else if (T.blocks.zip b.blocks).any fun p => sizeMethod p.1.dims ≠ sizeMethod p.2.dims then
    .error "tensor blocks differ in size"
  else sched.foldlM (Block.compoundStep op b) T

/-- BlockTensor.hpp 76–83: copy construction; each block is copy-constructed (Tensor.hpp's defaulted copy
constructor). -/
def Block.copy [Zero R] (other : Block R) : Block R :=
  Block.updateDims ⟨other.rank, other.blocks, other.ranges, other.dims, other.dim, 0⟩

/-- BlockTensor.hpp 584, 614: A value-initialised `Tensor<T, rank>`, as `std::vector::resize` appends. -/
def defaultTensor (rank : Nat) : Strided R := ⟨[], 0, List.replicate rank 0, List.replicate rank 0⟩

/-- BlockTensor.hpp 597–599: one iteration of the loop of copy assignment. -/
def Block.assignStep (z : Nat → R) (other T : Block R) (i : Nat) : Outcome (Block R) :=
  match T.blocks[i]?, other.blocks[i]? with
  | some t, some u => do
      let t' ← t.assign z u
      return { T with blocks := T.blocks.set i t' }
  | _, _ => .ub "_blocks out of range"

/-- BlockTensor.hpp 581–605: copy assignment, iterations in the order `sched`; `z` as in `vecResize`. -/
def Block.assign (z : Nat → R) (T other : Block R) (sched : List Nat) : Outcome (Block R) := do
  let bl := if T.blocks.length ≠ other.blocks.length then
      vecResize (fun _ => defaultTensor T.rank) other.blocks.length T.blocks else T.blocks
  let T' ← sched.foldlM (Block.assignStep z other)
    { T with blocks := bl, dims := other.dims, dim := other.dim, ranges := other.ranges }
  return T'.updateDims

/-- BlockTensor.hpp 687–694: one iteration of the conversion. -/
def Block.denseStep (T : Block R) (out : Strided R) (i : Nat) : Outcome (Strided R) := do
  let t ← T.at i
  if t.dim 0 = 0 then return out
  else
    match T.ranges[i]? with
    | none => .ub "_ranges out of range"
    | some r => do
        let v ← out.ranges (List.replicate T.rank r)
        let v ← copyLoop t (cartesian v.dims) v
        return { out with data := v.data }

/-- BlockTensor.hpp 673–697: conversion to a dense tensor, which is zeroed first; iterations in the order `sched`. -/
def Block.toDense [Zero R] (T : Block R) (sched : List Nat) : Outcome (Strided R) :=
  sched.foldlM T.denseStep (Strided.mk' (fun _ => 0) (List.replicate T.rank T.dim))

end
end Einsums.Model
