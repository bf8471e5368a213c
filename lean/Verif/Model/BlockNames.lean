import Verif.Model.Block
/-
The names of the blocks of a block tensor: src/include/einsums/BlockTensor.hpp 226–250 (`block(name)`), 256–311 (`push_block`,
`insert_block`) and 581–605 (copy assignment), with the vector of blocks.

`Tensor` has a copy constructor, which copies the name (Tensor.hpp 167), and a copy assignment, which does not (700–731), and no
move operations.  Contract of `std::vector` (libstdc++): without spare capacity, `push_back` and `insert` construct copies of
all elements in new memory for twice as many; with spare capacity, `insert` before the end constructs a copy of the last
element behind it, assigns each element from its predecessor, from the back to the position, and assigns the new one.
Simplification: the dimensions and the elements that an assignment copies are one value (they are modelled in Model/Tensor.lean).
-/
namespace Einsums.Model

/-- Tensor.hpp 930, 925–927: a block with its name. -/
structure NamedBlock (α : Type) where
  name : String
  content : Strided α
  deriving DecidableEq, Repr

/-- BlockTensor.hpp 26–43: the vector of blocks, with its capacity. -/
structure NamedBlocks (α : Type) where
  capacity : Nat
  blocks : List (NamedBlock α)
  deriving DecidableEq, Repr

/-- Tensor.hpp 700–731: `dst = src`: the name stays. -/
def assignBlock (dst src : NamedBlock α) : NamedBlock α := { dst with content := src.content }

/-- BlockTensor.hpp 263, 293: `_blocks.push_back(value)`. -/
def vecPush (v : NamedBlocks α) (x : NamedBlock α) : NamedBlocks α :=
  if v.blocks.length = v.capacity then ⟨max 1 (2 * v.blocks.length), v.blocks ++ [x]⟩
  else { v with blocks := v.blocks ++ [x] }

/-- BlockTensor.hpp 278, 308: one assignment of `std::move_backward`: the element `i` from its predecessor. -/
def shiftStep (bs : List (NamedBlock α)) (i : Nat) : List (NamedBlock α) :=
  match bs[i]?, bs[i - 1]? with
  | some d, some s => bs.set i (assignBlock d s)
  | _, _ => bs

/-- BlockTensor.hpp 278, 308: `_blocks.insert(std::next(_blocks.begin(), pos), value)`. -/
def vecInsert (v : NamedBlocks α) (pos : Int) (x : NamedBlock α) : Outcome (NamedBlocks α) :=
  if pos < 0 ∨ (v.blocks.length : Int) < pos then .ub "insert outside the vector"
  else
    let p := pos.toNat
    if v.blocks.length = v.capacity then
      .ok ⟨max 1 (2 * v.blocks.length), v.blocks.take p ++ x :: v.blocks.drop p⟩
    else if p = v.blocks.length then .ok { v with blocks := v.blocks ++ [x] }
    else
      let grown := v.blocks ++ v.blocks.getLast?.toList
      let shifted := ((List.range (v.blocks.length - 1 - p)).map fun k => v.blocks.length - 1 - k).foldl shiftStep grown
      match shifted[p]? with
      | some d => .ok { v with blocks := shifted.set p (assignBlock d x) }
      | none => .ub "insert outside the vector"

/-- BlockTensor.hpp 256–265, 286–295: `push_block`. -/
def NamedBlocks.push (v : NamedBlocks α) (x : NamedBlock α) : Outcome (NamedBlocks α) :=
  if isSquare x.content then .ok (vecPush v x)
  else .error "Can only push square/hypersquare tensors to a block tensor."

/-- BlockTensor.hpp 270–281, 300–311: `insert_block`. -/
def NamedBlocks.insert (v : NamedBlocks α) (pos : Int) (x : NamedBlock α) : Outcome (NamedBlocks α) :=
  if isSquare x.content then vecInsert v pos x
  else .error "Can only push square/hypersquare tensors to a block tensor."

/-- BlockTensor.hpp 226–250: `block(name)`: the position found. -/
def NamedBlocks.find (v : NamedBlocks α) (name : String) : Outcome Nat :=
  match v.blocks.findIdx? (fun b => b.name == name) with
  | some i => .ok i
  | none =>
    if v.blocks.length = 0 then .error "Could not find block with the name: no blocks in tensor."
    else .error "Could not find block with the name: no blocks with given name."

/-- BlockTensor.hpp 226–250, 571, 576: `block(name)` and `T[name]`. -/
def NamedBlocks.get (v : NamedBlocks α) (name : String) : Outcome (Strided α) := do
  let i ← v.find name
  match v.blocks[i]? with
  | some b => return b.content
  | none => .ub "outside the vector"

/-- BlockTensor.hpp 581–605: copy assignment: `resize` (new elements are `Tensor()`, named "(unnamed)" by Tensor.hpp 930, and of
the content `fresh`), then the blocks are assigned one by one. -/
def NamedBlocks.assign (fresh : Strided α) (v other : NamedBlocks α) : NamedBlocks α :=
  let n := other.blocks.length
  let resized := v.blocks.take n ++ List.replicate (n - v.blocks.length) ⟨"(unnamed)", fresh⟩
  ⟨max v.capacity n, List.zipWith assignBlock resized other.blocks⟩

/-- BlockTensor.hpp 256–311: a call that adds a block. -/
inductive BlockAdd (α : Type)
  | push (x : NamedBlock α)
  | insert (pos : Int) (x : NamedBlock α)

/-- BlockTensor.hpp 256–311: one call. -/
def NamedBlocks.add (v : NamedBlocks α) : BlockAdd α → Outcome (NamedBlocks α)
  | .push x => v.push x
  | .insert pos x => v.insert pos x

/-- BlockTensor.hpp 256–311: the calls one after the other. -/
def NamedBlocks.run (v : NamedBlocks α) (ops : List (BlockAdd α)) : Outcome (NamedBlocks α) := ops.foldlM NamedBlocks.add v

end Einsums.Model
