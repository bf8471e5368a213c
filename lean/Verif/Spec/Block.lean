import Mathlib.Data.List.Forall2
import Verif.Model.Block
import Verif.Spec.Tiled
import Verif.Spec.Tensor
/-
Specification of block tensors: a list of blocks on the diagonal, each with its size and its elements.
-/
namespace Einsums
open Spec Model

namespace Spec

/-- Index `x` lies in interval `b` of the axis partitioned by the block sizes. -/
def InInterval (sizes : List Nat) (b x : Nat) : Prop :=
  tileStart sizes b ≤ x ∧ x < tileStart sizes b + sizes.getD b 0

/-- All indices of `j` lie in block `b`. -/
def InBlock (sizes : List Nat) (b : Nat) (j : List Nat) : Prop := ∀ x ∈ j, InInterval sizes b x

instance (sizes : List Nat) (b x : Nat) : Decidable (InInterval sizes b x) := by unfold InInterval; infer_instance
instance (sizes : List Nat) (b : Nat) (j : List Nat) : Decidable (InBlock sizes b j) := by
  unfold InBlock; infer_instance

/-- The blocks in order: size, and elements by multi-index inside the block. -/
abbrev Blocks (R : Type) := List (Nat × (List Nat → R))

def Blocks.sizes {R : Type} (bs : Blocks R) : List Nat := bs.map (·.1)

/-- The block that contains all of the indices, if there is one. -/
def Blocks.find {R : Type} (bs : Blocks R) (j : List Nat) : Option Nat :=
  (List.range bs.length).find? fun b => decide (InBlock bs.sizes b j)

/-- The element at multi-index `j` of the whole tensor: zero outside the blocks. -/
def Blocks.elem {R : Type} [Zero R] (bs : Blocks R) (j : List Nat) : R :=
  match bs.find j with
  | some b => (bs.getD b (0, fun _ => 0)).2 (j.map (· - tileStart bs.sizes b))
  | none => 0

/-- Change one element of one block. -/
def Blocks.update {R : Type} (bs : Blocks R) (b : Nat) (l : List Nat) (v : R) : Blocks R :=
  bs.modify b fun p => (p.1, fun i => if i = l then v else p.2 i)

end Spec

/-- The object holds these blocks, and the bookkeeping fits them. -/
structure Model.Block.Models {R : Type} (T : Block R) (r : Nat) (bs : Blocks R) : Prop where
  rank : T.rank = r
  blocks : List.Forall₂ (fun (t : Strided R) p => t.IsTensor ∧ t.dims = List.replicate r p.1 ∧ t.Represents p.2) T.blocks bs
  dims : T.dims = bs.sizes
  dim : T.dim = bs.sizes.sum
  ranges : T.ranges = (List.range bs.length).map fun b =>
    (((tileStart bs.sizes b : Nat) : Int), ((tileStart bs.sizes b + bs.sizes.getD b 0 : Nat) : Int))

/-- A tensor with the given dimensions and elements. -/
def tensorOf {R : Type} (dims : List Nat) (g : List Nat → R) : Strided R :=
  ⟨(box dims).map g, 0, dims, (dimsToStrides dims).2⟩

/-- Calls on a block tensor. -/
inductive BlockOp (R : Type) where
  /-- `T.push_block(t)`, `t` with these dimensions and elements -/
  | push (dims : List Nat) (g : List Nat → R)
  /-- `T.insert_block(pos, t)` -/
  | insert (pos : Int) (dims : List Nat) (g : List Nat → R)
  /-- `T(i, j, ...) = v` -/
  | set (idx : List Int) (v : R)
  /-- evaluating `T(i, j, ...)` -/
  | touch (idx : List Int)
  /-- `T.block(b)(i, j, ...) = v` -/
  | setInBlock (b : Nat) (idx : List Int) (v : R)
  /-- `T.set_all(v)` (and `T.zero()`) -/
  | setAll (v : R)
  /-- `T OP= v` -/
  | scalar (op : R → R → R) (v : R)

/-- The call in the model. -/
def BlockOp.run {R : Type} [Zero R] (T : Block R) : BlockOp R → Outcome (Block R)
  | .push dims g => T.push (tensorOf dims g)
  | .insert pos dims g => T.insert pos (tensorOf dims g)
  | .set idx v => T.set idx v
  | .touch idx => T.getMut idx >>= fun r => .ok r.1
  | .setInBlock b idx v => T.setInBlock b idx v
  | .setAll v => .ok (T.setAll v)
  | .scalar op v => .ok (T.compoundScalar op v)

/-- A history of calls; the caller catches exceptions and goes on. -/
def runBlock {R : Type} [Zero R] : List (BlockOp R) → Block R → Outcome (Block R)
  | [], T => .ok T
  | op :: ops, T =>
      match op.run T with
      | .ok T' => runBlock ops T'
      | .error _ => runBlock ops T
      | .ub w => .ub w

/-- What the call means for the list of blocks; `none` if the call is outside its contract (a tensor or index of
another rank, an insertion position that does not exist, an index outside the addressed block). -/
def BlockOp.spec {R : Type} (r : Nat) (bs : Blocks R) : BlockOp R → Option (Blocks R)
  | .push dims g =>
      if dims.length ≠ r then none
      else if dims = List.replicate r (dims.headD 0) then some (bs ++ [(dims.headD 0, g)])
      else some bs
  | .insert pos dims g =>
      if dims.length ≠ r then none
      else if dims = List.replicate r (dims.headD 0) then
        if 0 ≤ pos ∧ pos ≤ bs.length then some (bs.take pos.toNat ++ (dims.headD 0, g) :: bs.drop pos.toNat) else none
      else some bs
  | .set idx v =>
      if idx.length ≠ r then none
      else match pyIndices (List.replicate r bs.sizes.sum) idx with
        | none => some bs
        | some j => match bs.find j with
          | none => some bs
          | some b => some (bs.update b (j.map (· - tileStart bs.sizes b)) v)
  | .touch idx => if idx.length ≠ r then none else some bs
  | .setInBlock b idx v =>
      if b < bs.length then
        match pyIndices (List.replicate r (bs.sizes.getD b 0)) idx with
        | none => none
        | some l => some (bs.update b l v)
      else some bs
  | .setAll v => some (bs.map fun p => (p.1, fun _ => v))
  | .scalar op v => some (bs.map fun p => (p.1, fun i => op (p.2 i) v))

/-- A history within the contract, on the list of blocks. -/
def specBlock {R : Type} (r : Nat) : List (BlockOp R) → Blocks R → Option (Blocks R)
  | [], bs => some bs
  | op :: ops, bs => match op.spec r bs with
      | some bs' => specBlock r ops bs'
      | none => none

end Einsums
