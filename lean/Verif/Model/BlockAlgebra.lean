import Verif.Model.TileAlgebra
/-
Model of src/include/einsums/tensor_algebra_backends/BlockAlgebra.hpp and BlockTileAlgebra.hpp: `einsum` when operands
are block tensors, and when they are a mixture of block and tiled tensors; with the entry of Dispatch.hpp and
`direct_product` of linear_algebra_imp/BlockTiledLinearAlgebra.hpp.  The other functions of that file (`dot`, `true_dot`,
`gemm`) do not compile when instantiated (`has_block`, `block_dims`, `grid_size` and `num_blocks` are not members).

The iterations of the parallel loops are taken in an arbitrary order `sched`; in BlockAlgebra.hpp different iterations use
different blocks of `C`, in BlockTileAlgebra.hpp each holds the lock of its block or tile while it updates it.  Not
modelled because they do not compile when instantiated: the overloads with a dense `C` (44–76, 203–228 and 329–353 take
the address of the temporary view returned by `std::apply`).  Not modelled: the `__HIP__` branches.  Simplifications as
in TileAlgebra.lean.
-/
namespace Einsums.Model

section
variable {L : Type} [DecidableEq L] {R : Type} [Add R] [Mul R] [Zero R] [One R] [BEq R] [Div R]

/-- BlockAlgebra.hpp 106–115, 179–188 and 305–314: the check of two block tensors; `A.block_dim(i)` is the
dimension of axis 0 of block `i`. -/
def blocksDiffer (A B : Block R) : Outcome Unit :=
  if A.blocks.length ≠ B.blocks.length then .error "Block tensors need to have the same number of blocks."
  else if (A.blocks.zip B.blocks).any fun p => p.1.dim 0 ≠ p.2.dim 0 then
    .error "Block tensors need to have the same block sizes."
  else .ok ()

/-- BlockAlgebra.hpp 26–35: the check of three block tensors: first the numbers of blocks, then their sizes. -/
def blocksDiffer3 (A B C : Block R) : Outcome Unit :=
  if A.blocks.length ≠ B.blocks.length ∨ A.blocks.length ≠ C.blocks.length then
    .error "Block tensors need to have the same number of blocks."
  else if (A.blocks.zip (B.blocks.zip C.blocks)).any fun p => p.1.dim 0 ≠ p.2.1.dim 0 || p.1.dim 0 ≠ p.2.2.dim 0 then
    .error "Block tensors need to have the same block sizes."
  else .ok ()

/-- BlockAlgebra.hpp 39–41: one iteration. -/
def blockEinsumStep (og check : Bool) (cp : R) (Cl : List L) (ab : R) (Al : List L) (A : Block R) (Bl : List L) (B : Block R)
    (C : Block R) (i : Nat) : Outcome (Block R) := do
  let c ← C.at i
  let a ← A.at i
  let b ← B.at i
  let c ← einsum og check cp Cl (tensorOperand c) ab Al (tensorOperand a) Bl (tensorOperand b)
  return { C with blocks := C.blocks.set i c }

/-- BlockAlgebra.hpp 16–42: `einsum_special_dispatch` for three block tensors; `requires` a label common to `A` and `B`. -/
def blockEinsum (og check : Bool) (cp : R) (Cl : List L) (C : Block R) (ab : R) (Al : List L) (A : Block R) (Bl : List L)
    (B : Block R) (sched : List Nat) : Outcome (Block R) :=
  if intersect Al Bl = [] then .error "does not compile"
  else do
    blocksDiffer3 A B C
    sched.foldlM (blockEinsumStep og check cp Cl ab Al A Bl B) C

/-- BlockAlgebra.hpp 148–158: the contribution of one iteration to the scalar; `c` is the already scaled `*C`. -/
def blockScalarTerm (check : Bool) (c ab : R) (Al : List L) (A : Block R) (Bl : List L) (B : Block R) (i : Nat) : Outcome R := do
  let a ← A.at i
  if a.dim 0 = 0 then return 0
  else do
    let b ← B.at i
    einsumScalar check 0 c ab Al (tensorOperand a) Bl (tensorOperand b)

/-- BlockAlgebra.hpp 95–166: `einsum_special_dispatch` for two block tensors and a scalar `C`.  The reduction variable starts
as the scaled `*C`, and is added to it. -/
def blockEinsumScalar (check : Bool) (cp c ab : R) (Al : List L) (A : Block R) (Bl : List L) (B : Block R)
    (sched : List Nat) : Outcome R := do
  blocksDiffer A B
  let c := if cp == 0 then 0 else c * cp
  let temp ← sumLoop (blockScalarTerm check c ab Al A Bl B) sched c
  return c + temp

/-- BlockTensor.hpp 729–744: `dims()` as the check of Dispatch.hpp 153–209 sees them. -/
def Block.allDims (T : Block R) : List Nat := List.replicate T.rank T.dim

/-- Dispatch.hpp 40–507 for three block tensors: the element-wise product (226–232) or `einsum_special_dispatch`. -/
def einsumBlock (og check : Bool) (cp : R) (Cl : List L) (C : Block R) (ab : R) (Al : List L) (A : Block R) (Bl : List L)
    (B : Block R) (sched : List Nat) : Outcome (Block R) :=
  if labelsOk (unique Cl) (linkUnique Al Bl Cl) Al Bl = false then .error "static_assert"
  else if check && runtimeAbort Al Bl Cl A.allDims B.allDims C.allDims then .error "Inconsistent dimensions found!"
  else if isElementWise Al Bl Cl then blockDirect ab A B cp C sched
  else blockEinsum og check cp Cl C ab Al A Bl B sched

/-- Dispatch.hpp 40–507 for two block tensors and a scalar `C`: `dot` (217–223; `sA`, `sB` order the copies it makes when
the blocks differ) or `einsum_special_dispatch`. -/
def einsumBlockScalar (check : Bool) (cp c ab : R) (Al : List L) (A : Block R) (Bl : List L) (B : Block R)
    (sA sB sched : List Nat) : Outcome R :=
  if labelsOk [] (linkUnique Al Bl []) Al Bl = false then .error "static_assert"
  else if check && runtimeAbort Al Bl [] A.allDims B.allDims [] then .error "Inconsistent dimensions found!"
  else if isDotProduct Al Bl [] then blockDot A B sA sB sched >>= fun temp => .ok (c * cp + ab * temp)
  else blockEinsumScalar check cp c ab Al A Bl B sched

/-! ### A vector and a block tensor -/

/-- BlockAlgebra.hpp 196–198 (and 220–225, 282–285, 322–325, 407–411): the part of the vector that belongs to block `i`:
`A(Range)`, a `TensorView` which is not marked as a full view (Tensor.hpp 630–650, 1437). -/
def vecPart (V : Strided R) (B : Block R) (i : Nat) : Outcome (Operand R) :=
  match B.ranges[i]? with
  | none => .error "out_of_range"
  | some r => V.ranges [r] >>= fun v => .ok ⟨v, true, false⟩

/-- BlockAlgebra.hpp 192–200 and 318–326: one iteration; `first`: the vector is the operand `A`. -/
def vecBlockStep (og check first : Bool) (cp : R) (Cl : List L) (ab : R) (x : L) (V : Strided R) (Bl : List L) (B : Block R)
    (C : Block R) (i : Nat) : Outcome (Block R) := do
  let b ← B.at i
  if b.dim 0 = 0 then return C
  else do
    let v ← vecPart V B i
    let c ← C.at i
    let c ← if first then einsum og check cp Cl (tensorOperand c) ab [x] v Bl (tensorOperand b)
      else einsum og check cp Cl (tensorOperand c) ab Bl (tensorOperand b) [x] v
    return { C with blocks := C.blocks.set i c }

/-- BlockAlgebra.hpp 171–201 and 296–327: `einsum_special_dispatch` for a vector and a block tensor, `C` a block tensor. -/
def vecBlockEinsum (og check first : Bool) (cp : R) (Cl : List L) (C : Block R) (ab : R) (x : L) (V : Strided R) (Bl : List L)
    (B : Block R) (sched : List Nat) : Outcome (Block R) := do
  blocksDiffer B C
  sched.foldlM (vecBlockStep og check first cp Cl ab x V Bl B) C

/-- Dispatch.hpp 40–507 for a vector (a `Tensor` of rank 1) and a block tensor.  For the element-wise pattern there is no
`direct_product` of such operands. -/
def einsumVecBlock (og check first : Bool) (cp : R) (Cl : List L) (C : Block R) (ab : R) (x : L) (V : Strided R) (Bl : List L)
    (B : Block R) (sched : List Nat) : Outcome (Block R) :=
  let Al' := if first then [x] else Bl
  let Bl' := if first then Bl else [x]
  let dA := if first then V.dims else B.allDims
  let dB := if first then B.allDims else V.dims
  if labelsOk (unique Cl) (linkUnique Al' Bl' Cl) Al' Bl' = false then .error "static_assert"
  else if check && runtimeAbort Al' Bl' Cl dA dB C.allDims then .error "Inconsistent dimensions found!"
  else if isElementWise Al' Bl' Cl then .error "does not compile"
  else vecBlockEinsum og check first cp Cl C ab x V Bl B sched

/-- BlockAlgebra.hpp 277–286 and 402–412: the contribution of one iteration to the scalar. -/
def vecBlockScalarTerm (check first : Bool) (c ab : R) (x : L) (V : Strided R) (Bl : List L) (B : Block R) (i : Nat) :
    Outcome R := do
  let b ← B.at i
  if b.dim 0 = 0 then return 0
  else do
    let v ← vecPart V B i
    if first then einsumScalar check 0 c ab [x] v Bl (tensorOperand b)
    else einsumScalar check 0 c ab Bl (tensorOperand b) [x] v

/-- BlockAlgebra.hpp 229–294 and 355–420: `einsum_special_dispatch` for a vector and a block tensor, `C` a scalar. -/
def vecBlockEinsumScalar (check first : Bool) (cp c ab : R) (x : L) (V : Strided R) (Bl : List L) (B : Block R)
    (sched : List Nat) : Outcome R := do
  let c := if cp == 0 then 0 else c * cp
  let temp ← sumLoop (vecBlockScalarTerm check first c ab x V Bl B) sched c
  return c + temp

/-- Dispatch.hpp 40–507 for a vector and a block tensor with a scalar `C`; there is no `dot` of such operands. -/
def einsumVecBlockScalar (check first : Bool) (cp c ab : R) (x : L) (V : Strided R) (Bl : List L) (B : Block R)
    (sched : List Nat) : Outcome R :=
  let Al' := if first then [x] else Bl
  let Bl' := if first then Bl else [x]
  let dA := if first then V.dims else B.allDims
  let dB := if first then B.allDims else V.dims
  if labelsOk [] (linkUnique Al' Bl' []) Al' Bl' = false then .error "static_assert"
  else if check && runtimeAbort Al' Bl' [] dA dB [] then .error "Inconsistent dimensions found!"
  else if isDotProduct Al' Bl' [] then .error "does not compile"
  else vecBlockEinsumScalar check first cp c ab x V Bl B sched

/-! ### Block and tiled tensors together -/

/-- BlockTileAlgebra.hpp 14–20: an operand is a block tensor or a tiled tensor. -/
inductive GridTensor (R : Type) where
  | block (T : Block R)
  | tiled (T : Tiled R)
  deriving DecidableEq

/-- _TensorAlgebraUtilities.hpp 328–441: `num_blocks()` or `grid_size(i)` for each axis. -/
def GridTensor.grid : GridTensor R → List Nat
  | .block T => List.replicate T.rank T.blocks.length
  | .tiled T => T.grid

/-- BlockTensor.hpp 729–744 and TiledTensor.hpp 816: the dimensions, for the check of Dispatch.hpp 153–209. -/
def GridTensor.dims : GridTensor R → List Nat
  | .block T => T.allDims
  | .tiled T => T.dims

/-- BlockTileAlgebra.hpp 69–106: the iterations an operand skips: not a block on the diagonal. -/
def GridTensor.offDiagonal (X : GridTensor R) (k : List Nat) : Bool :=
  match X with
  | .block _ => k.any fun x => x != k.headD 0
  | .tiled _ => false

/-- BlockTileAlgebra.hpp 108–126, and the operands in 137–160: the block or tile of `A` or `B`; `none` if the iteration is
skipped.  `block_dim` of a block that does not exist throws. -/
def GridTensor.source (X : GridTensor R) (k : List Nat) : Outcome (Option (Strided R)) :=
  match X with
  | .block T => do
      let t ← T.at (k.headD 0)
      return if t.dim 0 = 0 then none else some t
  | .tiled T =>
      if !T.hasTileContainer (toIdx k) || T.hasZeroSize k then .ok none
      else T.tileConst (toIdx k) >>= fun t => .ok (some t)

/-- BlockTileAlgebra.hpp 47–55: `C` before the loop.  The condition of line 48 never holds: a tiled tensor view is not a
`TensorView`, so `zero()` drops the tiles. -/
def GridTensor.prescale (C : GridTensor R) (cp : R) : GridTensor R :=
  match C with
  | .block T => .block (if cp == 0 then T.setAll 0 else T.compoundScalar (· * ·) cp)
  | .tiled T => .tiled (if cp == 0 then T.zero else T.mulScalar cp)

/-- BlockTileAlgebra.hpp 136–143: with a block tensor `C` one of the operands must be a block tensor, otherwise neither
branch is compiled. -/
def GridTensor.isBlock : GridTensor R → Bool
  | .block _ => true
  | .tiled _ => false

/-- BlockTileAlgebra.hpp 57–163: one iteration. -/
def mixedEinsumStep (og check : Bool) (us : List L) (grid : List Nat) (Cl : List L) (ab : R) (Al : List L) (A : GridTensor R)
    (Bl : List L) (B : GridTensor R) (C : GridTensor R) (sentinel : Nat) : Outcome (GridTensor R) := do
  let kA ← tileOfSentinel us grid Al sentinel
  if A.offDiagonal kA then return C
  else do
  let kB ← tileOfSentinel us grid Bl sentinel
  if B.offDiagonal kB then return C
  else do
  let kC ← tileOfSentinel us grid Cl sentinel
  if C.offDiagonal kC then return C
  else do
  match ← A.source kA with
  | none => return C
  | some a =>
    match ← B.source kB with
    | none => return C
    | some b =>
      match C with
      | .block T => do
          let t ← T.at (kC.headD 0)
          if t.dim 0 = 0 then return .block T
          else if A.isBlock || B.isBlock then do
            let t ← einsum og check 1 Cl (tensorOperand t) ab Al (tensorOperand a) Bl (tensorOperand b)
            return .block { T with blocks := T.blocks.set (kC.headD 0) t }
          else return .block T
      | .tiled T =>
          if T.hasZeroSize kC then return .tiled T
          else do
            let (T, k) ← T.tile (toIdx kC)
            let t ← T.at k
            let t ← einsum og check 1 Cl (tensorOperand t) ab Al (tensorOperand a) Bl (tensorOperand b)
            return .tiled (T.setTile k t)

/-- BlockTileAlgebra.hpp 33–57: how many iterations the loop has. -/
def mixedCount (Cl : List L) (C : GridTensor R) (Al : List L) (A : GridTensor R) (Bl : List L) (B : GridTensor R) : Nat :=
  gridCount (gridRanges Cl C.grid Al A.grid Bl B.grid)

/-- BlockTileAlgebra.hpp 12–164: `einsum_special_dispatch` for block and tiled tensors together (not all of one kind). -/
def mixedEinsum (og check : Bool) (cp : R) (Cl : List L) (C : GridTensor R) (ab : R) (Al : List L) (A : GridTensor R)
    (Bl : List L) (B : GridTensor R) (sched : List Nat) : Outcome (GridTensor R) :=
  sched.foldlM (mixedEinsumStep og check (uniqueLabels Cl Al Bl) (gridRanges Cl C.grid Al A.grid Bl B.grid) Cl ab Al A Bl B)
    (C.prescale cp)

/-- BlockTiledLinearAlgebra.hpp 35, 42, 51, 60, 66: the product of a block or tile of `A` and one of `B` goes to block `i` or to
tile `k` of `C`, which is created if it is missing. -/
def mixedDirectInto (alpha : R) (a b : Strided R) (beta : R) (C : GridTensor R) (i : Nat) (k : List Nat) :
    Outcome (GridTensor R) :=
  match C with
  | .block T => do
      let c ← T.at i
      let c ← directProduct alpha a b beta c
      return .block { T with blocks := T.blocks.set i c }
  | .tiled T => do
      let (T, k) ← T.tile (toIdx k)
      let c ← T.at k
      let c ← directProduct alpha a b beta c
      return .tiled (T.setTile k c)

/-- BlockTiledLinearAlgebra.hpp 27–69: one iteration.  `std::array<int, Rank>{i}` is `(i, 0, …, 0)`. -/
def mixedDirectStep (rank : Nat) (alpha : R) (A B : GridTensor R) (beta : R) (C : GridTensor R) (i : Nat) :
    Outcome (GridTensor R) :=
  let k := i :: List.replicate (rank - 1) 0
  match A, B with
  | .tiled A, .block B =>
      if A.hasTileContainer (toIdx k) = false then .ok C
      else do
        let b ← B.at i
        if b.dim 0 = 0 then return C
        else do
          let a ← A.tileConst (toIdx k)
          mixedDirectInto alpha a b beta C i k
  | .block A, .tiled B =>
      if B.hasTileContainer (toIdx k) = false then .ok C
      else do
        let a ← A.at i
        if a.dim 0 = 0 then return C
        else do
          let b ← B.tileConst (toIdx k)
          mixedDirectInto alpha a b beta C i k
  | .block A, .block B => do
      let a ← A.at i
      if a.dim 0 = 0 then return C
      else do
        let b ← B.at i
        mixedDirectInto alpha a b beta C i k
  | .tiled _, .tiled _ => .error "does not compile"

/-- BlockTiledLinearAlgebra.hpp 20–25: how many iterations the loop has. -/
def mixedDirectCount (A B : GridTensor R) : Nat :=
  match A, B with
  | .block A, _ => A.blocks.length
  | _, .block B => B.blocks.length
  | _, _ => 0

/-- BlockTiledLinearAlgebra.hpp 12–71: `direct_product(alpha, A, B, beta, &C)` for block and tiled tensors together. -/
def mixedDirect (rank : Nat) (alpha : R) (A B : GridTensor R) (beta : R) (C : GridTensor R) (sched : List Nat) :
    Outcome (GridTensor R) :=
  match A, B with
  | .tiled _, .tiled _ => .error "does not compile"
  | A, B => sched.foldlM (mixedDirectStep rank alpha A B beta) C

/-- Dispatch.hpp 40–507 for block and tiled tensors together: the element-wise product (226–232) or
`einsum_special_dispatch`. -/
def einsumMixed (og check : Bool) (cp : R) (Cl : List L) (C : GridTensor R) (ab : R) (Al : List L) (A : GridTensor R)
    (Bl : List L) (B : GridTensor R) (sched : List Nat) : Outcome (GridTensor R) :=
  if labelsOk (unique Cl) (linkUnique Al Bl Cl) Al Bl = false then .error "static_assert"
  else if check && runtimeAbort Al Bl Cl A.dims B.dims C.dims then .error "Inconsistent dimensions found!"
  else if isElementWise Al Bl Cl then mixedDirect Cl.length ab A B cp C sched
  else mixedEinsum og check cp Cl C ab Al A Bl B sched

end
end Einsums.Model
