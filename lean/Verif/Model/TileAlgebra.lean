import Verif.Model.TiledLinAlg
import Verif.Model.BlockLinAlg
/-
Model of src/include/einsums/tensor_algebra_backends/TileAlgebra.hpp: `einsum` when all operands are tiled tensors
(or `C` is a scalar), and of the entry of Dispatch.hpp that leads there.

The iterations of the parallel loop are taken in an arbitrary order `sched`.  Each iteration holds the lock of its tile of
`C` while it updates it and the lock of `C` while it creates it, so an interleaving of iterations is not distinguished
from running them one after the other.  Simplifications: one element type; the tiles are `Tensor`s of `C`, `A` and `B`
that share no storage; tile numbers are natural numbers (the code stores them as `int`).
-/
namespace Einsums.Model

section
variable {L : Type} [DecidableEq L]

/-- _TensorAlgebraUtilities.hpp 328–441: the grid size of a label in one operand, with `g` the number of tiles along each
axis; the first occurrence of the label counts. -/
def gridSizeIn (l : L) (Xl : List L) (g : List Nat) : Option Nat := (findPosition l 0 Xl).map (g.getD · 0)

/-- _TensorAlgebraUtilities.hpp 328–441: the grid size of a label: from `C` if it has the label, else from `A`, else from
`B`, else 1. -/
def gridRange (Cl : List L) (gC : List Nat) (Al : List L) (gA : List Nat) (Bl : List L) (gB : List Nat) (l : L) : Nat :=
  match gridSizeIn l Cl gC with
  | some n => n
  | none => match gridSizeIn l Al gA with
    | some n => n
    | none => (gridSizeIn l Bl gB).getD 1

/-- TileAlgebra.hpp 31: `unique_indices`. -/
def uniqueLabels (Cl Al Bl : List L) : List L := unique (Cl ++ Al ++ Bl)

/-- TileAlgebra.hpp 32 and _TensorAlgebraUtilities.hpp 443–461: `get_grid_ranges_for_many`. -/
def gridRanges (Cl : List L) (gC : List Nat) (Al : List L) (gA : List Nat) (Bl : List L) (gB : List Nat) : List Nat :=
  (uniqueLabels Cl Al Bl).map (gridRange Cl gC Al gA Bl gB)

/-- TileAlgebra.hpp 65–75: `X_tile_index[i] = unique_index_table[X_index_table[i]]`. -/
def tableIndex (table : List Nat) : List Int → Outcome (List Nat)
  | [] => .ok []
  | p :: ps =>
      if p < 0 then .ub "array index out of range"
      else match table[p.toNat]? with
        | none => .ub "array index out of range"
        | some v => do
            let vs ← tableIndex table ps
            return v :: vs

/-- TileAlgebra.hpp 57 and 130: the bound of the loop, `unique_grid[0] * unique_strides[0]`. -/
def gridCount (grid : List Nat) : Nat := grid.headD 0 * (dimsToStrides grid).2.headD 0

/-- TileAlgebra.hpp 58–75: the tile of operand `X` that iteration `sentinel` uses. -/
def tileOfSentinel (us : List L) (grid : List Nat) (Xl : List L) (sentinel : Nat) : Outcome (List Nat) :=
  tableIndex (sentinelToIndices sentinel (dimsToStrides grid).2) (compileIndexTable us Xl)

variable {R : Type} [Add R] [Mul R] [Zero R] [One R] [BEq R] [Div R]

/-- TiledTensor.hpp 816: the number of tiles along each axis. -/
def Tiled.grid (T : Tiled R) : List Nat := T.sizes.map List.length

/-- TileAlgebra.hpp 57–86: one iteration. -/
def tiledEinsumStep (og check : Bool) (us : List L) (grid : List Nat) (Cl : List L) (ab : R) (Al : List L) (A : Tiled R)
    (Bl : List L) (B : Tiled R) (C : Tiled R) (sentinel : Nat) : Outcome (Tiled R) := do
  let kA ← tileOfSentinel us grid Al sentinel
  let kB ← tileOfSentinel us grid Bl sentinel
  let kC ← tileOfSentinel us grid Cl sentinel
  if !A.hasTileContainer (toIdx kA) || !B.hasTileContainer (toIdx kB) || A.hasZeroSize kA || B.hasZeroSize kB
      || C.hasZeroSize kC then return C
  else do
    let (C, kC) ← C.tile (toIdx kC)
    let a ← A.tileConst (toIdx kA)
    let b ← B.tileConst (toIdx kB)
    let t ← C.at kC
    let t ← einsum og check 1 Cl (tensorOperand t) ab Al (tensorOperand a) Bl (tensorOperand b)
    return C.setTile kC t

/-- TileAlgebra.hpp 47–55: `C` before the loop (`C` is a `TiledTensor`, not a view). -/
def Tiled.prescale (C : Tiled R) (cp : R) : Tiled R := if cp == 0 then C.mapTiles fun _ => 0 else C.mulScalar cp

/-- TileAlgebra.hpp 57: how many iterations the loop has. -/
def tiledEinsumCount (Cl : List L) (C : Tiled R) (Al : List L) (A : Tiled R) (Bl : List L) (B : Tiled R) : Nat :=
  gridCount (gridRanges Cl C.grid Al A.grid Bl B.grid)

/-- TileAlgebra.hpp 13–86: `einsum_special_dispatch` for three tiled tensors. -/
def tiledEinsum (og check : Bool) (cp : R) (Cl : List L) (C : Tiled R) (ab : R) (Al : List L) (A : Tiled R)
    (Bl : List L) (B : Tiled R) (sched : List Nat) : Outcome (Tiled R) :=
  sched.foldlM (tiledEinsumStep og check (uniqueLabels Cl Al Bl) (gridRanges Cl C.grid Al A.grid Bl B.grid) Cl ab Al A Bl B)
    (C.prescale cp)

/-- TileAlgebra.hpp 130–151: the contribution of one iteration to the scalar `out`. -/
def tiledScalarTerm (check : Bool) (us : List L) (grid : List Nat) (ab : R) (Al : List L) (A : Tiled R)
    (Bl : List L) (B : Tiled R) (sentinel : Nat) : Outcome R := do
  let kA ← tileOfSentinel us grid Al sentinel
  let kB ← tileOfSentinel us grid Bl sentinel
  if !A.hasTileContainer (toIdx kA) || !B.hasTileContainer (toIdx kB) || A.hasZeroSize kA || B.hasZeroSize kB then return 0
  else do
    let a ← A.tileConst (toIdx kA)
    let b ← B.tileConst (toIdx kB)
    einsumScalar check 0 0 ab Al (tensorOperand a) Bl (tensorOperand b)

/-- TileAlgebra.hpp 88–153: `einsum_special_dispatch` for two tiled tensors and a scalar `C`. -/
def tiledEinsumScalar (check : Bool) (cp c ab : R) (Al : List L) (A : Tiled R) (Bl : List L) (B : Tiled R)
    (sched : List Nat) : Outcome R := do
  let c := if cp == 0 then 0 else c * cp
  let out ← sumLoop (tiledScalarTerm check (uniqueLabels [] Al Bl) (gridRanges [] [] Al A.grid Bl B.grid) ab Al A Bl B) sched 0
  return c + out

/-- TileAlgebra.hpp 130: how many iterations the loop has. -/
def tiledScalarCount (Al : List L) (A : Tiled R) (Bl : List L) (B : Tiled R) : Nat :=
  gridCount (gridRanges [] [] Al A.grid Bl B.grid)

/-- Dispatch.hpp 40–507 for three tiled tensors: the check of the dimensions, the element-wise product (226–232) or
`einsum_special_dispatch` (490–505).  `sched` orders whichever parallel loop runs. -/
def einsumTiled (og check : Bool) (cp : R) (Cl : List L) (C : Tiled R) (ab : R) (Al : List L) (A : Tiled R) (Bl : List L)
    (B : Tiled R) (sched : List Nat) : Outcome (Tiled R) :=
  if labelsOk (unique Cl) (linkUnique Al Bl Cl) Al Bl = false then .error "static_assert"
  else if check && runtimeAbort Al Bl Cl A.dims B.dims C.dims then .error "Inconsistent dimensions found!"
  else if isElementWise Al Bl Cl then tiledDirectProduct ab A B cp C sched
  else tiledEinsum og check cp Cl C ab Al A Bl B sched

/-- Dispatch.hpp 40–507 for two tiled tensors and a scalar `C`: `dot` (217–223) or `einsum_special_dispatch`. -/
def einsumTiledScalar (check : Bool) (cp c ab : R) (Al : List L) (A : Tiled R) (Bl : List L) (B : Tiled R)
    (sched : List Nat) : Outcome R :=
  if labelsOk [] (linkUnique Al Bl []) Al Bl = false then .error "static_assert"
  else if check && runtimeAbort Al Bl [] A.dims B.dims [] then .error "Inconsistent dimensions found!"
  else if isDotProduct Al Bl [] then tiledDot A B sched >>= fun temp => .ok (c * cp + ab * temp)
  else tiledEinsumScalar check cp c ab Al A Bl B sched

end
end Einsums.Model
