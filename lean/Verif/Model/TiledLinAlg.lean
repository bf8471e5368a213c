import Verif.Model.Tiled
import Verif.Model.TrueDot
/-
Model of src/include/einsums/linear_algebra_imp/TiledLinearAlgebra.hpp on core tiled tensors.

The iterations of a parallel loop are taken in an arbitrary order `sched`; each works on its own tile of
the output and creates it under the lock (references into an unordered_map survive insertions), so an
interleaving of iterations is not distinguished from running them one after the other.
Not modelled: `gemv` with tiled vectors and `ger`, which do not compile when instantiated
(`tile_sizes(0)` takes no argument; `X.tile[i]` indexes a member function).
-/
namespace Einsums.Model

section
variable {R : Type}

/-- TiledTensor.hpp 779: `tile_size(d)`; `grid_size(d)` (816) is its length. -/
def Tiled.tileSize (T : Tiled R) (d : Nat) : List Nat := T.sizes.getD d []

/-- TiledTensor.hpp 104–108, 126–130, 811: `grid_size()`. -/
def Tiled.gridSize (T : Tiled R) : Nat := (T.sizes.map List.length).foldl (· * ·) 1

/-- TiledLinearAlgebra.hpp 130–169: Position of tile `(i, k)` of `op(M)`. -/
def opTile (trans : Bool) (i k : Nat) : List Nat := if trans then [k, i] else [i, k]

variable [Add R] [Mul R] [Zero R] [One R] [BEq R]

/-- TiledLinearAlgebra.hpp 130–137, 154–169: does term `k` contribute to tile `(i, j)`? -/
def gemmActive (ta tb : Bool) (A B : Tiled R) (i j k : Nat) : Bool :=
  A.hasTile (toIdx (opTile ta i k)) && B.hasTile (toIdx (opTile tb k j)) &&
    !A.hasZeroSize (opTile ta i k) && !B.hasZeroSize (opTile tb k j)

/-- TiledLinearAlgebra.hpp 146–150: the tile of the output before the products are added. -/
def scaleTile (beta : R) (created : Bool) (t : Strided R) : Strided R :=
  if beta == 0 || created then t.zero else { t with data := t.data.map (· * beta) }

/-- TiledLinearAlgebra.hpp 152–171: the products added to one tile. -/
def gemmTile (ta tb : Bool) (alpha : R) (A B : Tiled R) (z i j : Nat) (t : Strided R) : Outcome (Strided R) :=
  (List.range z).foldlM (fun t k =>
    if gemmActive ta tb A B i j k then do
      let a ← A.tileConst (toIdx (opTile ta i k))
      let b ← B.tileConst (toIdx (opTile tb k j))
      gemm ta tb alpha a b 1 t
    else .ok t) t

/-- TiledLinearAlgebra.hpp 122–183: iteration `(i, j)`. -/
def tiledGemmStep (ta tb : Bool) (alpha : R) (A B : Tiled R) (beta : R) (z : Nat) (C : Tiled R) (p : Nat × Nat) :
    Outcome (Tiled R) :=
  if C.hasZeroSize [p.1, p.2] then .ok C
  else if (List.range z).any (gemmActive ta tb A B p.1 p.2) then do
    let created := !C.hasTile (toIdx [p.1, p.2])
    let (C, k) ← C.tile (toIdx [p.1, p.2])
    let t ← C.at k
    let t ← gemmTile ta tb alpha A B z p.1 p.2 (scaleTile beta created t)
    return C.setTile k t
  else if C.hasTile (toIdx [p.1, p.2]) && !C.hasZeroSize [p.1, p.2] then do
    let t ← C.at [p.1, p.2]
    return C.setTile [p.1, p.2] (scaleTile beta false t)
  else .ok C

/-- TiledLinearAlgebra.hpp 94–185: `gemm<TransA, TransB>(alpha, A, B, beta, &C)` for tiled matrices.  The
three loops comparing tile sizes element by element (after the lengths) are list comparisons here. -/
def tiledGemm (ta tb : Bool) (alpha : R) (A B : Tiled R) (beta : R) (C : Tiled R) (sched : List (Nat × Nat)) :
    Outcome (Tiled R) :=
  let sA0 := A.tileSize (if ta then 1 else 0)
  let sA1 := A.tileSize (if ta then 0 else 1)
  let sB0 := B.tileSize (if tb then 1 else 0)
  let sB1 := B.tileSize (if tb then 0 else 1)
  if (C.tileSize 0).length ≠ sA0.length ∨ (C.tileSize 1).length ≠ sB1.length then
    .error "Output tensor needs to have a compatible tile grid with the inputs."
  else if sA1.length ≠ sB0.length then .error "Input tensors need to have compatible tile grids."
  else if C.tileSize 0 ≠ sA0 then .error "Tile sizes need to match between all three tensors."
  else if C.tileSize 1 ≠ sB1 then .error "Tile sizes need to match between all three tensors."
  else if sA1 ≠ sB0 then .error "Tile sizes need to match between all three tensors."
  else sched.foldlM (tiledGemmStep ta tb alpha A B beta sA1.length) C

/-- TiledLinearAlgebra.hpp 20–28, 58–66: the strides used to decode the tile number:
`strides[Rank - 1 - i] = prod; prod *= grid_size(i)`. -/
def dotStrides : List Nat → Nat → List Nat → List Nat
  | [], _, acc => acc
  | g :: gs, prod, acc => dotStrides gs (prod * g) (prod :: acc)

/-- TiledLinearAlgebra.hpp 71–74: the decoding in `true_dot`, which reduces modulo the grid size. -/
def trueDotIndex : List Nat → List Nat → Nat → List Nat
  | s :: ss, g :: gs, temp => (temp / s) :: trueDotIndex ss gs (temp % g)
  | _, _, _ => []

/-- TiledLinearAlgebra.hpp 40–44: the contribution of one tile position.  Tiles are `Tensor`s, so
`dot` takes the path for full views (or vectors). -/
def dotTile (A B : Tiled R) (k : List Nat) : Outcome R :=
  if !A.hasTileContainer (toIdx k) || !B.hasTileContainer (toIdx k) || A.hasZeroSize k || B.hasZeroSize k then .ok 0
  else do
    let a ← A.tileConst (toIdx k)
    let b ← B.tileConst (toIdx k)
    if a.dims.length = 1 then dotVec a b else dotFull a b

/-- TiledLinearAlgebra.hpp 12–48: `dot(A, B)` of tiled tensors, the reduction in the order `sched`. -/
def tiledDot (A B : Tiled R) (sched : List Nat) : Outcome R :=
  if A.sizes.map List.length ≠ B.sizes.map List.length then .error "Tiled tensors have incompatible tiles."
  else
    let st := dotStrides (A.sizes.map List.length) 1 []
    sumLoop (fun index => dotTile A B (sentinelToIndices index st)) sched 0

/-- TiledLinearAlgebra.hpp 78–81: the contribution of one tile position to `true_dot`. -/
def trueDotTile (conj : R → R) (A B : Tiled R) (k : List Nat) : Outcome R :=
  if !A.hasTileContainer (toIdx k) || !B.hasTileContainer (toIdx k) || A.hasZeroSize k || B.hasZeroSize k then .ok 0
  else do
    let a ← A.tileConst (toIdx k)
    let b ← B.tileConst (toIdx k)
    if a.dims.length = 1 then trueDotVec conj a b else trueDotFull conj a b

/-- TiledLinearAlgebra.hpp 50–86: `true_dot(A, B)` of tiled tensors. -/
def tiledTrueDot (conj : R → R) (A B : Tiled R) (sched : List Nat) : Outcome R :=
  if A.sizes.map List.length ≠ B.sizes.map List.length then .error "Tiled tensors have incompatible tiles."
  else
    let st := dotStrides (A.sizes.map List.length) 1 []
    sumLoop (fun index => trueDotTile conj A B (trueDotIndex st (A.sizes.map List.length) index)) sched 0

/-- TiledLinearAlgebra.hpp 306–321: one iteration of `direct_product`. -/
def tiledDirectStep (alpha : R) (A B : Tiled R) (beta : R) (C : Tiled R) (sentinel : Nat) : Outcome (Tiled R) :=
  let k := gridIndex (A.sizes.map List.length) sentinel
  if A.hasTileContainer (toIdx k) && B.hasTileContainer (toIdx k) && !A.hasZeroSize k && !B.hasZeroSize k then do
    let (C, k) ← C.tile (toIdx k)
    let a ← A.tileConst (toIdx k)
    let b ← B.tileConst (toIdx k)
    let t ← C.at k
    let t ← directProduct alpha a b beta t
    return C.setTile k t
  else .ok C

/-- TiledLinearAlgebra.hpp 300–322: `direct_product(alpha, A, B, beta, &C)` for tiled tensors. -/
def tiledDirectProduct (alpha : R) (A B : Tiled R) (beta : R) (C : Tiled R) (sched : List Nat) : Outcome (Tiled R) :=
  sched.foldlM (tiledDirectStep alpha A B beta) C

/-- TiledLinearAlgebra.hpp 252–295: `M.tile_offset(d)[i]` and `+ M.tile_size(d)[i]`. -/
def Tiled.range (A : Tiled R) (d i : Nat) : Int × Int :=
  (((A.offsets.getD d []).getD i 0 : Nat), ((A.offsets.getD d []).getD i 0 + (A.tileSize d).getD i 0 : Nat))

/-- TiledLinearAlgebra.hpp 266–295: the products added to one segment of the output. -/
def gemvSegment (trans : Bool) (alpha : R) (A : Tiled R) (z : Strided R) (i : Nat) (v : Strided R) :
    Outcome (Strided R) :=
  (List.range (A.tileSize (if trans then 0 else 1)).length).foldlM (fun v j =>
    if !A.hasTile (toIdx (opTile trans i j)) || A.hasZeroSize (opTile trans i j) then .ok v
    else do
      let a ← A.tileConst (toIdx (opTile trans i j))
      let zj ← z.ranges [A.range (if trans then 0 else 1) j]
      gemv trans alpha a zj 1 v) v

/-- TiledLinearAlgebra.hpp 224–296: iteration `i`: the segment of `y` is a view, so the products land in `y`. -/
def tiledGemvStep (trans : Bool) (alpha : R) (A : Tiled R) (z : Strided R) (y : Strided R) (i : Nat) :
    Outcome (Strided R) :=
  if (A.tileSize (if trans then 1 else 0)).getD i 0 = 0 then .ok y
  else do
    let v ← y.ranges [A.range (if trans then 1 else 0) i]
    let v ← gemvSegment trans alpha A z i v
    return { y with data := v.data }

/-- TiledLinearAlgebra.hpp 187–298: `gemv<TransA>(alpha, A, z, beta, &y)` with a tiled matrix and dense
vectors (`y` a `Tensor`: `zero()` is called on it). -/
def tiledGemv (trans : Bool) (alpha : R) (A : Tiled R) (z : Strided R) (beta : R) (y : Strided R)
    (sched : List Nat) : Outcome (Strided R) :=
  let y := if beta == 0 then y.zero else { y with data := y.data.map (· * beta) }
  sched.foldlM (tiledGemvStep trans alpha A z) y

end
end Einsums.Model
