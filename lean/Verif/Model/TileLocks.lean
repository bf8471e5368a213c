import Verif.Model.TileAlgebra
import Verif.Model.TiledLinAlg
/-
Model of the locks in the parallel loops over tiles: TileAlgebra.hpp 56–88 (`einsum` of tiled tensors),
linear_algebra_imp/TiledLinearAlgebra.hpp 306–321 (`direct_product`), utility/TensorBases.hpp 161–199 (`lock`, `unlock`).

Here an iteration is not one step.  It is a thread that takes the lock of `C`, looks for its tile, creates it if it was not
there, releases the lock, takes the lock of the tile, changes the tile in as many steps as it likes, and releases the lock of the tile.  The steps of
different iterations interleave in any way that the locks allow.  An OpenMP thread runs its iterations one after the other, so
that its interleavings are among these; the mutexes are recursive, which only matters to a thread that already holds one, and
none does.  References to tiles stay valid because `_tiles` is a `std::unordered_map`.
Simplifications: one step of the list `micro` is atomic; the machine is sequentially consistent.
-/
namespace Einsums.Model

/-- TileAlgebra.hpp 56–88: What the iterations of a loop over tiles do.  `enter s` is the part of iteration `s` before the
locks: the number of its tile of `C`, or nothing if the iteration ends with `continue`; of `C` it reads only the sizes, which
never change.  `micro s` is the work on the tile: steps that read and write the tile and variables of the iteration, which start
as `init`.  `useLock` says whether the lock of the tile is taken (it is in `einsum`, not in `direct_product`). -/
structure TileLoop (R σ : Type) where
  enter : Nat → Outcome (Option (List Nat))
  micro : Nat → List (σ × Strided R → Outcome (σ × Strided R))
  init : σ
  useLock : Bool

/-- TileAlgebra.hpp 57–88: where an iteration is: before line 81; after `C->lock()`; between the test and the
creation inside `tile` (TiledTensor.hpp 258–264); with the reference to its tile; after `C->unlock()`; at work on the tile, with its variables and the steps still to do; at its end. -/
inductive TilePc (R σ : Type)
  | start
  | inC (idx : List Nat)
  | looked (k : List Nat) (found : Bool)
  | hasRef (k : List Nat)
  | outC (k : List Nat)
  | inTile (k : List Nat) (v : σ) (todo : List (σ × Strided R → Outcome (σ × Strided R)))
  | done

/-- TileAlgebra.hpp 57–88 and TensorBases.hpp 168: the tensor `C`, who holds its lock, who holds the lock of each tile, and
where each iteration is. -/
structure TileState (R σ : Type) where
  tensor : Tiled R
  lockC : Option Nat
  lockTile : List Nat → Option Nat
  pc : Nat → TilePc R σ

section
variable {R σ : Type} [Zero R]

/-- TileAlgebra.hpp 57: the state at the start of the parallel loop. -/
def TileState.init (C : Tiled R) : TileState R σ := ⟨C, none, fun _ => none, fun _ => .start⟩

/-- TileAlgebra.hpp 57–88: iteration `s` proceeds to `p`. -/
def TileState.goto (st : TileState R σ) (s : Nat) (p : TilePc R σ) : TileState R σ :=
  { st with pc := fun x => if x = s then p else st.pc x }

/-- TileAlgebra.hpp 84, 87: the lock of tile `k` is taken (`some s`) or released (`none`). -/
def TileState.setTileLock (st : TileState R σ) (k : List Nat) (o : Option Nat) : TileState R σ :=
  { st with lockTile := fun x => if x = k then o else st.lockTile x }

/-- TileAlgebra.hpp 57–88 and TiledTensor.hpp 247–268: iteration `s` makes one step if it can; an iteration that waits for a
lock or has ended does not. -/
def tileStep (loop : TileLoop R σ) (st : TileState R σ) (s : Nat) : Outcome (TileState R σ) :=
  match st.pc s with
  | .start => do
      let key ← loop.enter s
      match key with
      | none => return st.goto s .done
      | some idx => if st.lockC.isSome then return st else return { st with lockC := some s }.goto s (.inC idx)
  | .inC idx => do
      let k ← st.tensor.tileCoords (toIdx idx)
      return st.goto s (.looked k (st.tensor.hasTile (toIdx k)))
  | .looked k found => return { st with tensor := if found then st.tensor else st.tensor.addTile k }.goto s (.hasRef k)
  | .hasRef k => return { st with lockC := none }.goto s (.outC k)
  | .outC k =>
      if loop.useLock then
        if (st.lockTile k).isSome then return st
        else return (st.setTileLock k (some s)).goto s (.inTile k loop.init (loop.micro s))
      else return st.goto s (.inTile k loop.init (loop.micro s))
  | .inTile k v (f :: todo) => do
      let t ← st.tensor.at k
      let (v, t) ← f (v, t)
      return { st with tensor := st.tensor.setTile k t }.goto s (.inTile k v todo)
  | .inTile k _ [] =>
      if loop.useLock then return (st.setTileLock k none).goto s .done else return st.goto s .done
  | .done => return st

/-- TileAlgebra.hpp 57–88: the loop when the iterations get their turns in the order `sch`. -/
def tileRun (loop : TileLoop R σ) (sch : List Nat) (st : TileState R σ) : Outcome (TileState R σ) :=
  sch.foldlM (tileStep loop) st

/-- TileAlgebra.hpp 57–88: one iteration without interruption. -/
def tileWhole (loop : TileLoop R σ) (C : Tiled R) (s : Nat) : Outcome (Tiled R) := do
  let key ← loop.enter s
  match key with
  | none => return C
  | some idx => do
      let (C, k) ← C.tile (toIdx idx)
      let t ← C.at k
      let p ← (loop.micro s).foldlM (fun p f => f p) (loop.init, t)
      return C.setTile k p.2

end

section
variable {L : Type} [DecidableEq L]
variable {R : Type} [Add R] [Mul R] [Zero R] [One R] [BEq R] [Div R]

/-- TileAlgebra.hpp 57–79: what an iteration of `einsum` does before the locks. -/
def tiledEinsumEnter (us : List L) (grid : List Nat) (Cl : List L) (C : Tiled R) (Al : List L) (A : Tiled R) (Bl : List L)
    (B : Tiled R) (sentinel : Nat) : Outcome (Option (List Nat)) := do
  let kA ← tileOfSentinel us grid Al sentinel
  let kB ← tileOfSentinel us grid Bl sentinel
  let kC ← tileOfSentinel us grid Cl sentinel
  if !A.hasTileContainer (toIdx kA) || !B.hasTileContainer (toIdx kB) || A.hasZeroSize kA || B.hasZeroSize kB
      || C.hasZeroSize kC then return none
  else return some kC

/-- TileAlgebra.hpp 85–86: what an iteration of `einsum` does to its tile `t` of `C`. -/
def tiledEinsumUpdate (og check : Bool) (us : List L) (grid : List Nat) (Cl : List L) (ab : R) (Al : List L) (A : Tiled R)
    (Bl : List L) (B : Tiled R) (sentinel : Nat) (t : Strided R) : Outcome (Strided R) := do
  let kA ← tileOfSentinel us grid Al sentinel
  let kB ← tileOfSentinel us grid Bl sentinel
  let a ← A.tileConst (toIdx kA)
  let b ← B.tileConst (toIdx kB)
  einsum og check 1 Cl (tensorOperand t) ab Al (tensorOperand a) Bl (tensorOperand b)

/-- TileAlgebra.hpp 56–88: the parallel loop of `einsum` on tiled tensors, `micro` being the steps of lines 85–86. -/
def tiledEinsumThreads {σ : Type} (Cl : List L) (C : Tiled R) (Al : List L) (A : Tiled R) (Bl : List L) (B : Tiled R)
    (micro : Nat → List (σ × Strided R → Outcome (σ × Strided R))) (init : σ) : TileLoop R σ :=
  { enter := tiledEinsumEnter (uniqueLabels Cl Al Bl) (gridRanges Cl C.grid Al A.grid Bl B.grid) Cl C Al A Bl B
    micro := micro
    init := init
    useLock := true }

/-- TiledLinearAlgebra.hpp 306–315: what an iteration of `direct_product` does before the lock. -/
def tiledDirectEnter (A B : Tiled R) (sentinel : Nat) : Outcome (Option (List Nat)) :=
  let k := gridIndex (A.sizes.map List.length) sentinel
  .ok (if A.hasTileContainer (toIdx k) && B.hasTileContainer (toIdx k) && !A.hasZeroSize k && !B.hasZeroSize k then some k
    else none)

/-- TiledLinearAlgebra.hpp 319: what an iteration of `direct_product` does to its tile `t` of `C`. -/
def tiledDirectUpdate (alpha : R) (A B : Tiled R) (beta : R) (sentinel : Nat) (t : Strided R) : Outcome (Strided R) := do
  let a ← A.tileConst (toIdx (gridIndex (A.sizes.map List.length) sentinel))
  let b ← B.tileConst (toIdx (gridIndex (A.sizes.map List.length) sentinel))
  directProduct alpha a b beta t

/-- TiledLinearAlgebra.hpp 304–321: the parallel loop of `direct_product`; no lock is held at line 319. -/
def tiledDirectThreads {σ : Type} (A B : Tiled R) (micro : Nat → List (σ × Strided R → Outcome (σ × Strided R)))
    (init : σ) : TileLoop R σ :=
  { enter := tiledDirectEnter A B
    micro := micro
    init := init
    useLock := false }

end
end Einsums.Model
