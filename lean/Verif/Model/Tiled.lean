import Verif.Model.Dispatch
/-
Model of `TiledTensorBase`/`TiledTensor` in src/include/einsums/TiledTensor.hpp.

The `std::unordered_map` of tiles is a list of (position, tile) pairs; the order of the list is the
unspecified iteration order of the map, so a statement about every list is about every order.
Simplifications: tile sizes are natural numbers; names and mutexes are dropped; a failed `assert` is
undefined behaviour; `std::out_of_range` thrown inside an OpenMP region (program termination) is an error.
-/
namespace Einsums.Model

/-- TiledTensor.hpp 37–71: the members of `TiledTensorBase`. -/
structure Tiled (R : Type) where
  sizes : List (List Nat)
  offsets : List (List Nat)
  dims : List Nat
  tiles : List (List Nat × Strided R)
  deriving Repr, DecidableEq

/-- TiledTensor.hpp 90–102 and 113–123: one axis: the running sums and the total. -/
def offsetsLoop : List Nat → Nat → List Nat × Nat
  | [], sum => ([], sum)
  | s :: ss, sum =>
      let r := offsetsLoop ss (sum + s)
      (sum :: r.1, r.2)

/-- TiledTensor.hpp 77–131: constructors from the grid. -/
def Tiled.mk' {R : Type} (sizes : List (List Nat)) : Tiled R :=
  { sizes := sizes, offsets := sizes.map fun s => (offsetsLoop s 0).1,
    dims := sizes.map fun s => (offsetsLoop s 0).2, tiles := [] }

/-- TiledTensor.hpp 306–321 and 367–383: one axis of `tile_of`.  The loop stops at the first interval that
contains the index; without one the result stays 0. -/
def tileOfAxis (offs : List Nat) (dim : Nat) (i : Int) : Outcome Nat :=
  let i := if i < 0 then i + dim else i
  if i < 0 ∨ i ≥ dim then .error "Index not in the tensor!"
  else
    match offs.getLast? with
    | none => .error "std::out_of_range"
    | some last =>
      if i ≥ last then .ok (offs.length - 1)
      else
        .ok (((List.range (offs.length - 1)).find? fun j =>
          decide (i < (offs.getD (j + 1) 0 : Int)) && decide (i ≥ (offs.getD j 0 : Int))).getD 0)

/-- TiledTensor.hpp 300–327 and 358–388: `tile_of`. -/
def tileOfAxes : List (List Nat) → List Nat → List Int → Outcome (List Nat)
  | [], [], [] => .ok []
  | offs :: os, d :: ds, i :: is => do
      let t ← tileOfAxis offs d i
      let ts ← tileOfAxes os ds is
      return t :: ts
  | _, _, _ => .error "wrong number of indices"

section
variable {R : Type}

/-- TiledTensor.hpp 300–327 and 358–388: `tile_of` of a tensor. -/
def Tiled.tileOf (T : Tiled R) (idx : List Int) : Outcome (List Nat) := tileOfAxes T.offsets T.dims idx

/-- TiledTensor.hpp 171–180, 203–212: normalised tile coordinates; `assert` of the range. -/
def Tiled.tileCoords (T : Tiled R) (idx : List Int) : Outcome (List Nat) :=
  let n := normIdx (T.sizes.map List.length) idx
  if n.length = T.sizes.length ∧ (n.zip T.sizes).all fun p => decide (0 ≤ p.1) && decide (p.1 < p.2.length) then
    .ok (n.map Int.toNat)
  else .ub "assert"

/-- TiledTensor.hpp 276–292: `has_tile(i, j, ...)`. -/
def Tiled.hasTile (T : Tiled R) (idx : List Int) : Bool :=
  match T.tileCoords idx with
  | .ok k => (T.tiles.lookup k).isSome
  | _ => false

/-- TiledTensor.hpp 336–351: `has_tile(container)`: line 342 normalises the caller's copy instead of the
local array, so a negative coordinate is always rejected. -/
def Tiled.hasTileContainer (T : Tiled R) (idx : List Int) : Bool :=
  if idx.any (· < 0) then false else T.hasTile idx

/-- TiledTensor.hpp 890–909: `add_tile`: a new tile of zeros (`emplace` keeps an existing tile, but its
elements are zeroed). -/
def Tiled.addTile [Zero R] (T : Tiled R) (pos : List Nat) : Tiled R :=
  let dims := (T.sizes.zip pos).map fun p => p.1.getD p.2 0
  match T.tiles.lookup pos with
  | none => { T with tiles := (pos, Strided.mk' (fun _ => 0) dims) :: T.tiles }
  | some _ => { T with tiles := T.tiles.map fun p => if p.1 = pos then (p.1, p.2.setAll 0) else p }

/-- TiledTensor.hpp 168–192: Replace the tile at `pos` (writing through the reference returned by `tile`). -/
def Tiled.setTile (T : Tiled R) (pos : List Nat) (t : Strided R) : Tiled R :=
  { T with tiles := T.tiles.map fun p => if p.1 = pos then (p.1, t) else p }

/-- TiledTensor.hpp 191, 213, 558: `_tiles.at(pos)`. -/
def Tiled.at (T : Tiled R) (pos : List Nat) : Outcome (Strided R) :=
  match T.tiles.lookup pos with
  | some t => .ok t
  | none => .error "std::out_of_range"

/-- TiledTensor.hpp 168–192 and 247–268: `tile(i, j, ...)`, creating the tile when it is missing; returns the
position, whose tile the caller can then change. -/
def Tiled.tile [Zero R] (T : Tiled R) (idx : List Int) : Outcome (Tiled R × List Nat) := do
  let k ← T.tileCoords idx
  if T.hasTile (toIdx k) then return (T, k) else return (T.addTile k, k)

/-- TiledTensor.hpp 200–215 and 223–239: `tile(i, j, ...) const`. -/
def Tiled.tileConst (T : Tiled R) (idx : List Int) : Outcome (Strided R) := do
  let k ← T.tileCoords idx
  T.at k

/-- TiledTensor.hpp 401–409, 428–436: index within the tile. -/
def Tiled.localIdx (T : Tiled R) (idx : List Int) (coords : List Nat) : List Int :=
  ((normIdx T.dims idx).zip (T.offsets.zip coords)).map fun p => p.1 - (p.2.1.getD p.2.2 0 : Int)

/-- TiledTensor.hpp 396–416 (and 451–477): `t(i, j, ...)` on a const tensor. -/
def Tiled.get [Zero R] (T : Tiled R) (idx : List Int) : Outcome R := do
  let coords ← T.tileOf idx
  if T.hasTile (toIdx coords) then do
    let t ← T.tileConst (toIdx coords)
    t.read (T.localIdx idx coords)
  else return 0

/-- TiledTensor.hpp 424–441 (and 488–512): `t(i, j, ...) = v`. -/
def Tiled.set [Zero R] (T : Tiled R) (idx : List Int) (v : R) : Outcome (Tiled R) := do
  let coords ← T.tileOf idx
  let (T, k) ← T.tile (toIdx coords)
  let t ← T.at k
  let t ← t.write (T.localIdx idx coords) v
  return T.setTile k t

/-- TiledTensor.hpp 424–441: reading an element of a non-const tensor: the tile is created as well. -/
def Tiled.getMut [Zero R] (T : Tiled R) (idx : List Int) : Outcome (Tiled R × R) := do
  let coords ← T.tileOf idx
  let (T, k) ← T.tile (toIdx coords)
  let t ← T.at k
  let v ← t.read (T.localIdx idx coords)
  return (T, v)

/-- TiledTensor.hpp 517: `zero()` drops every tile. -/
def Tiled.zero (T : Tiled R) : Tiled R := { T with tiles := [] }

/-- TiledTensor.hpp: The loops `for (auto &tile : _tiles)` of `zero_no_clear` (522–526), `set_all_existing` (567–571),
`operator*=` (670–679) and `operator/=` (681–686). -/
def Tiled.mapTiles (T : Tiled R) (g : R → R) : Tiled R :=
  { T with tiles := T.tiles.map fun p => (p.1, { p.2 with data := p.2.data.map g }) }

/-- TiledTensor.hpp 547–554, 626–633, 654–661: position number `i` of the grid, lowest axis first. -/
def gridIndex : List Nat → Nat → List Nat
  | [], _ => []
  | g :: gs, i => (i % g) :: gridIndex gs (i / g)

/-- TiledTensor.hpp 547–661: The parallel loop over the whole grid with `_tiles.at(tile_index) OP= value`, in the
order `sched`. -/
def Tiled.gridLoop (T : Tiled R) (g : R → R) (sched : List Nat) : Outcome (Tiled R) :=
  sched.foldlM (fun (T : Tiled R) i => do
    let k := gridIndex (T.sizes.map List.length) i
    let t ← T.at k
    return T.setTile k { t with data := t.data.map g }) T

/-- `num_tiles` (TiledTensor.hpp 540–544): the number of grid positions. -/
def Tiled.numTiles (T : Tiled R) : Nat := (T.offsets.map List.length).foldl (· * ·) 1

/-- TiledTensor.hpp 534–560: `set_all(value)` (also `operator=(T)`, 609–612). -/
def Tiled.setAll [Zero R] [BEq R] (T : Tiled R) (v : R) (sched : List Nat) : Outcome (Tiled R) :=
  if v == 0 then .ok T.zero else T.gridLoop (fun _ => v) sched

/-- TiledTensor.hpp 614–640 and 642–668: `T += value`, `T -= value`. -/
def Tiled.addScalar [Zero R] [BEq R] (op : R → R → R) (T : Tiled R) (v : R) (sched : List Nat) :
    Outcome (Tiled R) :=
  if v == 0 then .ok T else T.gridLoop (fun x => op x v) sched

/-- TiledTensor.hpp 670–679: `T *= value`. -/
def Tiled.mulScalar [Zero R] [BEq R] [Mul R] (T : Tiled R) (v : R) : Tiled R :=
  if v == 0 then T.zero else T.mapTiles (· * v)

/-- TiledTensor.hpp 688–703 and 705–721: `T += other`, `T -= other` for a tiled tensor: `op` is `+` or `-`,
`neg` what a tile missing in `T` becomes (a copy, or a copy times −1). -/
def Tiled.addTiled [Zero R] (op : R → R → R) (neg : R → R) (T other : Tiled R) : Outcome (Tiled R) :=
  if T.sizes ≠ other.sizes then .error "Tiled tensors do not have the same layouts."
  else other.tiles.foldlM (fun (T : Tiled R) p =>
    if T.hasTileContainer (toIdx p.1) then do
      let t ← T.at p.1
      let t ← t.compoundTensor op p.2 (List.range t.data.length)
      return T.setTile p.1 t
    else return (T.addTile p.1).setTile p.1 { p.2 with data := p.2.data.map neg }) T

/-- TiledTensor.hpp 573–607: `T = other`.  The first statement is `zero()`: when `other` is `T` itself (`self`),
its tiles are gone before they are copied. -/
def Tiled.assign [Zero R] (self : Bool) (other : Tiled R) : Tiled R :=
  let source := if self then other.zero else other
  source.tiles.foldl (fun (T : Tiled R) p => (T.addTile p.1).setTile p.1 p.2)
    { sizes := source.sizes, offsets := source.offsets, dims := source.dims, tiles := [] }

/-- TiledTensor.hpp 873–884: conversion to a dense tensor, which is zeroed first. -/
def Tiled.toDense [Zero R] (T : Tiled R) : Outcome (Strided R) :=
  (cartesian T.dims).foldlM (fun (out : Strided R) i => do
    let v ← T.get (toIdx i)
    out.write (toIdx i) v) (Strided.mk' (fun _ => 0) T.dims)

/-- TiledTensor.hpp 838–868: `has_zero_size`. -/
def Tiled.hasZeroSize (T : Tiled R) (k : List Nat) : Bool :=
  (T.sizes.zip k).any fun p => p.1.getD p.2 0 == 0

end
end Einsums.Model
