import Verif.Model.Tiled
import Verif.Model.DeviceTransfer
/-
Model of `TiledDeviceTensor` (src/include/einsums/TiledTensor.hpp): assignment of a tiled host tensor, and conversion to a host tensor.
The grid and the subscripts are those of `TiledTensorBase` (Model/Tiled.lean): lines 1027–1045 repeat 396–416.
-/
namespace Einsums.Model

/-- TiledTensor.hpp 1085–1086 with 985–1001: one tile: a new device tile of zeros, to which the host tile is assigned; `mode` is the
`_mode` of the tensor. -/
def tiledDeviceStep [Zero K] (mode : DeviceMode) (z : Nat → K) (T : Tiled K) (p : List Nat × Strided K) : Outcome (Tiled K) := do
  let T := T.addTile p.1
  let t ← T.at p.1
  let t ← deviceAssignHost mode z t p.2
  return T.setTile p.1 t

/-- TiledTensor.hpp 1073–1090: `T = other` for a tiled device tensor `T` and a tiled host tensor `other`. -/
def tiledToDevice [Zero K] (mode : DeviceMode) (z : Nat → K) (other : Tiled K) : Outcome (Tiled K) :=
  other.tiles.foldlM (tiledDeviceStep mode z) { sizes := other.sizes, offsets := other.offsets, dims := other.dims, tiles := [] }

/-- TiledTensor.hpp 1092 with 873–884: conversion to a host tensor, by way of a device tensor of the full shape.  Simplification: the
elements are moved one by one through `HostDevReference`, which is modelled in Model/DeviceRef.lean. -/
def tiledDeviceToHost [Zero K] (z : Nat → K) (T : Tiled K) : Outcome (Strided K) := do
  let d ← T.toDense
  deviceToHost z d

end Einsums.Model
