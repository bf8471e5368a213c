import Verif.Model.Tensor
/-
Model of src/include/einsums/FunctionTensor.hpp: function tensors, their views, the Kronecker delta, conversion to a tensor.
Indices are kept in `int` (32 bits), dimensions and ranges in `int64_t` (unbounded here).  Not modelled: names, the GPU
classes, the lifetime of the tensor a view points to.
-/
namespace Einsums.Model
open Spec (Sel)

/-- FunctionTensor.hpp 41–58: Conversion to `int`, modulo 2^32. -/
def toInt32 (i : Int) : Int := i.bmod (2 ^ 32)

/-- FunctionTensor.hpp 31–36 and 102: the dimensions and the virtual function `call`. -/
structure FuncTensor (α : Type) where
  dims : List Int
  call : List Int → Outcome α

/-- FunctionTensor.hpp 228–249: `FuncPointerTensor`. -/
def funcPointerTensor (dims : List Int) (f : List Int → α) : FuncTensor α := ⟨dims, fun inds => .ok (f inds)⟩

/-- FunctionTensor.hpp 335–343: `KroneckerDelta`. -/
def kroneckerDelta [One α] [Zero α] (n : Nat) : FuncTensor α :=
  ⟨[n, n], fun inds => .ok (if inds.getD 0 0 = inds.getD 1 0 then 1 else 0)⟩

/-- FunctionTensor.hpp 41–58: `fix_indices`. -/
def fixIndices : List Int → List Int → Outcome (List Int)
  | d :: ds, i :: is => do
    let j := if i < 0 then toInt32 (i + d) else i
    if d ≤ j ∨ j < 0 then .error "Function tensor index out of range!" else
      let js ← fixIndices ds is
      return j :: js
  | _, is => .ok is

/-- FunctionTensor.hpp 104–134: `operator()` with indices, given one by one or in a container.  A container with too few
elements throws, further elements are not looked at. -/
def FuncTensor.read (t : FuncTensor α) (inds : List Int) : Outcome α :=
  if inds.length < t.dims.length then .error "std::out_of_range" else do
    let js ← fixIndices t.dims ((inds.take t.dims.length).map toInt32)
    t.call js

/-- FunctionTensor.hpp 148–177 and 192–200: the loop over the arguments of a view.  For each argument the offset and the
dimension of the view, if it has one, and the entry of the index template. -/
def viewArg (d : Int) : Sel → Option (Int × Int) × Int
  | .at i => (none, toInt32 (if i < 0 then d + i else i))
  | .all => (some (0, d), -1)
  | .range a b => (some (a, (if b < 0 then d + b else b) - a), -1)

/-- FunctionTensor.hpp 262–284: `apply_view`: walks over the index template (first argument); the second are dimension,
offset and index for each axis of the view; `inner` says that the inner loop, which checks the position, has moved. -/
def applyView (inner : Bool) : List Int → List (Int × Int × Int) → Outcome (List Int)
  | tpl, [] => .ok tpl
  | [], _ :: _ => if inner then .error "std::out_of_range" else .ok []
  | t :: ts, (d, o, i) :: rest =>
    if 0 ≤ t then do
      let js ← applyView true ts ((d, o, i) :: rest)
      return t :: js
    else
      let j := if i < 0 then toInt32 (i + d) else i
      if d ≤ j ∨ j < 0 then .error "Function tensor view index out of range!" else do
        let js ← applyView false ts rest
        return toInt32 (j + o) :: js

/-- FunctionTensor.hpp 251–325: a `FunctionTensorView` and its `call`. -/
def FuncTensor.mkView (t : FuncTensor α) (offsets dims template : List Int) : FuncTensor α :=
  ⟨dims, fun inds => do
    let js ← applyView false template ((dims.zip offsets).zipWith (fun a i => (a.1, a.2, i)) inds)
    t.call js⟩

/-- FunctionTensor.hpp 142–203: `operator()` with `All`, ranges and integers.  (The code has one overload for arguments
with at least one `All`, and one for ranges only; other combinations do not compile.) -/
def FuncTensor.view (t : FuncTensor α) (args : List Sel) : FuncTensor α :=
  let as := List.zipWith viewArg t.dims args
  let axes := as.filterMap (·.1)
  t.mkView (axes.map (·.1)) (axes.map (·.2)) (as.map (·.2))

/-- FunctionTensor.hpp 291–305: `_full_view` of a view made with a name. -/
def namedFullView (underlying : List Int) (dims offsets template : List Int) : Bool :=
  if dims.length ≠ underlying.length then false
  else (List.range underlying.length).all fun i =>
    decide (template.getD i 0 < 0) && decide (dims.getD i 0 = underlying.getD i 0) && decide (offsets.getD i 0 = 0)

/-- FunctionTensor.hpp 257 and 307–309: `_full_view` of the views that `operator()` makes. -/
def operatorFullView : Bool := true

/-- FunctionTensor.hpp 213–223: one iteration of the conversion to a tensor. -/
def convertStep (t : FuncTensor α) (out : Strided α) (i : List Nat) : Outcome (Strided α) := do
  let v ← t.read (toIdx i)
  out.write (toIdx i) v

/-- FunctionTensor.hpp 209–226: conversion to a tensor; `order` is the order in which the threads perform the iterations. -/
def FuncTensor.toTensor (z : Nat → α) (t : FuncTensor α) (order : List (List Nat)) : Outcome (Strided α) :=
  order.foldlM (convertStep t) (Strided.mk' z (t.dims.map Int.toNat))

end Einsums.Model
