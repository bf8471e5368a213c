import Verif.Model.PythonTensor
import Verif.Spec.RuntimeTensor
import Verif.Spec.Memory
/-
Vocabulary for Python subscripts and Python buffers.
-/
namespace Einsums
open Spec Model

namespace Spec

/-- A bound of a Python slice on an axis of `d` elements: `dflt` when left out, negative bounds count from the end, and what
lies outside the axis means its nearest end. -/
def sliceBound (d dflt : Nat) : Option Int → Nat
  | none => dflt
  | some k => if k < 0 then (k + d).toNat else min k.toNat d

/-- What an entry of a Python subscript selects on an axis of `d` elements, for slices with step 1. -/
def pySel (d : Nat) : PyArg → Sel
  | .int k => .at k
  | .slice a b _ => .range (sliceBound d 0 a) (sliceBound d d b)

/-- What a Python subscript selects; missing trailing entries mean the whole axis. -/
def pySels (dims : List Nat) (args : List PyArg) : List Sel :=
  padAll dims.length ((dims.zip args).map fun p => pySel p.1 p.2)

/-- The slice selects at least one element of an axis of `d` elements. -/
def NonEmptySlice (d : Nat) : PyArg → Prop
  | .int _ => True
  | .slice a b _ => sliceBound d 0 a < sliceBound d d b

/-- Entries for which subscripts do what Python users expect: integers that are not negative (and values of `ptrdiff_t`),
slices with step 1 that select something. -/
def GoodArg (d : Nat) (a : PyArg) : Prop :=
  NonEmptySlice d a ∧ match a with
    | .int k => 0 ≤ k ∧ k < 2 ^ 63
    | .slice _ _ s => s = none ∨ s = some 1

/-- Byte offset of the item with the given index. -/
def byteOffset : List Nat → List Int → Int
  | i :: is, s :: ss => i * s + byteOffset is ss
  | _, _ => 0

end Spec

/-- The items of a buffer, by index. -/
def Model.PyBuffer.Represents (b : PyBuffer β) (g : List Nat → β) : Prop :=
  ∀ i, InBox i b.shape → b.items (byteOffset i b.strides) = some (g i)

/-- The items of the buffer lie a whole number of items apart. -/
structure Model.PyBuffer.Aligned (b : PyBuffer β) : Prop where
  len : b.strides.length = b.shape.length
  size : 0 < b.itemsize
  dvd : ∀ s ∈ b.strides, (b.itemsize : Int) ∣ s

end Einsums
