import Verif.Model.Tensor
import Verif.Spec.Index
/-
What it means for a tensor object to hold given elements, to be laid out sanely, and to be changed
only inside its own region.
-/
namespace Einsums
open Spec Model

/-- Every in-range multi-index addresses an element of the storage, and different ones address
different elements. -/
structure Model.Strided.WF (t : Strided α) : Prop where
  len : t.strides.length = t.dims.length
  bound : ∀ idx, InBox idx t.dims → t.off + dot idx t.strides < t.data.length
  inj : ∀ i j, InBox i t.dims → InBox j t.dims → dot i t.strides = dot j t.strides → i = j

/-- The elements of `t` are given by the function `f` of the multi-index. -/
def Model.Strided.Represents (t : Strided α) (f : List Nat → α) : Prop :=
  ∀ idx, InBox idx t.dims → t.read (toIdx idx) = .ok (f idx)

/-- `t'` differs from `t` at most in the elements addressed by in-range multi-indices. -/
structure Model.Strided.Frame (t t' : Strided α) : Prop where
  off : t'.off = t.off
  dims : t'.dims = t.dims
  strides : t'.strides = t.strides
  length : t'.data.length = t.data.length
  outside : ∀ p, (∀ j, InBox j t.dims → p ≠ t.off + dot j t.strides) → t'.data[p]? = t.data[p]?

/-- A `Tensor` as the constructors and `resize` leave it: row-major strides, storage of exactly the
right length. -/
structure Model.Strided.IsTensor (t : Strided α) : Prop where
  off : t.off = 0
  strides : t.strides = (dimsToStrides t.dims).2
  length : t.data.length = numel t.dims

/-- A tensor or view laid out row-major without gaps, inside its storage. -/
structure Model.Strided.RowMajor (t : Strided α) : Prop where
  strides : t.strides = (dimsToStrides t.dims).2
  fits : t.off + numel t.dims ≤ t.data.length

end Einsums
