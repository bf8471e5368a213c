import Verif.Spec.Memory
/-
Specification of chains of sub-tensor expressions `T(args)(args)...`.
-/
namespace Einsums.Spec

/-- Shape after a chain of selections; `none` when one of them is invalid. -/
def chainDims : List Nat → List (List Sel) → Option (List Nat)
  | ds, [] => some ds
  | ds, s :: ss => (selDims ds s).bind fun vd => chainDims vd ss

/-- Index into the original tensor of the element `js` after a chain of selections. -/
def chainIndex : List Nat → List (List Sel) → List Nat → List Nat
  | _, [], js => js
  | ds, s :: ss, js => selIndex ds s (chainIndex ((selDims ds s).getD []) ss js)

/-- A value of type `int`. -/
def IsInt32 (i : Int) : Prop := -2 ^ 31 ≤ i ∧ i < 2 ^ 31

end Einsums.Spec
