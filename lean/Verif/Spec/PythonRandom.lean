import Verif.Model.PythonRandom
import Verif.Spec.Index
/-
What a tensor of random numbers made in Python holds.
-/
namespace Einsums.Spec
open Model

/-- The types of complex numbers. -/
def IsComplexType (t : PyType) : Prop := t = .complex ∨ t = .c64 ∨ t = .c128

/-- The types of single precision, which are NumPy's. -/
def IsSingleType (t : PyType) : Prop := t = .f32 ∨ t = .c64

/-- The class of tensors for a data type. -/
def kindFor : PyType → Option ElemKind
  | .int => none
  | .f32 => some .F
  | .float => some .D
  | .f64 => some .D
  | .c64 => some .C
  | .complex => some .Z
  | .c128 => some .Z

/-- The elements of the class are complex numbers. -/
def isComplexKind : ElemKind → Bool
  | .F => false
  | .D => false
  | .C => true
  | .Z => true

/-- How many values of the function one element takes: two for a complex element from real values. -/
def drawsPer (complexTensor complexFunc : Bool) : Nat := if complexTensor && !complexFunc then 2 else 1

/-- The element at the row-major position `p`, when the values `f 1`, `f 2`, … are used in turn (`f 0` was used up to find
out the type). -/
def pyDrawn {R : Type} [Zero R] (complexTensor complexFunc : Bool) (rnd : R → R) (f : Nat → PyNum R) (p : Nat) : R × R :=
  match complexTensor, complexFunc with
  | true, true => (rnd (f (1 + p)).re, rnd (f (1 + p)).im)
  | true, false => (rnd (f (1 + 2 * p)).re, rnd (f (2 + 2 * p)).re)
  | false, _ => (rnd (f (1 + p)).re, 0)

end Einsums.Spec
