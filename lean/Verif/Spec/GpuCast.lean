import Verif.Model.GpuCast
/-
Specification of the conversion between host and device element types, in terms of the two parts of a number: a value of
any of the six types is a complex number whose parts have a precision, and a conversion converts
each part to the precision of the new type.
-/
namespace Einsums.Spec
open Model

/-- A number in one of the two precisions. -/
inductive Num (S D : Type) | single (x : S) | double (x : D)
  deriving DecidableEq, Repr

/-- Is the precision of the type the double one? -/
def isDoubleTy : HipTy → Bool
  | .f32 | .c32 | .hc32 => false
  | .f64 | .c64 | .hc64 => true

/-- Has the type an imaginary part? -/
def hasImag : HipTy → Bool
  | .f32 | .f64 => false
  | _ => true

variable {S D : Type} [Zero S] [Zero D]

/-- The number in the precision of the type. -/
def Num.at (widen : S → D) (narrow : D → S) (t : HipTy) : Num S D → Num S D
  | .single x => if isDoubleTy t then .double (widen x) else .single x
  | .double x => if isDoubleTy t then .double x else .single (narrow x)

/-- Zero in the precision of the type. -/
def zeroAt (t : HipTy) : Num S D := if isDoubleTy t then .double 0 else .single 0

/-- The real part of a value. -/
def rePart : (t : HipTy) → HipVal S D t → Num S D
  | .f32, x => .single x
  | .f64, x => .double x
  | .c32, v => .single v.1
  | .hc32, v => .single v.1
  | .c64, v => .double v.1
  | .hc64, v => .double v.1

/-- The imaginary part of a value; that of a real number is zero. -/
def imPart : (t : HipTy) → HipVal S D t → Num S D
  | .f32, _ => .single 0
  | .f64, _ => .double 0
  | .c32, v => .single v.2
  | .hc32, v => .single v.2
  | .c64, v => .double v.2
  | .hc64, v => .double v.2

/-- The device type of a host type (and the other way round). -/
def otherSide : HipTy → HipTy
  | .f32 => .f32
  | .f64 => .f64
  | .c32 => .hc32
  | .hc32 => .c32
  | .c64 => .hc64
  | .hc64 => .c64

end Einsums.Spec
