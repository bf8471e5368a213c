import Verif.Model.BlasFront
/-
Specification of the typed BLAS/LAPACK front end: the naming scheme of BLAS and LAPACK (a letter for the
precision, then the operation), the element types an operation exists for, and its number of arguments.
Written from the reference documentation of BLAS and LAPACK and the comments of Blas.hpp, without the
tables of the model.
-/
namespace Einsums.Spec
open Model

/-- The letter of an element type. -/
def letterOf : BlasTy → BlasLetter
  | .f32 => .s
  | .f64 => .d
  | .c32 => .c
  | .c64 => .z

/-- The letter of the complex type over a real one (and of a complex type itself). -/
def complexLetterOf : BlasTy → BlasLetter
  | .f32 => .c
  | .f64 => .z
  | t => letterOf t

/-- The routine of BLAS or LAPACK that does operation `fn` on elements of type `ty`.  `heev` is named by the real
type of the eigenvalues and is an operation on complex matrices; scaling a complex vector by a real number
is `csscal` or `zdscal`. -/
def routineOf (fn : BlasFn) (ty : BlasTy) (realFactor : Bool) : BlasRoutine :=
  match fn with
  | .heev => ⟨complexLetterOf ty, .heev⟩
  | .scal =>
    match ty, realFactor with
    | .c32, true => ⟨.cs, .scal⟩
    | .c64, true => ⟨.zd, .scal⟩
    | _, _ => ⟨letterOf ty, .scal⟩
  | _ => ⟨letterOf ty, fn⟩

/-- Is the type a complex one? -/
def isComplexTy : BlasTy → Bool
  | .f32 | .f64 => false
  | .c32 | .c64 => true

/-- The operation exists for the element type.  Symmetric eigenvalues, the orthogonal factor, `gesvd` and the Schur
decomposition `gees` are offered for real types only, the conjugated dot product and the unitary factor for complex
ones, `heev` by its real type; everything else for all four.  A real factor is an option of complex
`scal` only. -/
def offered (fn : BlasFn) (ty : BlasTy) (realFactor : Bool) : Bool :=
  match fn with
  | .scal => !realFactor || isComplexTy ty
  | .syev | .orgqr | .gesvd | .gees | .heev => !realFactor && !isComplexTy ty
  | .dotc | .ungqr => !realFactor && isComplexTy ty
  | _ => !realFactor

/-- The number of arguments of an operation. -/
def arityOf : BlasFn → Nat
  | .gemm => 13
  | .gemv => 11
  | .ger => 9
  | .syev => 8
  | .heev => 9
  | .geev => 10
  | .gesv => 7
  | .scal => 4
  | .dot => 5
  | .dotc => 5
  | .axpy => 6
  | .axpby => 7
  | .getrf => 5
  | .getri => 4
  | .lange => 6
  | .lassq => 5
  | .gesdd => 10
  | .gesvd => 12
  | .gees => 9
  | .trsyl => 12
  | .geqrf => 5
  | .orgqr => 6
  | .ungqr => 6

end Einsums.Spec
