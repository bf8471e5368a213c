import Verif.Model.GpuView
import Verif.Model.Blas
/-
Model of the GPU backend of the linear algebra library (src/backends/linear_algebra/hipblas/hipblas.hip): each function copies its
operands from host memory to new device memory, calls hipBLAS there and copies the result back.

A host pointer is a list (an allocation) and a position in it.  The hipBLAS routines are their documented column-major contract, that
of the Fortran routines in Model/Blas.lean; an argument that they reject is an error (`hipblas_catch` throws).  New device memory holds
arbitrary values (`junk`).  Simplifications: dimensions, leading dimensions and increments are not negative; the scalars are
read from where they are (the functions put them into device memory, and the pointer mode of the handle is not modelled); the HIP calls
do not fail (Model/HipResources.lean is about their failures); one definition for the four element types, with the complex
conjugate `conj` as an argument (the identity for real types).
-/
namespace Einsums.Model

variable {K : Type}

/-- hipblas.hip 53, 251, 383: a product of two `int`, converted to `size_t` afterwards. -/
def intMul (a b : Nat) : Outcome Nat :=
  if a * b < 2147483648 then .ok (a * b) else .ub "signed integer overflow"

/-- hipblas.hip 53, 251: `t ? x : y` for a character: every character but the null character counts as true. -/
def charSel (t : Char) (x y : Nat) : Nat := if t.toNat ≠ 0 then x else y

/-- hipblas.hip 17–28: `hipblas_char_to_op` is `HIPBLAS_OP_C`. -/
def opConj (t : Char) : Bool := t == 'c' || t == 'C'

/-- hipblas.hip 17–28: `hipblas_char_to_op` is `HIPBLAS_OP_T` or `HIPBLAS_OP_C`. -/
def opTrans (t : Char) : Bool := t == 't' || t == 'T' || opConj t

/-- hipblas.hip 71–72 (external hipBLAS): the elements as the routine uses them: their conjugates for `HIPBLAS_OP_C`. -/
def opMem (conj : K → K) (t : Char) (a : List K) : List K := if opConj t then a.map conj else a

/-- hipblas.hip 56–59 (external HIP): `hipMalloc` of `n` elements. -/
def newDevice (junk : Nat → K) (n : Nat) : List K := (List.range n).map junk

/-- hipblas.hip 66–68, 257–259: the device memory of the output: a copy of the host memory, or new memory. -/
def outBuffer (copied : Bool) (junk : Nat → K) (mem : List K) (off n : Nat) : Outcome (List K) :=
  if copied then hostRead mem off n else .ok (newDevice junk n)

section
variable [Add K] [Mul K] [Zero K] [BEq K]

/-- hipblas.hip 37–84 (`sgemm`), 86–233 (the other types). -/
def backendGemm (conj : K → K) (junk : Nat → K) (ta tb : Char) (m n k : Nat) (alpha : K) (a : List K) (aoff lda : Nat)
    (b : List K) (boff ldb : Nat) (beta : K) (c : List K) (coff ldc : Nat) : Outcome (List K) := do
  let aSize ← intMul (charSel ta k m) lda
  let bSize ← intMul ldb (charSel tb n k)
  let cSize ← intMul m ldc
  let ag ← hostRead a aoff aSize
  let bg ← hostRead b boff bSize
  let cg ← outBuffer (!(beta == 0) || ldc != k) junk c coff cSize
  let cg ← fortranGemm (opTrans ta) (opTrans tb) m n k alpha (opMem conj ta ag) 0 lda (opMem conj tb bg) 0 ldb beta cg 0 ldc
  hostWrite c coff cg

/-- hipblas.hip 237–270 (`sgemv`), 272–376 (the other types). -/
def backendGemv (conj : K → K) (junk : Nat → K) (ta : Char) (m n : Nat) (alpha : K) (a : List K) (aoff lda : Nat)
    (x : List K) (xoff incx : Nat) (beta : K) (y : List K) (yoff incy : Nat) : Outcome (List K) := do
  let aSize ← intMul (charSel ta n m) lda
  let xSize ← intMul (charSel ta m n) incx
  let ySize ← intMul (charSel ta n m) incy
  let ag ← hostRead a aoff aSize
  let xg ← hostRead x xoff xSize
  let yg ← outBuffer (!(beta == 0) || incy != 1) junk y yoff ySize
  let yg ← fortranGemv (opTrans ta) m n alpha (opMem conj ta ag) 0 lda xg 0 incx beta yg 0 incy
  hostWrite y yoff yg

/-- hipblas.hip 378–399 (`sscal`), 401–468 (the other types). -/
def backendScal (n : Nat) (alpha : K) (x : List K) (xoff inc : Nat) : Outcome (List K) := do
  let size ← intMul n inc
  let xg ← hostRead x xoff size
  let xg ← blasScal n alpha xg 0 inc
  hostWrite x xoff xg

/-- hipblas.hip 470–490 (`sdot`), 492–556 (the other types): the complex ones call `dotc`, which conjugates x. -/
def backendDot (conj : K → K) (n : Nat) (x : List K) (xoff incx : Nat) (y : List K) (yoff incy : Nat) : Outcome K := do
  let xSize ← intMul n incx
  let ySize ← intMul n incy
  let xg ← hostRead x xoff xSize
  let yg ← hostRead y yoff ySize
  blasDot n (xg.map conj) 0 incx yg 0 incy

/-- hipblas.hip 558–587 (`saxpy`), 589–680 (the other types). -/
def backendAxpy (n : Nat) (alpha : K) (x : List K) (xoff incx : Nat) (y : List K) (yoff incy : Nat) : Outcome (List K) := do
  let xSize ← intMul n incx
  let ySize ← intMul n incy
  if alpha == 0 then return y
  else do
    let xg ← hostRead x xoff xSize
    let yg ← hostRead y yoff ySize
    let yg ← blasAxpy n alpha xg 0 incx yg 0 incy
    hostWrite y yoff yg

/-- hipblas.hip 693–724 (`sger`), 726–825 (the other types): the complex ones call `gerc`, which conjugates y. -/
def backendGer (conj : K → K) (m n : Nat) (alpha : K) (x : List K) (xoff incx : Nat) (y : List K) (yoff incy : Nat)
    (a : List K) (aoff lda : Nat) : Outcome (List K) := do
  let xSize ← intMul m incx
  let ySize ← intMul n incy
  let aSize ← intMul m lda
  if alpha == 0 then return a
  else do
    let xg ← hostRead x xoff xSize
    let yg ← hostRead y yoff ySize
    let ag ← hostRead a aoff aSize
    let ag ← fortranGer m n alpha xg 0 incx (yg.map conj) 0 incy ag 0 lda
    hostWrite a aoff ag

end
end Einsums.Model
