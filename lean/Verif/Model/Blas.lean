import Verif.Model.Tensor
/-
Model of the BLAS layer: the Fortran routines as their documented column-major contract (they are not
part of this repository; only this contract is assumed), and the row-major wrappers of
src/backends/linear_algebra/vendor/Vendor.cpp around them.

A pointer into storage is a list and a position.  Simplifications: `blas_int` is unbounded; increments
and leading dimensions are non-negative (strides always are); the output does not overlap the inputs
(BLAS requires this); one element type for all operands.
-/
namespace Einsums.Model

variable {R : Type} [Add R] [Mul R] [Zero R] [BEq R]

/-- Vendor.cpp 199–267 (external BLAS): Read `mem[p]`. -/
def memGet (mem : List R) (p : Nat) : Outcome R :=
  match mem[p]? with
  | some v => .ok v
  | none => .ub "access outside the storage"

/-- Vendor.cpp 199–267 (external BLAS): `mem[p] = g(mem[p])`. -/
def memUpd (mem : List R) (p : Nat) (g : R → Outcome R) : Outcome (List R) :=
  match mem[p]? with
  | some old => g old >>= fun v => .ok (mem.set p v)
  | none => .ub "access outside the storage"

/-- Vendor.cpp 199–267 (external BLAS): Left-to-right sum of computed terms, starting from `s`. -/
def sumLoop (term : Nat → Outcome R) : List Nat → R → Outcome R
  | [], s => .ok s
  | l :: ls, s => term l >>= fun v => sumLoop term ls (s + v)

/-- Vendor.cpp 199–217 (external BLAS): BLAS contract: column-major element (i, j) of `op(A)`, `A` at `off` with
leading dimension `ld`. -/
def colElem (a : List R) (off ld : Nat) (trans : Bool) (i j : Nat) : Outcome R :=
  memGet a (off + (if trans then j + i * ld else i + j * ld))

/-- Vendor.cpp 199–217 (external BLAS): The index pairs (i, j), i < m, j < n, column by column. -/
def colPairs (m n : Nat) : List (Nat × Nat) :=
  (List.range n).flatMap fun j => (List.range m).map fun i => (i, j)

/-- Vendor.cpp 199–217 call it: BLAS `xGEMM` (column-major): `C := alpha*op(A)*op(B) + beta*C`, C m×n, inner
dimension k; with
`beta = 0` the old `C` is not read.  Illegal leading dimensions are reported through `XERBLA`. -/
def fortranGemm (ta tb : Bool) (m n k : Nat) (alpha : R) (a : List R) (aoff lda : Nat)
    (b : List R) (boff ldb : Nat) (beta : R) (c : List R) (coff ldc : Nat) : Outcome (List R) :=
  if lda < max 1 (if ta then k else m) ∨ ldb < max 1 (if tb then n else k) ∨ ldc < max 1 m then
    .error "XERBLA"
  else
    (colPairs m n).foldlM (fun mem ij => memUpd mem (coff + ij.1 + ij.2 * ldc) fun old => do
      let t ← sumLoop (fun l => do
        let x ← colElem a aoff lda ta ij.1 l
        let y ← colElem b boff ldb tb l ij.2
        return x * y) (List.range k) 0
      return if beta == 0 then alpha * t else alpha * t + beta * old) c

/-- Vendor.cpp 199–217 (`sgemm`, `dgemm`; 219–239 for complex): the row-major product through the
column-major routine with the operands exchanged. -/
def vendorGemm (ta tb : Bool) (m n k : Nat) (alpha : R) (a : List R) (aoff lda : Nat)
    (b : List R) (boff ldb : Nat) (beta : R) (c : List R) (coff ldc : Nat) : Outcome (List R) :=
  if m = 0 ∨ n = 0 ∨ k = 0 then .ok c
  else fortranGemm tb ta n m k alpha b boff ldb a aoff lda beta c coff ldc

/-- Vendor.cpp 241–267 call it: BLAS `xGEMV` (column-major): `y := alpha*op(A)*x + beta*y`, A m×n; with `beta = 0`
the old `y` is
not read. -/
def fortranGemv (trans : Bool) (m n : Nat) (alpha : R) (a : List R) (aoff lda : Nat)
    (x : List R) (xoff incx : Nat) (beta : R) (y : List R) (yoff incy : Nat) : Outcome (List R) :=
  if lda < max 1 m ∨ incx = 0 ∨ incy = 0 then .error "XERBLA"
  else
    (List.range (if trans then n else m)).foldlM (fun mem i => memUpd mem (yoff + i * incy) fun old => do
      let t ← sumLoop (fun l => do
        let u ← colElem a aoff lda trans i l
        let v ← memGet x (xoff + l * incx)
        return u * v) (List.range (if trans then m else n)) 0
      return if beta == 0 then alpha * t else alpha * t + beta * old) y

/-- Vendor.cpp 241–267 (`sgemv`, `dgemv`). -/
def vendorGemv (trans : Bool) (m n : Nat) (alpha : R) (a : List R) (aoff lda : Nat)
    (x : List R) (xoff incx : Nat) (beta : R) (y : List R) (yoff incy : Nat) : Outcome (List R) :=
  if m = 0 ∨ n = 0 then .ok y
  else fortranGemv (!trans) n m alpha a aoff lda x xoff incx beta y yoff incy

/-- Vendor.cpp 503–534 call it: BLAS `xGER`/`xGERU` (column-major): `A := A + alpha*x*y^T`, A m×n. -/
def fortranGer (m n : Nat) (alpha : R) (x : List R) (xoff incx : Nat) (y : List R) (yoff incy : Nat)
    (a : List R) (aoff lda : Nat) : Outcome (List R) :=
  if incx = 0 ∨ incy = 0 ∨ lda < max 1 m then .error "XERBLA"
  else
    (colPairs m n).foldlM (fun mem ij => memUpd mem (aoff + ij.1 + ij.2 * lda) fun old => do
      let u ← memGet x (xoff + ij.1 * incx)
      let v ← memGet y (yoff + ij.2 * incy)
      return old + alpha * u * v) a

/-- Vendor.cpp 503–518 (`ger_parameter_check`) and 521–534 (`sger`, `dger`). -/
def vendorGer (m n : Nat) (alpha : R) (x : List R) (xoff incx : Nat) (y : List R) (yoff incy : Nat)
    (a : List R) (aoff lda : Nat) : Outcome (List R) :=
  if incx = 0 then .error "inc_x is zero"
  else if incy = 0 then .error "inc_y is zero"
  else if lda < max 1 n then .error "lda is less than max(1, n)"
  else fortranGer n m alpha y yoff incy x xoff incx a aoff lda

/-- BLAS `xDOT` (Vendor.cpp 403–438): `Σ x_i*y_i`. -/
def blasDot (n : Nat) (x : List R) (xoff incx : Nat) (y : List R) (yoff incy : Nat) : Outcome R :=
  sumLoop (fun i => do
    let u ← memGet x (xoff + i * incx)
    let v ← memGet y (yoff + i * incy)
    return u * v) (List.range n) 0

/-- BLAS `xSCAL` (Vendor.cpp 367–389): `x := alpha*x`; nothing for a zero increment. -/
def blasScal (n : Nat) (alpha : R) (x : List R) (xoff inc : Nat) : Outcome (List R) :=
  if inc = 0 then .ok x
  else (List.range n).foldlM (fun mem i => memUpd mem (xoff + i * inc) fun old => .ok (alpha * old)) x

/-- BLAS `xAXPY` (Vendor.cpp 451–474): `y := alpha*x + y`. -/
def blasAxpy (n : Nat) (alpha : R) (x : List R) (xoff incx : Nat) (y : List R) (yoff incy : Nat) :
    Outcome (List R) :=
  (List.range n).foldlM (fun mem i => memUpd mem (yoff + i * incy) fun old => do
    let u ← memGet x (xoff + i * incx)
    return old + alpha * u) y

/-- Vendor.cpp 476–500: `axpby` is `scal` then `axpy`. -/
def vendorAxpby (n : Nat) (a : R) (x : List R) (xoff incx : Nat) (b : R) (y : List R) (yoff incy : Nat) :
    Outcome (List R) :=
  blasScal n b y yoff incy >>= fun y => blasAxpy n a x xoff incx y yoff incy

end Einsums.Model
