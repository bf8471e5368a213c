import Verif.Model.Spectral
/-
Model of the randomised decompositions `truncated_svd` and `truncated_syev` (LinearAlgebra.hpp) of real matrices.  The LAPACK
routines are arguments, as in Model/Lapack.lean; `omega` is what `create_random_tensor` returns.
-/
namespace Einsums.Model

variable {R : Type} [Add R] [Mul R] [Zero R] [One R] [BEq R]

/-- LinearAlgebra.hpp 803–818 and 847–857: the range finder: an orthonormal basis, as LAPACK's QR computes it, of the columns
of A times an n×l random matrix.  The return values of `geqrf` and `orgqr` are ignored by the code; a rejected argument ends
the program in XERBLA. -/
def rangeFinder (geqrf : GeqrfFn R) (orgqr : OrgqrFn R) (z omega : Nat → R) (A : Strided R) (l : Nat) :
    Outcome (Strided R) := do
  let m := A.dim 0
  let n := A.dim 1
  let Y ← gemm false false 1 A (Strided.mk' omega [n, l]) 0 (Strided.mk' z [m, l])
  let r ← vendorGeqrf geqrf m l Y.data 0 l
  let tau := (List.range (min m l)).map r.2
  let d ← vendorOrgqr orgqr m l (min m l) r.1 0 l tau
  return { Y with data := d }

/-- LinearAlgebra.hpp 793–832: `truncated_svd(A, k)`. -/
def truncatedSvd (geqrf : GeqrfFn R) (orgqr : OrgqrFn R) (gesdd : GesddFn R) (z omega : Nat → R) (A : Strided R) (k : Nat) :
    Outcome (Strided R × Strided R × Strided R) := do
  let m := A.dim 0
  let n := A.dim 1
  let Y ← rangeFinder geqrf orgqr z omega A (k + 5)
  let B ← gemm true false 1 Y A 0 (Strided.mk' z [k + 5, n])
  let s ← svdDd gesdd B .all
  let U ← gemm false false 1 Y s.1 0 (Strided.mk' z [m, k + 5])
  return (U, s.2.1, s.2.2)

/-- LinearAlgebra.hpp 834–880: `truncated_syev(A, k)`; `println_abort` is an error. -/
def truncatedSyev (geqrf : GeqrfFn R) (orgqr : OrgqrFn R) (syev : SyevFn R) (z omega : Nat → R) (A : Strided R) (k : Nat) :
    Outcome (Strided R × Strided R) :=
  if A.dim 0 ≠ A.dim 1 then .error "Non-square matrix used as input of truncated_syev!"
  else do
    let n := A.dim 0
    let Q1 ← rangeFinder geqrf orgqr z omega A (k + 5)
    let Btemp ← gemm true false 1 Q1 A 0 (Strided.mk' z [k + 5, n])
    let B ← gemm false false 1 Btemp Q1 0 (Strided.mk' z [k + 5, k + 5])
    let s ← syevT syev true B (Strided.mk' z [k + 5])
    let U ← gemm false true 1 Q1 s.1 0 (Strided.mk' z [n, k + 5])
    return (U, s.2)

end Einsums.Model
