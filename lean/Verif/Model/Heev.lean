import Verif.Model.Spectral
/-
Model of `heev` (BaseLinearAlgebra.hpp): eigenvalues and eigenvectors of Hermitian matrices.  `K` are the elements, `R` the real numbers.
-/
namespace Einsums.Model

variable {K R : Type}

/-- Vendor.cpp 318–333 (external): xHEEV with UPLO = 'U': `vectors n A ↦` (eigenvalues, what is left in A). -/
abbrev HeevFn (K R : Type) := Bool → Nat → Mat K → (Nat → R) × Mat K

/-- Vendor.cpp 318–333: `heev(job, 'u', n, a, lda, w, work, lwork, rwork)`: no transposition.  LAPACK rejects LDA < max(1, n) and
LWORK < max(1, 2n-1).  Simplification as for `vendorSyev`. -/
def vendorHeev [Zero K] (heev : HeevFn K R) (vectors : Bool) (n : Nat) (a : List K) (off lda : Nat) (w : List R) (woff lwork : Nat) :
    Outcome (List K × List R) :=
  if lda < max 1 n ∨ lwork < max 1 (2 * n - 1) then .error "XERBLA"
  else do
    let M ← colMat n n a off lda
    let a' ← colStore n n (heev vectors n M).2 a off lda
    let w' ← vecStore n (heev vectors n M).1 w woff
    return (a', w')

/-- BaseLinearAlgebra.hpp 88–109: `heev<ComputeEigenvectors>(&A, &W)`.  The returned `info` is dropped. -/
def heevT [Zero K] (heev : HeevFn K R) (vectors : Bool) (A : Strided K) (W : Strided R) : Outcome (Strided K × Strided R) :=
  if A.dim 0 ≠ A.dim 1 then .ub "assert"
  else do
    let r ← vendorHeev heev vectors (A.dim 0) A.data A.off (A.stride 0) W.data W.off (2 * A.dim 0)
    return ({ A with data := r.1 }, { W with data := r.2 })

end Einsums.Model
