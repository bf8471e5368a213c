import Mathlib.Algebra.Order.Group.Abs
import Mathlib.Algebra.Ring.Defs
import Verif.Model.Lapack
/-
Model of the functions built on products and eigenvectors of matrices: `symm_gemm`, `syev`, `pow` (BaseLinearAlgebra.hpp)
and `solve_continuous_lyapunov` (LinearAlgebra.hpp).  The LAPACK routines are arguments, as in Model/Lapack.lean; their
documented contracts are in Spec/Spectral.lean.
-/
namespace Einsums.Model

variable {R : Type}

/-! ### Products -/

section Products
variable [Add R] [Mul R] [Zero R] [One R] [BEq R]

/-- LinearAlgebra.hpp 129–142: `gemm<TransA, TransB>(alpha, A, B)` into a new tensor; `z`: what is in its memory. -/
def gemmNew (z : Nat → R) (transA transB : Bool) (alpha : R) (A B : Strided R) : Outcome (Strided R) :=
  gemm transA transB alpha A B 0
    (Strided.mk' z [if transA then A.dim 1 else A.dim 0, if transB then B.dim 0 else B.dim 1])

/-- BaseLinearAlgebra.hpp 299–307: the condition asserted by `symm_gemm<TransA, TransB>`. -/
def symmGemmAssert (transA transB : Bool) (A B C : Strided R) : Bool :=
  match transA, transB with
  | true, true => B.dim 0 == A.dim 0 && A.dim 1 == B.dim 0 && C.dim 0 == B.dim 1 && C.dim 1 == B.dim 1
  | true, false => B.dim 1 == A.dim 0 && A.dim 1 == B.dim 1 && C.dim 0 == B.dim 0 && C.dim 1 == B.dim 0
  | false, true => B.dim 0 == A.dim 1 && A.dim 0 == B.dim 0 && C.dim 0 == B.dim 1 && C.dim 1 == B.dim 1
  | false, false => B.dim 1 == A.dim 1 && A.dim 0 == B.dim 1 && C.dim 0 == B.dim 0 && C.dim 1 == B.dim 0

/-- BaseLinearAlgebra.hpp 297–327: `symm_gemm<TransA, TransB>(A, B, &C)` for a `Tensor` C that is neither A nor B.
`ndebug`: compiled with NDEBUG, asserts removed. -/
def symmGemm (ndebug transA transB : Bool) (z : Nat → R) (A B C : Strided R) : Outcome (Strided R) :=
  if ndebug = false ∧ symmGemmAssert transA transB A B C = false then .ub "assert"
  else
    let tempRows := if transA then A.dim 1 else A.dim 0
    let tempCols := if transB then B.dim 0 else B.dim 1
    gemm transA transB 1 A B 0 (Strided.mk' z [tempRows, tempCols]) >>= fun temp =>
      gemm (!transB) false 1 B temp 0 C.zero

end Products

/-! ### Symmetric eigenproblem -/

/-- Vendor.cpp 300–316 (external): xSYEV with UPLO = 'U': `vectors n A ↦` (eigenvalues, what is left in A). -/
abbrev SyevFn (R : Type) := Bool → Nat → Mat R → (Nat → R) × Mat R

/-- Vendor.cpp 300–316 (external): a routine stores `n` numbers at `w + off`. -/
def vecStore (n : Nat) (v : Nat → R) (w : List R) (off : Nat) : Outcome (List R) :=
  (List.range n).foldlM (fun mem i => memUpd mem (off + i) fun _ => .ok (v i)) w

section Eigen
variable [Zero R]

/-- Vendor.cpp 300–316: `syev(job, 'u', n, a, lda, w, work, lwork)`: no transposition.  LAPACK rejects LDA < max(1, n) and
LWORK < max(1, 3n-1).  Simplification: without eigenvectors LAPACK overwrites only the triangle it reads; here the whole
matrix is overwritten by what the routine returns. -/
def vendorSyev (syev : SyevFn R) (vectors : Bool) (n : Nat) (a : List R) (off lda : Nat) (w : List R) (woff lwork : Nat) :
    Outcome (List R × List R) :=
  if lda < max 1 n ∨ lwork < max 1 (3 * n - 1) then .error "XERBLA"
  else do
    let M ← colMat n n a off lda
    let a' ← colStore n n (syev vectors n M).2 a off lda
    let w' ← vecStore n (syev vectors n M).1 w woff
    return (a', w')

/-- BaseLinearAlgebra.hpp 52–68: `syev<ComputeEigenvectors>(&A, &W)`.  The returned `info` is dropped. -/
def syevT (syev : SyevFn R) (vectors : Bool) (A W : Strided R) : Outcome (Strided R × Strided R) :=
  if A.dim 0 ≠ A.dim 1 then .ub "assert"
  else do
    let r ← vendorSyev syev vectors (A.dim 0) A.data A.off (A.stride 0) W.data W.off (3 * A.dim 0)
    return ({ A with data := r.1 }, { W with data := r.2 })

/-- LinearAlgebra.hpp 305–319: `syev<ComputeEigenvectors>(A)` of a `Tensor`: eigenvectors and eigenvalues. -/
def syevNew (syev : SyevFn R) (z : Nat → R) (vectors : Bool) (A : Strided R) : Outcome (Strided R × Strided R) :=
  if A.dim 0 ≠ A.dim 1 then .ub "assert"
  else syevT syev vectors A (Strided.mk' z [A.dim 0])

end Eigen

/-! ### Matrix powers -/

section Pow
variable [Ring R] [LinearOrder R] [BEq R]

/-- BaseLinearAlgebra.hpp 382–389: the largest magnitude of the eigenvalues. -/
def powMax (e : Strided R) (n : Nat) : Outcome R :=
  (List.range n).foldlM (fun maxE (i : Nat) => do
    let x ← e.read [(i : Int)]
    return if maxE < |x| then |x| else maxE) 0

/-- BaseLinearAlgebra.hpp 392–399: the new value of an eigenvalue; `rpow x alpha` is `std::pow(x, alpha)`, `none` if that is
not finite. -/
def powValue (rpow : R → R → Option R) (alpha cutoff maxE x : R) : R :=
  if alpha < 0 ∧ |x| < cutoff * maxE then 0 else (rpow x alpha).getD 0

/-- BaseLinearAlgebra.hpp 391–402: the loop over the eigenvalues. -/
def powLoop (rpow : R → R → Option R) (alpha cutoff maxE : R) (n : Nat) (e a2 : Strided R) :
    Outcome (Strided R × Strided R) :=
  (List.range n).foldlM (fun (s : Strided R × Strided R) (i : Nat) => do
    let x ← s.1.read [(i : Int)]
    let e ← s.1.write [(i : Int)] (powValue rpow alpha cutoff maxE x)
    let y ← e.read [(i : Int)]
    let a2 ← scaleRow i y s.2
    return (e, a2)) (e, a2)

/-- BaseLinearAlgebra.hpp 355–407: `pow(a, alpha, cutoff)` of a real `Tensor`. -/
def matPow (syev : SyevFn R) (rpow : R → R → Option R) (z : Nat → R) (a : Strided R) (alpha cutoff : R) :
    Outcome (Strided R) :=
  if a.dim 0 ≠ a.dim 1 then .ub "assert"
  else do
    let n := a.dim 0
    let s ← syevT syev true a (Strided.mk' z [n])
    let maxE ← powMax s.2 n
    let r ← powLoop rpow alpha cutoff maxE n s.2 s.1
    gemm true false 1 r.2 s.1 0 (Strided.mk' z a.dims).zero

end Pow

/-! ### Lyapunov equation -/

/-- Vendor.cpp 955–960 (external): xGEES with JOBVS = 'V', SORT = 'N': `n A ↦ (T, VS)`. -/
abbrev GeesFn (R : Type) := Nat → Mat R → Mat R × Mat R

/-- Vendor.cpp 1013–1014 (external): xTRSYL with TRANA = TRANB = 'N', ISGN = 1: `m n A B C ↦ (scale, X)`. -/
abbrev TrsylFn (R : Type) := Nat → Nat → Mat R → Mat R → Mat R → R × Mat R

section Lyapunov
variable [Zero R]

/-- Vendor.cpp 920–976: `gees('V', n, a, lda, ..., vs, ldvs)`; `a` and `vs` start at the beginning of their storage.
Simplification: the eigenvalues in `wr`, `wi`, which have room for n² numbers, are dropped. -/
def vendorGees (gees : GeesFn R) (n : Nat) (a : List R) (lda : Nat) (vs : List R) (ldvs : Nat) : Outcome (List R × List R) :=
  if lda < n then .error "gees: lda < n"
  else if ldvs < n then .error "gees: ldvs < n"
  else do
    let r ← viaColumns n n a 0 lda fun M => .ok (gees n M)
    let vs' ← storeColumns n n n (max 1 n) r.2 vs 0 ldvs n
    return (r.1, vs')

/-- Vendor.cpp 979–1024: `trsyl('N', 'N', 1, m, n, a, lda, b, ldb, c, ldc, scale)`. -/
def vendorTrsyl (trsyl : TrsylFn R) (m n : Nat) (a : List R) (lda : Nat) (b : List R) (ldb : Nat) (c : List R) (ldc : Nat) :
    Outcome (List R × R) :=
  if lda < m then .error "trsyl: lda < m"
  else if ldb < n then .error "trsyl: ldb < n"
  else if ldc < n then .error "trsyl: ldc < n"
  else do
    let at0 ← transposeRow m m a 0 lda (List.replicate (max 1 m * max 1 m) 0) 0 (max 1 m)
    let bt0 ← transposeRow n n b 0 ldb (List.replicate (max 1 n * max 1 n) 0) 0 (max 1 n)
    let A ← colMat m m at0 0 (max 1 m)
    let B ← colMat n n bt0 0 (max 1 n)
    viaColumns m n c 0 ldc fun C => .ok ((trsyl m n A B C).2, (trsyl m n A B C).1)

end Lyapunov

/-- LinearAlgebra.hpp 916–956: `solve_continuous_lyapunov(A, Q)` of `Tensor`s.  A negative return value of `gees` or
`trsyl` (not possible here) would be ignored. -/
def lyapunov [Add R] [Mul R] [Zero R] [One R] [BEq R] (gees : GeesFn R) (trsyl : TrsylFn R) (z : Nat → R)
    (A Q : Strided R) : Outcome (Strided R) :=
  if A.dim 0 ≠ A.dim 1 ∨ Q.dim 0 ≠ Q.dim 1 ∨ A.dim 0 ≠ Q.dim 0 then .error "abort: dimensions do not match"
  else do
    let n := A.dim 0
    let u0 := Strided.mk' z [n, n]
    let s ← vendorGees gees n A.data n u0.data n
    let U := { u0 with data := s.2 }
    let Fbuff ← gemmNew z true false 1 U Q
    let F ← gemmNew z false false 1 Fbuff U
    let t ← vendorTrsyl trsyl n n s.1 n s.1 n F.data n
    let Xbuff ← gemmNew z false false t.2 U { F with data := t.1 }
    gemmNew z false true 1 Xbuff U

end Einsums.Model
