import Verif.Model.LinearAlgebra
/-
Model of the LAPACK layer: the row-major wrappers of src/backends/linear_algebra/vendor/Vendor.cpp (with `transpose` of
vendor/Utilities.hpp) around the column-major Fortran routines, and the functions of LinearAlgebra.hpp on top of them.

The Fortran routines are arguments: functions from the matrix they read to the matrices they write (their documented
contracts are in Spec/Factor.lean).  A matrix is a function of row and column, 0 outside its shape.
Simplifications: `blas_int` is unbounded; workspace queries are dropped; one real element type; the argument of a function
that starts by copying it is a `Tensor` (a view is first copied to one, see C12).
-/
namespace Einsums.Model

/-- Vendor.cpp 672–1359 (external LAPACK): a matrix as the routines see it. -/
abbrev Mat (R : Type) := Nat → Nat → R

variable {R : Type} [Zero R]

/-- Vendor.cpp 672–1359 (external LAPACK): only the elements inside an m×n shape. -/
def crop (m n : Nat) (f : Mat R) : Mat R := fun i j => if i < m ∧ j < n then f i j else 0

/-- Vendor.cpp 672–1359 (external LAPACK): the m×n matrix that a routine finds at `a + off`, column by column, columns
`ld` elements apart. -/
def colMat (m n : Nat) (a : List R) (off ld : Nat) : Outcome (Mat R) :=
  if (colPairs m n).all (fun ij => decide (off + ij.1 + ij.2 * ld < a.length)) then
    .ok (crop m n fun i j => a.getD (off + i + j * ld) 0)
  else .ub "LAPACK reads outside the storage"

/-- Vendor.cpp 672–1359 (external LAPACK): a routine stores the m×n matrix `M` at `a + off`. -/
def colStore (m n : Nat) (M : Mat R) (a : List R) (off ld : Nat) : Outcome (List R) :=
  (colPairs m n).foldlM (fun mem ij => memUpd mem (off + ij.1 + ij.2 * ld) fun _ => .ok (M ij.1 ij.2)) a

/-- vendor/Utilities.hpp 22–45: `transpose<Order>(m, n, in, ldin, out, ldout)`; `x`, `y` are set by the order. -/
def transposeLoop (x y : Nat) (inp : List R) (ioff ldin : Nat) (out : List R) (ooff ldout : Nat) : Outcome (List R) :=
  (colPairs (min x ldout) (min y ldin)).foldlM (fun mem ji =>
    memUpd mem (ooff + ji.2 * ldout + ji.1) fun _ => memGet inp (ioff + ji.1 * ldin + ji.2)) out

/-- vendor/Utilities.hpp 30–33, 22–45: `transpose<OrderMajor::Row>`. -/
def transposeRow (m n : Nat) (inp : List R) (ioff ldin : Nat) (out : List R) (ooff ldout : Nat) : Outcome (List R) :=
  transposeLoop m n inp ioff ldin out ooff ldout

/-- vendor/Utilities.hpp 27–30, 22–45: `transpose<OrderMajor::Column>`. -/
def transposeColumn (m n : Nat) (inp : List R) (ioff ldin : Nat) (out : List R) (ooff ldout : Nat) : Outcome (List R) :=
  transposeLoop n m inp ioff ldin out ooff ldout

/-- Vendor.cpp 1039–1065 (`orgqr`), 1119–1149 (`geqrf`), 955–973 (`gees`), 707–730 (`gesdd`), 883–905 (`gesvd`): the common
frame of the wrappers: copy the row-major m×n matrix at `a + off` to a column-major temporary, let the routine read it,
overwrite it with what the routine computes, copy it back. -/
def viaColumns {β : Type} (m n : Nat) (a : List R) (off lda : Nat) (call : Mat R → Outcome (Mat R × β)) :
    Outcome (List R × β) := do
  let ldt := max 1 m
  let at0 ← transposeRow m n a off lda (List.replicate (ldt * max 1 n) 0) 0 ldt
  let M ← colMat m n at0 0 ldt
  let r ← call M
  let at1 ← colStore m n r.1 at0 0 ldt
  let a' ← transposeColumn m n at1 0 ldt a off lda
  return (a', r.2)

/-- Vendor.cpp 716–737 (`gesdd`), 886–909 (`gesvd`), 948–972 (`gees`): an output matrix: the routine fills an `r`×`c`
temporary of leading dimension `ldt` and size `ldt * max 1 c'`, which is copied to the row-major matrix at `u + off`. -/
def storeColumns (r c c' ldt : Nat) (M : Mat R) (u : List R) (off ldu : Nat) (nrows : Nat) : Outcome (List R) := do
  let t ← colStore r c M (List.replicate (ldt * max 1 c') 0) 0 ldt
  transposeColumn nrows c t 0 ldt u off ldu

/-! ### QR factorisation -/

/-- Vendor.cpp 1130–1142 (external): xGEQRF: `m n A ↦` (reflectors below and R on and above the diagonal, tau). -/
abbrev GeqrfFn (R : Type) := Nat → Nat → Mat R → Mat R × (Nat → R)

/-- Vendor.cpp 1046–1056 (external): xORGQR: `m n k A tau ↦ Q`. -/
abbrev OrgqrFn (R : Type) := Nat → Nat → Nat → Mat R → (Nat → R) → Mat R

/-- Vendor.cpp 1113–1152: `geqrf(m, n, a, lda, tau)`; the callers abort on a negative return value. -/
def vendorGeqrf (geqrf : GeqrfFn R) (m n : Nat) (a : List R) (off lda : Nat) : Outcome (List R × (Nat → R)) :=
  if lda < n then .error "geqrf: lda < n"
  else viaColumns m n a off lda fun M => .ok (geqrf m n M)

/-- Vendor.cpp 1029–1066: `orgqr(m, n, k, a, lda, tau)`.  LAPACK rejects arguments other than m ≥ n ≥ k. -/
def vendorOrgqr (orgqr : OrgqrFn R) (m n k : Nat) (a : List R) (off lda : Nat) (tau : List R) : Outcome (List R) :=
  if lda < n then .error "orgqr: lda < n"
  else if m < n ∨ n < k then .error "XERBLA"
  else if tau.length < k then .ub "LAPACK reads outside the storage"
  else do
    let r ← viaColumns m n a off lda fun M => .ok (orgqr m n k M fun i => tau.getD i 0, ())
    return r.1

/-- LinearAlgebra.hpp 961–984: `qr(A)` of a `Tensor`: the factored matrix and tau. -/
def qr (geqrf : GeqrfFn R) (A : Strided R) : Outcome (Strided R × Strided R) := do
  let m := A.dim 0
  let n := A.dim 1
  let r ← vendorGeqrf geqrf m n A.data 0 n
  return ({ A with data := r.1 }, ⟨(List.range (min m n)).map r.2, 0, [min m n], [1]⟩)

/-- LinearAlgebra.hpp 986–1006: `q(qr, tau)` of `Tensor`s. -/
def qrQ (orgqr : OrgqrFn R) (QR tau : Strided R) : Outcome (Strided R) := do
  let m := QR.dim 1
  let p := QR.dim 0
  let d ← vendorOrgqr orgqr m m p QR.data 0 m tau.data
  return { QR with data := d }

/-! ### Singular values -/

/-- LinearAlgebra.hpp 753: `enum class Vectors`. -/
inductive Job
  | all | some | overwrite | none
  deriving DecidableEq

/-- Vendor.cpp 728–729 (external): what xGESDD computes: singular values, U, Vt. -/
structure SvdResult (R : Type) where
  s : Nat → R
  u : Mat R
  vt : Mat R

/-- Vendor.cpp 728–729 (external): xGESDD: `job m n A ↦` result. -/
abbrev GesddFn (R : Type) := Job → Nat → Nat → Mat R → SvdResult R

/-- Vendor.cpp 678: `nrows_u`: the letter 'O' is compared with the digit '0', so `Overwrite` never matches. -/
def gesddNrowsU (job : Job) (m : Nat) : Nat := if job = .all ∨ job = .some then m else 1

/-- Vendor.cpp 679: `ncols_u`. -/
def gesddNcolsU (job : Job) (m n : Nat) : Nat :=
  if job = .all ∨ (job = .overwrite ∧ m < n) then m else if job = .some then min m n else 1

/-- Vendor.cpp 680: `nrows_vt`. -/
def gesddNrowsVt (job : Job) (m n : Nat) : Nat :=
  if job = .all ∨ (job = .overwrite ∧ n ≤ m) then n else if job = .some then min m n else 1

/-- Vendor.cpp 672–740: `gesdd(jobz, m, n, a, lda, s, u, ldu, vt, ldvt)`; `a`, `u`, `vt` start at the beginning of their
storage.  LAPACK rejects LDU < m when it has to store U.  Simplification: what LAPACK leaves in `a` is dropped (the only
caller never reads it).  `info` after the computation is not looked at. -/
def vendorGesdd (gesdd : GesddFn R) (job : Job) (m n : Nat) (a : List R) (lda : Nat) (u : List R) (ldu : Nat)
    (vt : List R) (ldvt : Nat) : Outcome ((Nat → R) × List R × List R) :=
  let nrowsU := gesddNrowsU job m
  let ncolsU := gesddNcolsU job m n
  let nrowsVt := gesddNrowsVt job m n
  let lduT := max 1 nrowsU
  let ldvtT := max 1 nrowsVt
  let hasU : Bool := decide (job = .all ∨ job = .some ∨ (job = .overwrite ∧ m < n))
  let hasVt : Bool := decide (job = .all ∨ job = .some ∨ (job = .overwrite ∧ n ≤ m))
  if lda < n then .error "gesdd: lda < n"
  else if ldu < ncolsU then .error "gesdd: ldu < ncols_u"
  else if ldvt < n then .error "gesdd: ldvt < n"
  else if hasU = true ∧ lduT < m then .error "XERBLA"
  else do
    let at0 ← transposeRow m n a 0 lda (List.replicate (max 1 m * max 1 n) 0) 0 (max 1 m)
    let M ← colMat m n at0 0 (max 1 m)
    let r := gesdd job m n M
    let u' ← if hasU then storeColumns m ncolsU ncolsU lduT r.u u 0 ldu nrowsU else .ok u
    let vt' ← if hasVt then storeColumns nrowsVt n n ldvtT r.vt vt 0 ldvt nrowsVt else .ok vt
    return (r.s, u', vt')

/-- LinearAlgebra.hpp 755–790: `svd_dd(A, job)`: U (m×m), the singular values, Vt (n×n). -/
def svdDd (gesdd : GesddFn R) (A : Strided R) (job : Job) : Outcome (Strided R × Strided R × Strided R) := do
  let m := A.dim 0
  let n := A.dim 1
  let r ← vendorGesdd gesdd job m n A.data n (List.replicate (m * m) 0) m (List.replicate (n * n) 0) n
  return (⟨r.2.1, 0, [m, m], [m, 1]⟩, ⟨(List.range (min m n)).map r.1, 0, [min m n], [1]⟩, ⟨r.2.2, 0, [n, n], [n, 1]⟩)

/-- Vendor.cpp 894–895 (external): xGESVD with jobvt = 'A': `computeU m n A ↦` result. -/
abbrev GesvdFn (R : Type) := Bool → Nat → Nat → Mat R → SvdResult R

/-- Vendor.cpp 834–920: `gesvd(jobu, 'A', m, n, a, lda, s, u, ldu, vt, ldvt, superb)` with jobu = 'A' (`withU`) or 'N';
`work` is what LAPACK leaves in its work array.  What LAPACK leaves in `a` is dropped. -/
def vendorGesvd (gesvd : GesvdFn R) (work : Nat → R) (withU : Bool) (m n : Nat) (a : List R) (lda : Nat) (u : List R)
    (ldu : Nat) (vt : List R) (ldvt : Nat) (superb : List R) : Outcome ((Nat → R) × List R × List R) :=
  let nrowsU := if withU then m else 1
  let ncolsU := if withU then m else 1
  if lda < n then .error "gesvd: lda < n"
  else if ldu < ncolsU then .error "gesvd: ldu < ncols_u"
  else if ldvt < n then .error "gesvd: ldvt < ncols_vt"
  else do
    let at0 ← transposeRow m n a 0 lda (List.replicate (max 1 m * max 1 n) 0) 0 (max 1 m)
    let M ← colMat m n at0 0 (max 1 m)
    let r := gesvd withU m n M
    let u' ← if withU then storeColumns m ncolsU ncolsU (max 1 nrowsU) r.u u 0 ldu nrowsU else .ok u
    let vt' ← storeColumns n n n (max 1 n) r.vt vt 0 ldvt n
    let _ ← (List.range (min m n - 1)).foldlM (fun mem i => memUpd mem i fun _ => .ok (work (i + 1))) superb
    return (r.s, u', vt')

/-- LinearAlgebra.hpp 683 and 728: `create_tensor<T>("superb", std::min(m, n) - 2)`: the unsigned difference wraps, and
no vector can have that many elements. -/
def superbSize (m n : Nat) : Outcome Nat :=
  if min m n < 2 then .error "std::length_error" else .ok (min m n - 2)

/-- LinearAlgebra.hpp 656–699: `svd(A)`. -/
def svd (gesvd : GesvdFn R) (work : Nat → R) (A : Strided R) : Outcome (Strided R × Strided R × Strided R) := do
  let m := A.dim 0
  let n := A.dim 1
  let k ← superbSize m n
  let r ← vendorGesvd gesvd work true m n A.data (A.stride 0) (List.replicate (m * m) 0) m (List.replicate (n * n) 0) n
    (List.replicate k 0)
  return (⟨r.2.1, 0, [m, m], [m, 1]⟩, ⟨(List.range (min m n)).map r.1, 0, [min m n], [1]⟩, ⟨r.2.2, 0, [n, n], [n, 1]⟩)

/-- LinearAlgebra.hpp 701–751: `svd_nullspace(A)`.  `sqrt` is `std::sqrt`; every row of the whole of V is scaled by its
norm.  (`rank` and `Vview`, 743–749, are computed and not used.) -/
def svdNullspace [Add R] [Mul R] (sqrt : R → R) (gesvd : GesvdFn R) (work : Nat → R) (A : Strided R) :
    Outcome (Strided R) := do
  let m := A.dim 0
  let n := A.dim 1
  let k ← superbSize m n
  let r ← vendorGesvd gesvd work false m n A.data (A.stride 0) (List.replicate (m * m) 0) m (List.replicate (n * n) 0) n
    (List.replicate k 0)
  (List.range n).foldlM (fun (V : Strided R) (i : Nat) => do
    let s ← sumLoop (fun (j : Nat) => do
      let x ← V.read [(i : Int), (j : Int)]
      return x * x) (List.range n) 0
    let d ← blasScal n (sqrt s) V.data (V.off + i * n) 1
    return { V with data := d }) ⟨r.2.2, 0, [n, n], [n, 1]⟩

end Einsums.Model
