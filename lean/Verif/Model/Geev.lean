import Verif.Model.Spectral
/-
Model of `geev` (LinearAlgebra.hpp, BaseLinearAlgebra.hpp, Vendor.cpp) of real matrices.  xGEEV is an argument; its documented
contract is in Spec/Geev.lean.  A complex number is the pair of its parts.
-/
namespace Einsums.Model

variable {R : Type} [Zero R]

/-- Vendor.cpp 1332–1334 (external): what xGEEV computes: what is left in A, the parts of the eigenvalues, the eigenvectors. -/
structure GeevResult (R : Type) where
  a : Mat R
  wr : Nat → R
  wi : Nat → R
  vl : Mat R
  vr : Mat R

/-- Vendor.cpp 1332–1334 (external): xGEEV: `vectors n A ↦` result. -/
abbrev GeevFn (R : Type) := Bool → Nat → Mat R → GeevResult R

/-- Vendor.cpp 1277–1359: the real `geev(job, job, n, a + aoff, lda, w + woff, vl + vloff, ldvl, vr + vroff, ldvr)`: the
contents of `a`, `w`, `vl` and `vr` afterwards.  `toFloat`: the conversion to `float` in `std::complex<float>(wr[i], wi[i])`
(the identity if the element type is `float`).  A leading dimension that is too small: a warning is printed and nothing is
done; the caller drops the returned number.  The workspace query is dropped; `info > 0` (no convergence) is not modelled. -/
def vendorGeev (toFloat : R → R) (geev : GeevFn R) (vectors : Bool) (n : Nat) (a : List R) (aoff lda : Nat) (w : List (R × R))
    (woff : Nat) (vl : List R) (vloff ldvl : Nat) (vr : List R) (vroff ldvr : Nat) :
    Outcome (List R × List (R × R) × List R × List R) :=
  if lda < n ∨ (ldvl < 1 ∨ (vectors = true ∧ ldvl < n)) ∨ ldvr < 1 ∨ (vectors = true ∧ ldvr < n) then .ok (a, w, vl, vr)
  else do
    let r ← viaColumns n n a aoff lda fun M => .ok ((geev vectors n M).a, geev vectors n M)
    let vl' ← if vectors then storeColumns n n n (max 1 n) r.2.vl vl vloff ldvl n else .ok vl
    let vr' ← if vectors then storeColumns n n n (max 1 n) r.2.vr vr vroff ldvr n else .ok vr
    let w' ← vecStore n (fun i => (toFloat (r.2.wr i), toFloat (r.2.wi i))) w woff
    return (r.1, w', vl', vr')

/-- BaseLinearAlgebra.hpp 70–87: `geev<ComputeLeftRightEigenvectors>(&A, &W, &lvecs, &rvecs)`. -/
def geevT (toFloat : R → R) (geev : GeevFn R) (vectors : Bool) (A : Strided R) (W : Strided (R × R)) (L V : Strided R) :
    Outcome (Strided R × Strided (R × R) × Strided R × Strided R) :=
  if A.dim 0 ≠ A.dim 1 ∨ W.dim 0 ≠ A.dim 0 ∨ A.dim 0 ≠ L.dim 0 ∨ A.dim 1 ≠ L.dim 1 ∨ A.dim 0 ≠ V.dim 0 ∨ A.dim 1 ≠ V.dim 1 then
    .ub "assert"
  else do
    let r ← vendorGeev toFloat geev vectors (A.dim 0) A.data A.off (A.stride 0) W.data W.off L.data L.off (L.stride 0)
      V.data V.off (V.stride 0)
    return ({ A with data := r.1 }, { W with data := r.2.1 }, { L with data := r.2.2.1 }, { V with data := r.2.2.2 })

end Einsums.Model
