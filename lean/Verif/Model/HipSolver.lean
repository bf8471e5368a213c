import Verif.Model.HipBlas
import Verif.Model.Gesv
import Verif.Model.Spectral
/-
Model of the solvers of the GPU backend (src/backends/linear_algebra/hipblas/hipsolver.hip): `syev` and `gesv` on host pointers.

The hipSOLVER routines are arguments, with the contracts of the LAPACK routines; conventions and simplifications are those of
Model/HipBlas.lean.  (`getrf` is in Model/HipResources.lean: it never returns normally.)
-/
namespace Einsums.Model

variable {K : Type} [Zero K]

/-- hipsolver.hip 63–117 (`ssyev`), 119–175 (`dsyev`), 177–292 (`cheev`, `zheev`), for `uplo` = 'U'.  The eigenvalues are new device
memory.  Simplifications: the work array is accepted; the returned `info` is not modelled; for the complex types the eigenvalues
have the type of the elements. -/
def backendSyev (syev : SyevFn K) (junk : Nat → K) (vectors : Bool) (n : Nat) (a : List K) (aoff lda : Nat) (w : List K)
    (woff : Nat) : Outcome (List K × List K) := do
  let aSize ← intMul n lda
  let ag ← hostRead a aoff aSize
  let r ← vendorSyev syev vectors n ag 0 lda (newDevice junk n) 0 (max 1 (3 * n))
  let a ← hostWrite a aoff r.1
  let w ← hostWrite w woff r.2
  return (a, w)

/-- hipsolver.hip 295–353 (`sgesv`), 355–533 (the other types).  On AMD hardware the solution replaces b in device memory, on NVIDIA
hardware it replaces a second copy of b; either is copied back.  Simplification: the pivots are not modelled. -/
def backendGesv (gesv : GesvRoutine K) (n nrhs : Nat) (a : List K) (aoff lda : Nat) (b : List K) (boff ldb : Nat) :
    Outcome (Nat × List K × List K) := do
  let aSize ← intMul n lda
  let bSize ← intMul n ldb
  let ag ← hostRead a aoff aSize
  let bg ← hostRead b boff bSize
  let r ← vendorGesv gesv n nrhs ag 0 lda bg 0 ldb
  let b ← hostWrite b boff r.2.2
  let a ← hostWrite a aoff r.2.1
  return (r.1, a, b)

end Einsums.Model
