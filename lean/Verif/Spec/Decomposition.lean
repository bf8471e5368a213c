import Verif.Spec.LinAlg
import Verif.Spec.Tensor
import Mathlib.Algebra.BigOperators.Group.List.Lemmas
import Mathlib.Algebra.Ring.Defs
/-
Specification of the decompositions: what a Canonical Polyadic and a Tucker decomposition denote.
-/
namespace Einsums.Spec

variable {R : Type}

/-- Element `i` of the CP decomposition with `rank` terms and factor matrices `F 0`, ..., `F (N-1)`:
`Σ_r Π_n F n (i_n, r)`. -/
def cpElem [Semiring R] (N rank : Nat) (F : Nat → Nat → Nat → R) (i : List Nat) : R :=
  sumTo rank fun r => ((List.range N).map fun n => F n (i.getD n 0) r).prod

/-- Element `j` of a tensor `G` of dimensions `dims` multiplied along every axis `m` by the matrix `F m`:
`Σ_k G(k) * Π_m F m (j_m, k_m)`. -/
def tuckerElem [Semiring R] (dims : List Nat) (G : List Nat → R) (F : Nat → Nat → Nat → R) (j : List Nat) : R :=
  ((box dims).map fun k => G k * ((List.range dims.length).map fun m => F m (j.getD m 0) (k.getD m 0)).prod).sum

/-- Row `j`, column `r` of the Khatri-Rao product of the matrices `F m`, `m` in `ms` (the row is a multi-index, first
matrix first): `Π F m (j_m, r)`. -/
def krElem [Semiring R] (F : Nat → Nat → Nat → R) (ms j : List Nat) (r : Nat) : R :=
  ((ms.zip j).map fun p => F p.1 p.2 r).prod

/-- The modes other than `n`, in increasing order. -/
def otherModes (N n : Nat) : List Nat := (List.range N).filter (· ≠ n)

/-- The sum of the squared differences between the tensor `T` and the CP decomposition `F`. -/
def cpError [Ring R] (dims : List Nat) (rank : Nat) (T : List Nat → R) (F : Nat → Nat → Nat → R) : R :=
  ((box dims).map fun i => (T i - cpElem dims.length rank F i) ^ 2).sum

/-- The sum of the squared differences between the tensor `T` and the CP decomposition `F`, the elements with first index `x` weighted by
`w x` squared. -/
def weightedError [Ring R] (dims : List Nat) (rank : Nat) (w : Nat → R) (T : List Nat → R) (F : Nat → Nat → Nat → R) : R :=
  ((box dims).map fun i => (w (i.headD 0)) ^ 2 * (T i - cpElem dims.length rank F i) ^ 2).sum

/-- The factors `F` with factor `n` replaced by `X`. -/
def withFactor (F : Nat → Nat → Nat → R) (n : Nat) (X : Nat → Nat → R) : Nat → Nat → Nat → R :=
  fun m => if m = n then X else F m

/-- The factor matrices: row-major tensors of `dims[m]` rows and `rank` columns with the elements `F m`. -/
def FactorsOk (dims : List Nat) (rank : Nat) (factors : List (Model.Strided R)) (F : Nat → Nat → Nat → R) : Prop :=
  factors.length = dims.length ∧ ∀ (m : Nat) (f : Model.Strided R) d, factors[m]? = some f → dims[m]? = some d →
    f.IsTensor ∧ f.dims = [d, rank] ∧ f.Represents fun i => F m (i.getD 0 0) (i.getD 1 0)

/-- The matrix whose row `a` and column number `c` is the element of `T` with index `a` on axis `m` and the other indices those of the
`c`-th element, in row-major order. -/
def unfolding (dims : List Nat) (T : List Nat → R) (m : Nat) : Nat → Nat → R :=
  fun a c => T (((box (dims.eraseIdx m)).getD c []).insertIdx m a)

/-- The factor matrices of a Tucker decomposition: row-major tensors of `dims[m]` rows and `ranks[m]` columns with the elements `F m`. -/
def TuckerFactors (dims ranks : List Nat) (factors : List (Model.Strided R)) (F : Nat → Nat → Nat → R) : Prop :=
  factors.length = dims.length ∧ ∀ (m : Nat) d r, dims[m]? = some d → ranks[m]? = some r → ∃ f, factors[m]? = some f ∧
    f.IsTensor ∧ f.dims = [d, r] ∧ f.Represents fun i => F m (i.getD 0 0) (i.getD 1 0)

/-- The columns of every factor are orthonormal. -/
def OrthonormalColumns [Semiring R] (dims ranks : List Nat) (F : Nat → Nat → Nat → R) : Prop :=
  ∀ (m : Nat) d r, dims[m]? = some d → ranks[m]? = some r → ∀ a b, a < r → b < r →
    sumTo d (fun x => F m x a * F m x b) = if a = b then 1 else 0

/-- `f`, whose axis `i` has length `d`, multiplied along axis `i` by the matrix `C`. -/
def modeMul [Semiring R] (i d : Nat) (C : Nat → Nat → R) (f : List Nat → R) : List Nat → R :=
  fun j => sumTo d fun c => f (j.set i c) * C (j.getD i 0) c

/-- The tensor `T` multiplied along every axis but `i` by the transposed factor. -/
def allButOne [Semiring R] (dims : List Nat) (F : Nat → Nat → Nat → R) (i : Nat) (T : List Nat → R) : List Nat → R :=
  (otherModes dims.length i).foldl (fun f m => modeMul m (dims.getD m 0) (fun r s => F m s r) f) T

/-- The left singular vectors of the unfoldings of `T`; `left d k A` are those of the d×k matrix `A`. -/
def hoSvdVectors (left : Nat → Nat → (Nat → Nat → R) → Nat → Nat → R) (dims : List Nat) (T : List Nat → R) : Nat → Nat → Nat → R :=
  fun m => left (dims.getD m 0) (numel (dims.eraseIdx m)) (unfolding dims T m)

/-- One step of the higher-order orthogonal iteration: for every axis `m`, the left singular vectors of the unfolding along `m` of the
tensor projected on the columns of all the other factors. -/
def hoOiVectors [Semiring R] (left : Nat → Nat → (Nat → Nat → R) → Nat → Nat → R) (dims ranks : List Nat) (T : List Nat → R)
    (F : Nat → Nat → Nat → R) : Nat → Nat → Nat → R :=
  fun m => left (dims.getD m 0) (numel (ranks.eraseIdx m)) (unfolding (ranks.set m (dims.getD m 0)) (allButOne dims F m T) m)

/-- The sum of the squared differences of two tensors. -/
def squaredError [Ring R] (dims : List Nat) (T T' : List Nat → R) : R := ((box dims).map fun i => (T i - T' i) ^ 2).sum

end Einsums.Spec
