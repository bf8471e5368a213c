import Verif.Model.Lapack
/-
Model of `getrf`, `getri`, `invert`, `norm` and `det` of LinearAlgebra.hpp.

These pass the storage of the tensor to LAPACK as it is, with stride(0) for the leading dimension: LAPACK, which works on
columns, sees the transposed matrix.  The Fortran routines are arguments (contracts in Spec/Lu.lean).  Simplifications as in
Model/Lapack.lean.  An argument that LAPACK rejects is an error (XERBLA, or the `abort()` in `getrf`).
-/
namespace Einsums.Model

variable {R : Type} [Zero R]

/-- Vendor.cpp 552–582 (external xGETRF): from the m×n matrix it reads: `info`, the matrix it stores, the pivots (1-based). -/
abbrev GetrfFn (R : Type) := Nat → Nat → Mat R → Nat × Mat R × (Nat → Nat)

/-- Vendor.cpp 584–622 (external xGETRI): from the factorisation and the pivots: `info` and the matrix it stores. -/
abbrev GetriFn (R : Type) := Nat → Mat R → (Nat → Nat) → Nat × Mat R

/-- Vendor.cpp 552–582: `getrf(m, n, a + off, lda, ipiv)`. -/
def vendorGetrf (getrf : GetrfFn R) (m n : Nat) (a : List R) (off lda : Nat) : Outcome (Nat × List R × (Nat → Nat)) :=
  if lda < max 1 m then .error "XERBLA"
  else do
    let M ← colMat m n a off lda
    let r := getrf m n M
    let a' ← colStore m n r.2.1 a off lda
    return (r.1, a', r.2.2)

/-- Vendor.cpp 584–622: `getri(n, a + off, lda, ipiv)`. -/
def vendorGetri (getri : GetriFn R) (n : Nat) (a : List R) (off lda : Nat) (ipiv : List Nat) : Outcome (Nat × List R) :=
  if lda < max 1 n then .error "XERBLA"
  else if ipiv.length < n then .ub "LAPACK reads outside the pivots"
  else do
    let M ← colMat n n a off lda
    let r := getri n M fun i => ipiv.getD i 0
    let a' ← colStore n n r.2 a off lda
    return (r.1, a')

/-- LinearAlgebra.hpp 514–531: `getrf(&A, &pivot)`: `info`, A and pivot afterwards.  `pivot` grows to min(m, n) if it is
shorter; LAPACK writes its first min(m, n) elements. -/
def getrfT (getrf : GetrfFn R) (A : Strided R) (pivot : List Nat) : Outcome (Nat × Strided R × List Nat) := do
  let k := min (A.dim 0) (A.dim 1)
  let r ← vendorGetrf getrf (A.dim 0) (A.dim 1) A.data A.off (A.stride 0)
  return (r.1, { A with data := r.2.1 },
    (List.range (max pivot.length k)).map fun i => if i < k then r.2.2 i else pivot.getD i 0)

/-- LinearAlgebra.hpp 546–557: `getri(&A, pivot)`. -/
def getriT (getri : GetriFn R) (A : Strided R) (pivot : List Nat) : Outcome (Nat × Strided R) := do
  let r ← vendorGetri getri (A.dim 0) A.data A.off (A.stride 0) pivot
  return (r.1, { A with data := r.2 })

/-- LinearAlgebra.hpp 569–593: `invert(&A)` of a tensor that is not a block tensor; `println_abort` is an error. -/
def invert (getrf : GetrfFn R) (getri : GetriFn R) (A : Strided R) : Outcome (Strided R) := do
  let r ← getrfT getrf A (List.replicate (A.dim 0) 0)
  if r.1 > 0 then .error "invert: getrf: element of the factor is zero"
  else do
    let s ← getriT getri r.2.1 r.2.2
    if s.1 > 0 then .error "invert: getri: element of the factor is zero"
    else return s.2

/-- LinearAlgebra.hpp 607–613: `enum class Norm`. -/
inductive NormType | maxAbs | one | infinity | frobenius
deriving DecidableEq

/-- Vendor.cpp 624–646 (external xLANGE): the value from the matrix it reads. -/
abbrev LangeFn (R : Type) := NormType → Nat → Nat → Mat R → R

/-- LinearAlgebra.hpp 642–649 with Vendor.cpp 624–646: `norm(type, A)`.  xLANGE requires a leading dimension of at least the
number of rows and does not check it: a smaller one is undefined. -/
def norm (lange : LangeFn R) (type : NormType) (A : Strided R) : Outcome R :=
  if A.stride 0 < max 1 (A.dim 0) then .ub "xLANGE: lda < max(1, m)"
  else do
    let M ← colMat (A.dim 0) (A.dim 1) A.data A.off (A.stride 0)
    return lange type (A.dim 0) (A.dim 1) M

/-- LinearAlgebra.hpp 1038–1050: the `while` loop from `curr`: the count and `skip`; `none` if it is still running after
`fuel` tests of its condition. -/
def detChase (pivots : List Nat) (i : Nat) : Nat → Nat → Nat → Option (Outcome (Nat × Bool))
  | 0, _, _ => none
  | fuel + 1, curr, count =>
    if curr = i + 1 then some (.ok (count, false))
    else if curr < i + 1 then some (.ok (count, true))
    else match pivots[curr - 1]? with
      | none => some (.error "std::out_of_range")
      | some c => detChase pivots i fuel c (count + 1)

/-- LinearAlgebra.hpp 1036–1056: the loop over the pivots from `parity`, over the remaining `i`. -/
def detParity (pivots : List Nat) (fuel : Nat) : List Nat → Nat → Option (Outcome Nat)
  | [], parity => some (.ok parity)
  | i :: is, parity =>
    match pivots[i]? with
    | none => some (.error "std::out_of_range")
    | some curr =>
      match detChase pivots i fuel curr 0 with
      | none => none
      | some (.ok (count, skip)) => detParity pivots fuel is (if skip then parity else parity + count)
      | some (.error e) => some (.error e)
      | some (.ub e) => some (.ub e)

/-- LinearAlgebra.hpp 1058–1067: the product of the diagonal elements of `A`, and the sign. -/
def detProduct [Mul R] [One R] [Neg R] (A : Strided R) (parity : Nat) : Outcome R := do
  let ret ← (List.range (A.dim 0)).foldlM (fun (ret : R) (i : Nat) => do
    let x ← A.read [(i : Int), (i : Int)]
    return ret * x) 1
  if parity % 2 = 1 then return ret * (-1) else return ret

/-- LinearAlgebra.hpp 1014–1067: `det(A)` of a `Tensor`; `none` if a loop does not end within `fuel` steps. -/
def det [Mul R] [One R] [Neg R] (getrf : GetrfFn R) (fuel : Nat) (A : Strided R) : Option (Outcome R) :=
  if A.dim 0 ≠ A.dim 1 then some (.error "Can only take the determinant of a square matrix.")
  else
    match getrfT getrf A [] with
    | .error e => some (.error e)
    | .ub e => some (.ub e)
    | .ok r =>
      if r.1 > 0 then some (.ok 0)
      else
        match detParity r.2.2 fuel (List.range (A.dim 0)) 0 with
        | none => none
        | some (.error e) => some (.error e)
        | some (.ub e) => some (.ub e)
        | some (.ok parity) => some (detProduct A parity)

end Einsums.Model
