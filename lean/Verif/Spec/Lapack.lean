import Verif.Spec.LinAlg
/-
What is assumed of LAPACK (an external library).
-/
namespace Einsums.Spec

/-- xGESV(n, nrhs, A, lda, B, ldb): `solve` gives the content of `B` on return and whether `info = 0`.  With valid
arguments the size of `B` does not change, and if `info = 0` the columns of `B` are solutions: `A` and `B` are stored by
columns, element (i,k) of `A` at `k*lda + i`, element (k,c) of `B` at `c*ldb + k`, and
`Σ_k A(i,k) X(k,c) = B(i,c)`. -/
def GesvContract {R : Type} [Add R] [Mul R] [Zero R] (solve : Nat → Nat → List R → Nat → List R → Nat → List R × Bool) : Prop :=
  ∀ n nrhs (A : List R) lda (B : List R) ldb, n ≤ lda → n * lda ≤ A.length → n ≤ ldb → nrhs * ldb ≤ B.length →
    (solve n nrhs A lda B ldb).1.length = B.length ∧
    ((solve n nrhs A lda B ldb).2 = true → ∀ c i, c < nrhs → i < n →
      sumTo n (fun k => A.getD (k * lda + i) 0 * (solve n nrhs A lda B ldb).1.getD (c * ldb + k) 0)
        = B.getD (c * ldb + i) 0)

end Einsums.Spec
