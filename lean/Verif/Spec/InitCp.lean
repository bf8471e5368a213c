import Verif.Spec.Decomposition
import Mathlib.Order.Defs.LinearOrder
/-
Specification of the starting factors of the CP decompositions.
-/
namespace Einsums.Spec

variable {R : Type}

/-- Element (a, b) of `A Aᵀ`, for a matrix `A` of `k` columns. -/
def gram [Semiring R] (k : Nat) (A : Nat → Nat → R) (a b : Nat) : R := sumTo k fun c => A a c * A b c

/-- The columns of `V` are orthonormal eigenvectors of `A Aᵀ`, for a d×k matrix `A`, with the eigenvalues `w` in ascending order. -/
structure GramEigen [Semiring R] [LinearOrder R] (d k : Nat) (A : Nat → Nat → R) (w : Nat → R) (V : Nat → Nat → R) : Prop where
  ascending : ∀ i j, i ≤ j → j < d → w i ≤ w j
  orthonormal : ∀ i j, i < d → j < d → sumTo d (fun x => V x i * V x j) = if i = j then 1 else 0
  eigen : ∀ a j, a < d → j < d → (sumTo d fun b => gram k A a b * V b j) = w j * V a j

/-- Column `j` of the factor of mode `m` before it is cut or padded: the eigenvector, for the first mode scaled. -/
def startColumn [Semiring R] (scale : R → R) (m : Nat) (w : Nat → R) (V : Nat → Nat → R) (x j : Nat) : R :=
  if m = 0 then scale (w j) * V x j else V x j

/-- The factor of mode `m`, of `d` rows and `rank` columns: the columns of the `rank` largest eigenvalues, or all of them and then numbers
`rand`, in row-major order of the whole factor. -/
def startFactor [Semiring R] (scale : R → R) (rand : Nat → R) (m d rank : Nat) (w : Nat → R) (V : Nat → Nat → R) (x r : Nat) : R :=
  if rank ≤ d then startColumn scale m w V x (d - rank + r)
  else if r < d then startColumn scale m w V x r
  else rand (x * rank + r)

end Einsums.Spec
