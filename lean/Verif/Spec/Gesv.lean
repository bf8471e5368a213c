import Verif.Model.Gesv
import Verif.Spec.Lu
/-
What LAPACK documents of xGESV, and the ways in which the iterations of a parallel loop can interleave.
-/
namespace Einsums.Spec
open Model

variable {R : Type}

/-- xGESV: `out` = (info, F, X).  F holds an LU factorisation of A; `info = 0` unless its U has a zero on its diagonal; then
A·X = B. -/
def IsGesv [CommRing R] (n nrhs : Nat) (A B : Nat → Nat → R) (out : Nat × (Nat → Nat → R) × (Nat → Nat → R)) : Prop :=
  (∃ p, IsLU n n A (out.1, out.2.1, p)) ∧ (out.1 = 0 → mat n n A * mat n nrhs out.2.2 = mat n nrhs B)

/-- Each of the iterations 0, …, n-1 loads and then stores; the steps of different iterations come in any order. -/
def Interleaving (n : Nat) (sched : List GesvStep) : Prop :=
  (∀ i, i < n → sched.filter (fun s => s.block = i) = [.load i, .store i]) ∧ ∀ s ∈ sched, s.block < n

/-- The iterations run one after the other, in the order `is`. -/
def oneByOne (is : List Nat) : List GesvStep := is.flatMap fun i => [.load i, .store i]

end Einsums.Spec
