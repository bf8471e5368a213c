import Mathlib.Algebra.BigOperators.Group.Finset.Basic
import Mathlib.Algebra.BigOperators.Group.List.Basic
/-
Matrices and vectors in host memory, as the BLAS functions take them.
-/
namespace Einsums.Spec

variable {R : Type}

/-- The storage holds, from position `off`, the m×n matrix `f`, column by column, columns `ld` elements apart. -/
def HostMat (mem : List R) (off ld m n : Nat) (f : Nat → Nat → R) : Prop :=
  ∀ i j, i < m → j < n → mem[off + i + j * ld]? = some (f i j)

/-- The storage holds, from position `off`, the n elements of `f`, `inc` elements apart. -/
def HostVec (mem : List R) (off inc n : Nat) (f : Nat → R) : Prop := ∀ i, i < n → mem[off + i * inc]? = some (f i)

/-- The two storages have the same length and agree except at positions of the m×n matrix at `off`. -/
def SameOutsideMat (mem mem' : List R) (off ld m n : Nat) : Prop :=
  mem'.length = mem.length ∧ ∀ q, (∀ i j, i < m → j < n → q ≠ off + i + j * ld) → mem'[q]? = mem[q]?

/-- The two storages have the same length and agree except at positions of the vector at `off`. -/
def SameOutsideVec (mem mem' : List R) (off inc n : Nat) : Prop :=
  mem'.length = mem.length ∧ ∀ q, (∀ i, i < n → q ≠ off + i * inc) → mem'[q]? = mem[q]?

/-- The transposing operations: 'T', 't', 'C', 'c'. -/
def Transposes (t : Char) : Prop := t ∈ ['T', 't', 'C', 'c']

instance (t : Char) : Decidable (Transposes t) := by unfold Transposes; infer_instance

/-- `op(A)`: A, its transpose ('T', 't') or its conjugate transpose ('C', 'c'). -/
def opAt (conj : R → R) (t : Char) (a : Nat → Nat → R) (i j : Nat) : R :=
  if t ∈ ['T', 't'] then a j i else if t ∈ ['C', 'c'] then conj (a j i) else a i j

end Einsums.Spec
