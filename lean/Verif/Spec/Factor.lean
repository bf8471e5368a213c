import Mathlib.Data.Matrix.Mul
import Mathlib.Data.Matrix.Diagonal
import Verif.Model.Tensor
/-
Matrices held by tensors, and what is assumed of the LAPACK factorisations (an external library): their documentation, in
exact arithmetic.
-/
namespace Einsums.Spec
open Model

/-- The m×n matrix of the values `f i j`. -/
def mat (m n : Nat) (f : Nat → Nat → R) : Matrix (Fin m) (Fin n) R := fun i j => f i j

/-- The tensor `t` has shape m×n and its elements are the matrix `M`. -/
structure Holds (t : Strided R) (M : Matrix (Fin m) (Fin n) R) : Prop where
  dims : t.dims = [m, n]
  elems : ∀ (i : Fin m) (j : Fin n), t.read [(i.1 : Int), (j.1 : Int)] = .ok (M i j)

/-- The tensor `t` has shape n and its elements are `v`. -/
structure HoldsVec (t : Strided R) (v : Fin n → R) : Prop where
  dims : t.dims = [n]
  elems : ∀ i : Fin n, t.read [(i.1 : Int)] = .ok (v i)

/-! ### QR -/

/-- LAPACK, "Further Details" of xGEQRF: the i-th elementary reflector `I - tau v vᵀ`, where `v(0..i-1) = 0`, `v(i) = 1` and
the rest of `v` is stored below the diagonal in column `i` of `F`. -/
def reflector [CommRing R] (m : Nat) (F : Nat → Nat → R) (tau : R) (i : Nat) : Matrix (Fin m) (Fin m) R :=
  let v : Fin m → R := fun j => if j.1 < i then 0 else if j.1 = i then 1 else F j i
  1 - tau • Matrix.vecMulVec v v

/-- The product of the first `k` reflectors. -/
def reflectors [CommRing R] (m k : Nat) (F : Nat → Nat → R) (tau : Nat → R) : Matrix (Fin m) (Fin m) R :=
  ((List.range k).map fun i => reflector m F (tau i) i).prod

/-- The part on and above the diagonal. -/
def upperPart [Zero R] (f : Nat → Nat → R) : Nat → Nat → R := fun i j => if j < i then 0 else f i j

/-- xGEQRF: `A = Q R`: Q, the product of the reflectors stored in the output, is orthogonal, and R is the part of the
output on and above the diagonal. -/
def IsQR [CommRing R] (m n : Nat) (A : Nat → Nat → R) (out : (Nat → Nat → R) × (Nat → R)) : Prop :=
  (reflectors m (min m n) out.1 out.2).transpose * reflectors m (min m n) out.1 out.2 = 1 ∧
  reflectors m (min m n) out.1 out.2 * mat m n (upperPart out.1) = mat m n A

/-- The first l columns of Q of a QR factorisation of an m×l matrix (l ≤ m). -/
def thinQ [CommRing R] (m l : Nat) (out : (Nat → Nat → R) × (Nat → R)) : Matrix (Fin m) (Fin l) R :=
  fun i j => if h : j.1 < m then reflectors m l out.1 out.2 i ⟨j, h⟩ else 0

/-- xORGQR: the first n columns of the product of the k reflectors stored in `F`. -/
def IsOrgqr [CommRing R] (m n k : Nat) (F : Nat → Nat → R) (tau : Nat → R) (Q : Nat → Nat → R) : Prop :=
  ∀ (i : Fin m) (j : Fin n) (h : j.1 < m), Q i j = reflectors m k F tau i ⟨j, h⟩

/-! ### Singular values -/

/-- The m×n matrix with `s` on its diagonal. -/
def diagRect [Zero R] (m n : Nat) (s : Nat → R) : Matrix (Fin m) (Fin n) R := fun i j => if i.1 = j.1 then s i else 0

/-- All singular vectors: U and Vt orthogonal, `A = U Σ Vt`. -/
structure IsSvd [CommRing R] (m n : Nat) (A : Nat → Nat → R) (s : Nat → R) (U Vt : Nat → Nat → R) : Prop where
  left : (mat m m U).transpose * mat m m U = 1
  right : mat n n Vt * (mat n n Vt).transpose = 1
  eq : mat m m U * diagRect m n s * mat n n Vt = mat m n A

/-- The first min(m, n) singular vectors. -/
structure IsThinSvd [CommRing R] (m n : Nat) (A : Nat → Nat → R) (s : Nat → R) (U Vt : Nat → Nat → R) : Prop where
  left : (mat m (min m n) U).transpose * mat m (min m n) U = 1
  right : mat (min m n) n Vt * (mat (min m n) n Vt).transpose = 1
  eq : mat m (min m n) U * Matrix.diagonal (fun i : Fin (min m n) => s i) * mat (min m n) n Vt = mat m n A

end Einsums.Spec
