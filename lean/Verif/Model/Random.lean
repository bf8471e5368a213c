import Verif.Model.Utilities
import Verif.Model.Inverse
import Verif.Model.LinearAlgebra
/-
Model of `create_random_tensor`, `create_random_definite`, `create_random_semidefinite` (Utilities.hpp) and `sum_square`.

The random distributions of the C++ library are functions of the state `G` of the engine: the value drawn and the next state.
`seed` is the state of a default-constructed engine.
-/
namespace Einsums.Model

variable {R G : Type}

/-- Utilities.hpp 166–167: what the threads of `create_random_tensor` share: the engine and the elements of the tensor. -/
inductive RandLoc
  | engine
  | elem (i : Nat)
  deriving DecidableEq, Repr

/-- Utilities.hpp 166–167: one access: the location, and whether it is written. -/
structure RandAccess where
  loc : RandLoc
  write : Bool
  deriving DecidableEq, Repr

/-- Utilities.hpp 169–197: the accesses of thread `tid` of `threads` to a tensor of `size` elements: `std::generate` goes from the
first element of the *whole* tensor to its last, whatever `begin` and `end` are; `unif(re)` reads and writes the engine. -/
def randAccesses (size _threads _tid : Nat) : List RandAccess :=
  (List.range size).flatMap fun i => [⟨.engine, false⟩, ⟨.engine, true⟩, ⟨.elem i, true⟩]

/-- Utilities.hpp 169–197: two threads access the same location, one of them writes, and nothing orders them. -/
def randRaces (size threads : Nat) : Bool :=
  (List.range threads).any fun t => (List.range threads).any fun u => decide (t ≠ u) &&
    (randAccesses size threads t).any fun a => (randAccesses size threads u).any fun b =>
      decide (a.loc = b.loc) && (a.write || b.write)

/-- Utilities.hpp 195: `std::generate` with one draw per element (two for complex elements, here one draw of the pair). -/
def generate (draw : G → R × G) : Nat → G → List R
  | 0, _ => []
  | n + 1, g => (draw g).1 :: generate draw n (draw g).2

/-- Utilities.hpp 156–216: `create_random_tensor(name, dims…)`; `threads` in the parallel region.  A data race is undefined
behaviour.  `z`: what is in a new tensor.  Not modelled: `Normalize`, which no code instantiates. -/
def randomTensor (draw : G → R × G) (seed : G) (z : Nat → R) (threads : Nat) (dims : List Nat) : Outcome (Strided R) :=
  let A := Strided.mk' z dims
  if randRaces A.data.length threads then .ub "data race"
  else .ok { A with data := generate draw A.data.length seed }

/-- Utilities.hpp 257–260 and 320–323: draw a tensor until `getrf` says that it is not singular.  `none`: still looping after `fuel`
iterations. -/
def evecsLoop [Zero R] (getrf : GetrfFn R) (tensor : Outcome (Strided R)) : Nat → List Nat → Option (Outcome (Strided R × Strided R))
  | 0, _ => none
  | fuel + 1, pivs =>
    match tensor with
    | .error e => some (.error e)
    | .ub e => some (.ub e)
    | .ok E => match getrfT getrf E pivs with
      | .error e => some (.error e)
      | .ub e => some (.ub e)
      | .ok (info, temp, pivs') => if info > 0 then evecsLoop getrf tensor fuel pivs' else some (.ok (E, temp))

section
variable [Add R] [Mul R] [Zero R] [Neg R] [LT R] [DecidableLT R] [DecidableEq R]

/-- Utilities.hpp 277–283 and 341–347: one eigenvalue, with the sign of `mean`. -/
def maxwell (normal : G → R × G) (sqrt : R → R) (mean : R) (g : G) : R × G :=
  let v1 := normal g
  let v2 := normal v1.2
  let v3 := normal v2.2
  let e := sqrt (v1.1 * v1.1 + v2.1 * v2.1 + v3.1 * v3.1)
  (if mean < 0 then -e else e, v3.2)

/-- Utilities.hpp 276–284: draw an eigenvalue until it is not zero.  `none`: still looping after `fuel` iterations. -/
def nonzeroLoop (normal : G → R × G) (sqrt : R → R) (mean : R) : Nat → G → Option (R × G)
  | 0, _ => none
  | fuel + 1, g =>
    if (maxwell normal sqrt mean g).1 = 0 then nonzeroLoop normal sqrt mean fuel (maxwell normal sqrt mean g).2
    else some (maxwell normal sqrt mean g)

/-- Utilities.hpp 274–285: the eigenvalues of `create_random_definite`, in order. -/
def definiteEvals (normal : G → R × G) (sqrt : R → R) (mean : R) (fuel : Nat) : Nat → G → Option (List R)
  | 0, _ => some []
  | n + 1, g => match nonzeroLoop normal sqrt mean fuel g with
    | none => none
    | some (e, g') => (definiteEvals normal sqrt mean fuel n g').map (e :: ·)

/-- Utilities.hpp 336–349: the eigenvalues of `create_random_semidefinite`: number `i` and the following ones. -/
def semidefiniteEvals (normal : G → R × G) (sqrt : R → R) (mean : R) (forceZeros : Int) : Nat → Nat → G → List R
  | _, 0, _ => []
  | i, n + 1, g =>
    if (i : Int) < forceZeros then 0 :: semidefiniteEvals normal sqrt mean forceZeros (i + 1) n g
    else (maxwell normal sqrt mean g).1 :: semidefiniteEvals normal sqrt mean forceZeros (i + 1) n (maxwell normal sqrt mean g).2

variable [One R] [BEq R]

/-- Utilities.hpp 263–265 and 288–291; 326–328 and 355–358: QR of the random matrix, the diagonal matrix of the eigenvalues, and
`Evecsᵀ * (diagonal * Evecs)`.  `z`: what is in a new tensor. -/
def assembleMatrix (geqrf : GeqrfFn R) (orgqr : OrgqrFn R) (z : Nat → R) (evecs temp : Strided R) (evals : List R) :
    Outcome (Strided R) := do
  let f ← qr geqrf evecs
  let q ← qrQ orgqr f.1 f.2
  let ret ← diagonal z ⟨evals, 0, [evals.length], [1]⟩
  let temp ← gemm false false 1 ret q 0 temp
  gemm true false 1 q temp 0 ret

/-- Utilities.hpp 242–296: `create_random_definite(name, rows, cols, mean)`.  `mean = 0` makes a normal distribution with standard
deviation 0, which the standard library does not allow.  `none`: still looping after `fuel` iterations. -/
def randomDefinite (draw normal : G → R × G) (seed : G) (sqrt : R → R) (getrf : GetrfFn R) (geqrf : GeqrfFn R) (orgqr : OrgqrFn R)
    (z : Nat → R) (threads fuel rows cols : Nat) (mean : R) : Option (Outcome (Strided R)) :=
  if rows ≠ cols then some (.error "Can only make square positive definite matrices.")
  else match evecsLoop getrf (randomTensor draw seed z threads [rows, cols]) fuel [] with
    | none => none
    | some (.error e) => some (.error e)
    | some (.ub e) => some (.ub e)
    | some (.ok (evecs, temp)) =>
      if mean = 0 then some (.ub "normal_distribution: standard deviation 0")
      else match definiteEvals normal sqrt mean fuel rows seed with
        | none => none
        | some evals => some (assembleMatrix geqrf orgqr z evecs temp evals)

/-- Utilities.hpp 310–363: `create_random_semidefinite(name, rows, cols, mean, force_zeros)`. -/
def randomSemidefinite (draw normal : G → R × G) (seed : G) (sqrt : R → R) (getrf : GetrfFn R) (geqrf : GeqrfFn R)
    (orgqr : OrgqrFn R) (z : Nat → R) (threads fuel rows cols : Nat) (mean : R) (forceZeros : Int) : Option (Outcome (Strided R)) :=
  if rows ≠ cols then some (.error "Can only make square positive definite matrices.")
  else match evecsLoop getrf (randomTensor draw seed z threads [rows, cols]) fuel [] with
    | none => none
    | some (.error e) => some (.error e)
    | some (.ub e) => some (.ub e)
    | some (.ok (evecs, temp)) =>
      if mean = 0 then some (.ub "normal_distribution: standard deviation 0")
      else some (assembleMatrix geqrf orgqr z evecs temp (semidefiniteEvals normal sqrt mean forceZeros 0 rows seed))

end

/-- Vendor.cpp 648–670 (external): what xLASSQ computes from the elements and the two arguments. -/
abbrev LassqFn (K R : Type) := List K → R → R → R × R

/-- BaseLinearAlgebra.hpp 11–17 (with Vendor.cpp 648–670): `sum_square(a, &scale, &sumsq)`: LAPACK is given the length, the data and the
stride of the vector. -/
def sumSquare {K : Type} (lassq : LassqFn K R) (a : Strided K) (scale sumsq : R) : Outcome (R × R) := do
  let xs ← (List.range (a.dim 0)).mapM fun i => memGet a.data (a.off + i * a.stride 0)
  return lassq xs scale sumsq

end Einsums.Model
