import Verif.Model.Tensor
import Mathlib.Algebra.Order.Floor.Ring
/-
Model of the factory functions of src/include/einsums/Utilities.hpp that do not use random numbers:
create_incremented_tensor, diagonal, diagonal_like, create_identity_tensor, create_ones_tensor and arange.
-/
namespace Einsums.Model

/-- Utilities.hpp 117–136: `create_incremented_tensor`; `unit` is `T{1.0}`, or `T{1.0, 1.0}` for complex types.
Simplification: exact addition (a `float` counter stops at 2^24). -/
def incremented [Add R] [Zero R] (unit : R) (z : Nat → R) (dims : List Nat) : Outcome (Strided R) := do
  let r ← (cartesian dims).foldlM (fun (s : Strided R × R) idx => do
    let a ← s.1.write (toIdx idx) s.2
    return (a, s.2 + unit)) (Strided.mk' z dims, 0)
  return r.1

/-- Utilities.hpp 381–389 `diagonal` and 391–399 `diagonal_like`: a matrix of the given shape set to zero, then
`result(i, i) = v(i)` for every `i` below the length of `v`. -/
def diagonalOf [Zero R] (z : Nat → R) (v : Strided R) (dims : List Nat) : Outcome (Strided R) :=
  (List.range (v.dims.headD 0)).foldlM (fun r (i : Nat) => do
    let x ← v.read [(i : Int)]
    r.write [(i : Int), (i : Int)] x) ((Strided.mk' z dims).setAll 0)

/-- Utilities.hpp 381–389: `diagonal(v)`. -/
def diagonal [Zero R] (z : Nat → R) (v : Strided R) : Outcome (Strided R) :=
  diagonalOf z v [v.dims.headD 0, v.dims.headD 0]

/-- Utilities.hpp 391–399 and 475–479 (`create_tensor_like`): `diagonal_like(v, like)`. -/
def diagonalLike [Zero R] (z : Nat → R) (v like : Strided R) : Outcome (Strided R) :=
  diagonalOf z v like.dims

/-- Utilities.hpp 418–430: `create_identity_tensor`; `set_to` (366–369) writes the element whose indices are all
`dim`, for every `dim` below the first dimension. -/
def identityTensor [Zero R] [One R] (z : Nat → R) (dims : List Nat) : Outcome (Strided R) :=
  (List.range (dims.headD 0)).foldlM (fun A (d : Nat) => A.write (List.replicate dims.length (d : Int)) 1)
    ((Strided.mk' z dims).setAll 0)

/-- Utilities.hpp 449–457: `create_ones_tensor`. -/
def onesTensor [One R] (z : Nat → R) (dims : List Nat) : Strided R := (Strided.mk' z dims).setAll 1

/-- Utilities.hpp 650–667: The arithmetic of an element type as `arange` uses it. -/
structure Arith (T : Type) where
  /-- `a + b` -/
  add : T → T → Outcome T
  /-- `a - b` -/
  sub : T → T → Outcome T
  /-- `static_cast<int>(a / b)` -/
  quot : T → T → Outcome Int
  /-- `a < b` -/
  lt : T → T → Bool

/-- Utilities.hpp 660–663: the loop; `fuel` bounds the iterations (`arange` passes enough: a write to `result` beyond
its end ends it). -/
def arangeLoop (A : Arith T) (stop step : T) : Nat → T → Nat → Strided T → Outcome (Strided T)
  | 0, _, _, _ => .ub "out of fuel"
  | fuel + 1, value, index, result =>
      if A.lt value stop then do
        let result ← result.write [(index : Int)] value
        let value ← A.add value step
        arangeLoop A stop step fuel value (index + 1) result
      else .ok result

/-- Utilities.hpp 650–667: `arange(start, stop, step)`; a failed `assert` is undefined behaviour.  A negative number of
elements is converted to a huge `size_t`, for which the allocation throws. -/
def arange [Zero T] (A : Arith T) (z : Nat → T) (start stop step : T) : Outcome (Strided T) :=
  if A.lt stop start then .ub "assert(stop >= start)"
  else do
    let diff ← A.sub stop start
    let nelem ← A.quot diff step
    if nelem < 0 then .error "std::length_error"
    else arangeLoop A stop step (nelem.toNat + 1) start 0 ((Strided.mk' z [nelem.toNat]).setAll 0)

/-- Utilities.hpp 650–667: The result of a signed integer operation in `w` bits: overflow is undefined. -/
def signedResult (w : Nat) (x : Int) : Outcome Int :=
  if -(2 ^ (w - 1)) ≤ x ∧ x < 2 ^ (w - 1) then .ok x else .ub "signed overflow"

/-- Utilities.hpp 650–667: Signed integers of `w` ≥ 32 bits; division truncates, division by zero is undefined, the
conversion to `int` keeps the
low 32 bits. -/
def intArith (w : Nat) : Arith Int where
  add a b := signedResult w (a + b)
  sub a b := signedResult w (a - b)
  quot a b :=
    if b = 0 then .ub "division by zero"
    else do
      let q ← signedResult w (a.tdiv b)
      return q.bmod (2 ^ 32)
  lt a b := decide (a < b)

/-- Utilities.hpp 650–667: Floating-point numbers, idealised as an ordered field: no rounding, no NaN.  `x / 0` is
infinite or NaN, and
converting that, or a number whose integral part is not an `int`, is undefined. -/
def fieldArith (K : Type) [Field K] [LinearOrder K] [IsStrictOrderedRing K] [FloorRing K] : Arith K where
  add a b := .ok (a + b)
  sub a b := .ok (a - b)
  quot a b :=
    if b = 0 then .ub "conversion of an infinity or NaN"
    else
      let q := if 0 ≤ a / b then ⌊a / b⌋ else ⌈a / b⌉
      if -(2 ^ 31) ≤ q ∧ q < 2 ^ 31 then .ok q else .ub "conversion out of range"
  lt a b := decide (a < b)

end Einsums.Model
