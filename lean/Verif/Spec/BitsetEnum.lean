import Verif.Model.BitsetEnum
/-
Enumerations as sets of flags.
-/
namespace Einsums.Spec
open Model

/-- `x` is a value of the integral type. -/
def IsValue (t : IntType) (x : Int) : Prop :=
  if t.signed then -2 ^ (t.bits - 1) ≤ x ∧ x < 2 ^ (t.bits - 1) else 0 ≤ x ∧ x < 2 ^ t.bits

/-- Flag number `i` is set in `x`: the digit of weight `2 ^ i` of the two's complement of `x` is 1. -/
def hasFlag (x : Int) (i : Nat) : Bool := decide (x / 2 ^ i % 2 = 1)

end Einsums.Spec
