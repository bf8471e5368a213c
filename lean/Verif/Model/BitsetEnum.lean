/-
Model of src/include/einsums/utility/BitsetEnum.hpp: the bitwise operators of enumerations.

A value of an `enum class` is the integer it has in its underlying type, an integral type of `w` bits.  Operands narrower than
`int` (32 bits) are promoted to it before an operation, and the conversion back keeps the low bits.
-/
namespace Einsums.Model

/-- BitsetEnum.hpp 45, 51, 57, 63: `std::underlying_type_t<type>`. -/
structure IntType where
  bits : Nat
  signed : Bool
  deriving Repr, DecidableEq

/-- BitsetEnum.hpp 46: the type in which the operands are combined, after the integral promotions. -/
def IntType.promoted (t : IntType) : IntType := if t.bits < 32 then ⟨32, true⟩ else t

/-- BitsetEnum.hpp 46: `static_cast` to an integral type: the value with the same low bits. -/
def IntType.cast (t : IntType) (x : Int) : Int :=
  if t.signed then (BitVec.ofInt t.bits x).toInt else ((BitVec.ofInt t.bits x).toNat : Int)

/-- BitsetEnum.hpp 46: a bitwise operation on two promoted operands and the conversion of its result. -/
def enumBinary (op : ∀ {n : Nat}, BitVec n → BitVec n → BitVec n) (t : IntType) (lhs rhs : Int) : Int :=
  let p := t.promoted
  let r := op (BitVec.ofInt p.bits (t.cast lhs)) (BitVec.ofInt p.bits (t.cast rhs))
  t.cast (if p.signed then r.toInt else (r.toNat : Int))

/-- BitsetEnum.hpp 43–47: `operator&`. -/
def enumAnd (t : IntType) (lhs rhs : Int) : Int := enumBinary (fun a b => a &&& b) t lhs rhs

/-- BitsetEnum.hpp 49–53: `operator^`. -/
def enumXor (t : IntType) (lhs rhs : Int) : Int := enumBinary (fun a b => a ^^^ b) t lhs rhs

/-- BitsetEnum.hpp 55–59: `operator|`. -/
def enumOr (t : IntType) (lhs rhs : Int) : Int := enumBinary (fun a b => a ||| b) t lhs rhs

/-- BitsetEnum.hpp 61–65: `operator~`. -/
def enumNot (t : IntType) (lhs : Int) : Int :=
  let p := t.promoted
  let r := ~~~ (BitVec.ofInt p.bits (t.cast lhs))
  t.cast (if p.signed then r.toInt else (r.toNat : Int))

/-- BitsetEnum.hpp 67–72: `operator&=`: the new value of the left operand. -/
def enumAndAssign (t : IntType) (lhs rhs : Int) : Int := enumBinary (fun a b => a &&& b) t lhs rhs

/-- BitsetEnum.hpp 74–79: `operator^=`. -/
def enumXorAssign (t : IntType) (lhs rhs : Int) : Int := enumBinary (fun a b => a ^^^ b) t lhs rhs

/-- BitsetEnum.hpp 81–86: `operator|=`. -/
def enumOrAssign (t : IntType) (lhs rhs : Int) : Int := enumBinary (fun a b => a ||| b) t lhs rhs

end Einsums.Model
