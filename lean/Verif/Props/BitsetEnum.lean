import Verif.Spec.BitsetEnum
import Mathlib.Tactic.Ring
import Mathlib.Tactic.NormNum
/-
C177: enumerations as sets of flags.
-/
namespace Einsums.Props
open Spec Model

theorem getLsbD_ofInt_flag {n i : Nat} (x : Int) (h : i < n) : (BitVec.ofInt n x).getLsbD i = hasFlag x i := by
  obtain ⟨k, rfl⟩ : ∃ k, n = i + (k + 1) := ⟨n - i - 1, by omega⟩
  unfold hasFlag BitVec.getLsbD
  rw [Nat.testBit_eq_decide_div_mod_eq, BitVec.toNat_ofInt]
  apply decide_eq_decide.2
  have hpos : (0 : Int) < 2 ^ (i + (k + 1)) := by positivity
  have h0 : 0 ≤ x % (2 ^ (i + (k + 1)) : Nat) := Int.emod_nonneg _ (by push_cast; omega)
  have e : (((x % (2 ^ (i + (k + 1)) : Nat)).toNat / 2 ^ i % 2 : Nat) : Int) = x / 2 ^ i % 2 := by
    push_cast
    rw [Int.toNat_of_nonneg (by simpa using h0)]
    have h1 := Int.mul_ediv_add_emod x (2 ^ (i + (k + 1)))
    have hi : (2 : Int) ^ i ≠ 0 := by positivity
    generalize x / 2 ^ (i + (k + 1)) = q at h1
    generalize x % 2 ^ (i + (k + 1)) = r at h1 ⊢
    have h2 : x = r + 2 ^ i * (2 * (2 ^ k * q)) := by rw [← h1]; ring
    rw [h2, Int.add_mul_ediv_left _ _ hi]
    omega
  constructor
  · intro h; rw [← e, h]; rfl
  · intro h; rw [← e] at h; exact_mod_cast h

theorem hasFlag_toInt {n i : Nat} (b : BitVec n) (h : i < n) : hasFlag b.toInt i = b.getLsbD i := by
  rw [← getLsbD_ofInt_flag _ h, BitVec.ofInt_toInt]

theorem hasFlag_toNat {n i : Nat} (b : BitVec n) (h : i < n) : hasFlag (b.toNat : Int) i = b.getLsbD i := by
  rw [← getLsbD_ofInt_flag _ h, BitVec.ofInt_natCast, BitVec.ofNat_toNat, BitVec.setWidth_eq]

theorem hasFlag_read {n i : Nat} (s : Bool) (b : BitVec n) (h : i < n) :
    hasFlag (if s then b.toInt else (b.toNat : Int)) i = b.getLsbD i := by
  cases s
  · exact hasFlag_toNat b h
  · exact hasFlag_toInt b h

theorem hasFlag_cast (t : IntType) (x : Int) {i : Nat} (h : i < t.bits) : hasFlag (t.cast x) i = hasFlag x i := by
  unfold IntType.cast
  rw [hasFlag_read _ _ h, getLsbD_ofInt_flag x h]

theorem promoted_bits (t : IntType) : t.bits ≤ t.promoted.bits := by
  unfold IntType.promoted
  split
  · simp only; omega
  · exact Nat.le_refl _

theorem isValue_cast (t : IntType) (x : Int) : IsValue t (t.cast x) := by
  unfold IsValue IntType.cast
  cases t.signed
  · simp only [Bool.false_eq_true, if_false]
    exact ⟨by omega, by exact_mod_cast (BitVec.ofInt t.bits x).isLt⟩
  · simp only [if_true]
    have h1 := BitVec.toInt_lt (x := BitVec.ofInt t.bits x)
    have h2 := BitVec.le_toInt (x := BitVec.ofInt t.bits x)
    exact ⟨h2, h1⟩

theorem cast_value (t : IntType) (h : 0 < t.bits) (x : Int) (hx : IsValue t x) : t.cast x = x := by
  unfold IsValue at hx
  unfold IntType.cast
  obtain ⟨n, s⟩ := t
  obtain ⟨k, rfl⟩ : ∃ k, n = k + 1 := ⟨n - 1, by simp only at h; omega⟩
  cases s
  · simp only [Bool.false_eq_true, if_false] at hx ⊢
    rw [BitVec.toNat_ofInt, Int.emod_eq_of_lt hx.1 (by exact_mod_cast hx.2)]
    omega
  · simp only [if_true, Nat.add_sub_cancel] at hx ⊢
    rw [BitVec.toInt_ofInt]
    apply Int.bmod_eq_of_le
    · rw [Nat.pow_succ]; push_cast; omega
    · rw [Nat.pow_succ]; push_cast; omega

/-- **C177 (values).** Two values of the enumeration with the same flags are the same. -/
theorem C177_ext (t : IntType) (h : 0 < t.bits) (x y : Int) (hx : IsValue t x) (hy : IsValue t y)
    (hf : ∀ i < t.bits, hasFlag x i = hasFlag y i) : x = y := by
  rw [← cast_value t h x hx, ← cast_value t h y hy]
  have : BitVec.ofInt t.bits x = BitVec.ofInt t.bits y := by
    apply BitVec.eq_of_getLsbD_eq
    intro i hi
    rw [getLsbD_ofInt_flag x hi, getLsbD_ofInt_flag y hi, hf i hi]
  unfold IntType.cast
  rw [this]

/-- **C177 (operators).** For an enumeration over an integral type of any width, signed or not: `a & b` has the flags that both
have, `a | b` those that one has, `a ^ b` those that exactly one has, `~a` those that `a` has not, and the results are values
of the enumeration; `a &= b`, `a |= b`, `a ^= b` leave the same in `a`. -/
theorem C177_flags (t : IntType) (a b : Int) :
    (∀ i < t.bits, hasFlag (enumAnd t a b) i = (hasFlag a i && hasFlag b i) ∧
      hasFlag (enumOr t a b) i = (hasFlag a i || hasFlag b i) ∧
      hasFlag (enumXor t a b) i = (hasFlag a i != hasFlag b i) ∧
      hasFlag (enumNot t a) i = !hasFlag a i ∧
      hasFlag (enumAndAssign t a b) i = (hasFlag a i && hasFlag b i) ∧
      hasFlag (enumOrAssign t a b) i = (hasFlag a i || hasFlag b i) ∧
      hasFlag (enumXorAssign t a b) i = (hasFlag a i != hasFlag b i)) ∧
    IsValue t (enumAnd t a b) ∧ IsValue t (enumOr t a b) ∧ IsValue t (enumXor t a b) ∧ IsValue t (enumNot t a) ∧
    IsValue t (enumAndAssign t a b) ∧ IsValue t (enumOrAssign t a b) ∧ IsValue t (enumXorAssign t a b) := by
  refine ⟨?_, isValue_cast t _, isValue_cast t _, isValue_cast t _, isValue_cast t _, isValue_cast t _,
    isValue_cast t _, isValue_cast t _⟩
  intro i hi
  have hp : i < t.promoted.bits := Nat.lt_of_lt_of_le hi (promoted_bits t)
  have hb : ∀ op : ∀ {n : Nat}, BitVec n → BitVec n → BitVec n, hasFlag (enumBinary op t a b) i =
      (op (BitVec.ofInt t.promoted.bits (t.cast a)) (BitVec.ofInt t.promoted.bits (t.cast b))).getLsbD i := by
    intro op
    unfold enumBinary
    rw [hasFlag_cast t _ hi, hasFlag_read _ _ hp]
  have ea : (BitVec.ofInt t.promoted.bits (t.cast a)).getLsbD i = hasFlag a i := by
    rw [getLsbD_ofInt_flag _ hp, hasFlag_cast t _ hi]
  have eb : (BitVec.ofInt t.promoted.bits (t.cast b)).getLsbD i = hasFlag b i := by
    rw [getLsbD_ofInt_flag _ hp, hasFlag_cast t _ hi]
  have hand : hasFlag (enumAnd t a b) i = (hasFlag a i && hasFlag b i) := by
    rw [enumAnd, hb, BitVec.getLsbD_and, ea, eb]
  have hor : hasFlag (enumOr t a b) i = (hasFlag a i || hasFlag b i) := by
    rw [enumOr, hb, BitVec.getLsbD_or, ea, eb]
  have hxor : hasFlag (enumXor t a b) i = (hasFlag a i != hasFlag b i) := by
    rw [enumXor, hb, BitVec.getLsbD_xor, ea, eb]
  refine ⟨hand, hor, hxor, ?_, hand, hor, hxor⟩
  unfold enumNot
  rw [hasFlag_cast t _ hi, hasFlag_read _ _ hp, BitVec.getLsbD_not, ea]
  simp [hp]

/-- **C177 (use as a set).** Flags `f` that were added to a value are found in it, flags that were removed are not, flags toggled
twice are as before, and the complement of the complement is the value. -/
theorem C177_set (t : IntType) (h : 0 < t.bits) (a f : Int) (ha : IsValue t a) (hf : IsValue t f) :
    enumAnd t (enumOr t a f) f = f ∧ enumAnd t (enumAnd t a (enumNot t f)) f = 0 ∧
    enumXor t (enumXor t a f) f = a ∧ enumNot t (enumNot t a) = a := by
  have h0 : IsValue t 0 := by
    unfold IsValue
    split
    · exact ⟨by have : (0 : Int) < 2 ^ (t.bits - 1) := by positivity
                omega, by positivity⟩
    · exact ⟨by omega, by positivity⟩
  refine ⟨?_, ?_, ?_, ?_⟩
  · refine C177_ext t h _ _ (C177_flags t _ _).2.1 hf fun i hi => ?_
    rw [((C177_flags t _ f).1 i hi).1, ((C177_flags t a f).1 i hi).2.1]
    cases hasFlag a i <;> cases hasFlag f i <;> rfl
  · refine C177_ext t h _ _ (C177_flags t _ _).2.1 h0 fun i hi => ?_
    rw [((C177_flags t _ f).1 i hi).1, ((C177_flags t a _).1 i hi).1, ((C177_flags t f 0).1 i hi).2.2.2.1]
    have : hasFlag 0 i = false := by simp [hasFlag]
    rw [this]
    cases hasFlag a i <;> cases hasFlag f i <;> rfl
  · refine C177_ext t h _ _ (C177_flags t _ _).2.2.2.1 ha fun i hi => ?_
    rw [((C177_flags t _ f).1 i hi).2.2.1, ((C177_flags t a f).1 i hi).2.2.1]
    cases hasFlag a i <;> cases hasFlag f i <;> rfl
  · refine C177_ext t h _ _ (C177_flags t _ 0).2.2.2.2.1 ha fun i hi => ?_
    rw [((C177_flags t _ 0).1 i hi).2.2.2.1, ((C177_flags t a 0).1 i hi).2.2.2.1, Bool.not_not]

/-- An enumeration over `uint8_t` and one over `int`. -/
example : enumNot ⟨8, false⟩ 5 = 250 ∧ enumOr ⟨8, false⟩ 5 130 = 135 ∧ enumAnd ⟨8, false⟩ 250 7 = 2 ∧
    enumNot ⟨32, true⟩ 5 = -6 ∧ enumXor ⟨32, true⟩ (-1) 5 = -6 ∧ IsValue ⟨8, false⟩ 250 ∧ IsValue ⟨32, true⟩ (-6) ∧
    hasFlag (-6) 1 = true ∧ hasFlag (-6) 0 = false :=
  ⟨by decide, by decide, by decide, by decide, by decide, by unfold IsValue; decide, by unfold IsValue; decide, by decide, by decide⟩

end Einsums.Props
