/-
Vocabulary of C159: when a computed element and its reference value should be reported.
-/
namespace Einsums.Spec

/-- The computed value `c` and the reference value `t` are suspicious: one of them is not a number, which is only looked at for
real numbers, or they are further apart than the tolerance. -/
def Suspicious {R : Type} (isNan : R → Bool) (far : R → R → Bool) (complex : Bool) (c t : R) : Prop :=
  (complex = false ∧ (isNan c = true ∨ isNan t = true)) ∨ far c t = true

instance {R : Type} (isNan : R → Bool) (far : R → R → Bool) (complex : Bool) (c t : R) :
    Decidable (Suspicious isNan far complex c t) := inferInstanceAs (Decidable (_ ∨ _))

end Einsums.Spec
