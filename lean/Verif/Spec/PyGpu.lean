/-
Specification vocabulary for contractions in which a label is repeated within an operand.
-/
namespace Einsums.Spec
variable {L : Type} [DecidableEq L]

/-- The index `i` of an operand with labels `ls`, with 0 in every place whose label occurs in an earlier place: `[3, 3]` for the
labels `[k, k]` becomes `[3, 0]`. -/
def keepFirst : List L → List Nat → List Nat
  | l :: ls, x :: xs => x :: keepFirst ls (List.zipWith (fun m y => if m = l then 0 else y) ls xs)
  | _, xs => xs

end Einsums.Spec
