import Verif.Model.ShapeText
/-
The text of lists of numbers, and how to read it.
-/
namespace Einsums.Spec
open Model

/-- A byte is a decimal digit. -/
def IsDigit (c : UInt8) : Prop := 48 ≤ c.toNat ∧ c.toNat ≤ 57

/-- The number with the given digits, the most significant first. -/
def readNat (s : List UInt8) : Nat := s.foldl (fun a c => 10 * a + (c.toNat - 48)) 0

/-- `s` is the usual numeral of `n`: digits without a leading zero, after a minus sign if `n` is negative. -/
def IsNumeral (s : List UInt8) (n : Int) : Prop :=
  ∃ ds, (∀ c ∈ ds, IsDigit c) ∧ ds ≠ [] ∧ (ds.head? = some 48 → ds = [48]) ∧ readNat ds = n.natAbs ∧
    s = if n < 0 then 45 :: ds else ds

/-- The name of a kind of list. -/
def shapeName : ShapeKind → List Char
  | .dim => "Dim".toList
  | .stride => "Stride".toList
  | .count => "Count".toList
  | .offset => "Offset".toList

/-- Pieces of text with a separator between them. -/
def joined (sep : List UInt8) : List (List UInt8) → List UInt8
  | [] => []
  | [s] => s
  | s :: t :: rest => s ++ sep ++ joined sep (t :: rest)

/-- A text in braces after a name. -/
def braced (name : List Char) (body : List UInt8) : List UInt8 :=
  name.map (fun c => UInt8.ofNat c.toNat) ++ [123] ++ body ++ [125]

end Einsums.Spec
