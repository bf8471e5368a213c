import Verif.Spec.PrintTensor
/-
The lines a printed runtime tensor should consist of, without indentation.
-/
namespace Einsums.Spec
open Model

/-- The label of a line: `(i, j,  first-last): `, filled up with spaces to 14 characters. -/
def runtimeLabel (pre : List Nat) (first last nd : Nat) : List UInt8 :=
  let s := [40] ++ commaList pre ++ [44, 32, 32] ++ rightAligned nd first ++ [45] ++ rightAligned nd last ++ [41, 58, 32]
  s ++ List.replicate (14 - s.length) 32

/-- The lines for the elements of a runtime tensor of rank one or more with the dimensions `dims`, whose element with the index `i` is
written as `text i`: a vector has one line for every element; other tensors a paragraph for every combination of the indices but the
last, in lines of `w` elements. -/
def runtimeElementLines (w : Nat) (dims : List Nat) (text : List Nat → List UInt8) : List (List UInt8) :=
  match dims with
  | [d] => (List.range d).map fun i => [40] ++ decimal i ++ [41, 58, 32] ++ text [i]
  | _ => (box dims.dropLast).flatMap fun pre =>
      rowLinesWith (fun first last => runtimeLabel pre first last (Nat.digits 10 (dims.getLast?.getD 0)).length) w
        (dims.getLast?.getD 0) (fun j => text (pre ++ [j])) ++ [[]]

/-- The indented lines: type, element type, dimensions, strides, and if wanted the elements after an empty line. -/
def runtimeLines {R : Type} (F : NumText R) (kind dataType : List UInt8) (w : Nat) (full : Bool) (dims strides : List Nat)
    (f : List Nat → R) : List (List UInt8) :=
  tensorLines F kind dataType w false dims strides f ++
  (if full then [] :: runtimeElementLines w dims (fun i => elementText F dims.length (f i)) else [])

end Einsums.Spec
