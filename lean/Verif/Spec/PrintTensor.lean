import Verif.Model.PrintTensor
import Verif.Spec.Index
/-
The lines a printed tensor should consist of, without indentation.
-/
namespace Einsums.Spec
open Model

/-- Numbers separated by a comma and a space. -/
def commaList (is : List Nat) : List UInt8 := ((is.map decimal).intersperse [44, 32]).flatten

/-- A number right-aligned in a field of `w` characters. -/
def rightAligned (w n : Nat) : List UInt8 := List.replicate (w - (decimal n).length) 32 ++ decimal n

/-- The label of a line: `(i, j, first-last): `, filled up with spaces to 14 characters. -/
def lineLabel (pre : List Nat) (first last nd : Nat) : List UInt8 :=
  let s := [40] ++ commaList pre ++ [44, 32] ++ rightAligned nd first ++ [45] ++ rightAligned nd last ++ [41, 58, 32]
  s ++ List.replicate (14 - s.length) 32

/-- The lines of `n` elements: `w` elements per line, the last line with what is left.  Line `k` has the elements `k * w`, `k * w + 1`, … and
says so in its label. -/
def rowLinesWith (label : Nat → Nat → List UInt8) (w n : Nat) (text : Nat → List UInt8) : List (List UInt8) :=
  (List.range ((n + w - 1) / w)).map fun k =>
    label (k * w) (min ((k + 1) * w) n - 1) ++ (List.range' (k * w) (min w (n - k * w))).flatMap text

/-- The lines for the elements with the indices `pre` but the last, of which there are `n`. -/
def rowLines (w n : Nat) (pre : List Nat) (text : Nat → List UInt8) : List (List UInt8) :=
  rowLinesWith (fun first last => lineLabel pre first last (Nat.digits 10 n).length) w n text

/-- The lines for the elements of a tensor with the dimensions `dims`, whose element with the index `i` is written as `text i`:
a vector has one line for every element; other tensors a paragraph for every combination of the indices but the last. -/
def elementLines (w : Nat) (dims : List Nat) (text : List Nat → List UInt8) : List (List UInt8) :=
  match dims with
  | [] => [List.replicate 14 32 ++ text [], []]
  | [d] => (List.range d).map fun i => [40] ++ decimal i ++ [41, 58, 32] ++ text [i]
  | _ => (box dims.dropLast).flatMap fun pre => rowLines w (dims.getLast?.getD 0) pre (fun j => text (pre ++ [j])) ++ [[]]

/-- How an element is written: white on red if it is too large for the rank, in scientific notation if it is a small
floating-point number. -/
def elementText {R : Type} (F : NumText R) (rank : Nat) (v : R) : List UInt8 :=
  let tooBig := if rank = 0 then false else if rank = 1 then F.big1 v else F.big v
  if tooBig then [27, 91, 48, 59, 51, 55, 59, 52, 49, 109] ++ F.fixed v ++ [27, 91, 48, 109]
  else if F.floating = true ∧ F.small v = true then F.sci v else F.fixed v

/-- The indented lines: type, element type, dimensions, strides, and if wanted the elements after an empty line. -/
def tensorLines {R : Type} (F : NumText R) (kind dataType : List UInt8) (w : Nat) (full : Bool) (dims strides : List Nat)
    (f : List Nat → R) : List (List UInt8) :=
  [ascii ['T', 'y', 'p', 'e', ':', ' '] ++ kind, ascii ['D', 'a', 't', 'a', ' ', 'T', 'y', 'p', 'e', ':', ' '] ++ dataType] ++
  (if dims = [] then [] else
    [ascii ['D', 'i', 'm', 's', '{'] ++ (dims.map fun d => decimal d ++ [32]).flatten ++ ascii ['}'],
     ascii ['S', 't', 'r', 'i', 'd', 'e', 's', '{'] ++ (strides.map fun d => decimal d ++ [32]).flatten ++ ascii ['}']]) ++
  (if full then [] :: elementLines w dims (fun i => elementText F dims.length (f i)) else [])

end Einsums.Spec
