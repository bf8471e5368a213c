import Verif.Model.Print
import Verif.Model.Stl
import Verif.Model.Tensor
/-
Printing of tensors: Tensor.hpp 2112–2279 (`println` and `fprintln` of an in-core tensor or view), on top of src/Print.cpp.
Simplifications: `abs(x) > 1e10`, `abs(x) > 1e5`, `abs(x) < 1e-4` and the text of a number by `fmt` are functions (`NumText`);
the number of columns fits in an `int`; nothing else changes the indentation while the tensor is printed.
-/
namespace Einsums.Model

section
variable {R : Type}

/-- Tensor.hpp 2164–2176, 2199–2221, 2242–2263: how numbers of a type are looked at and written: `fixed` is `{:14.8f} `
(for complex numbers with the parentheses, for integers `{:14} `), `sci` is `{:14.4e} `; `floating` is
`std::is_floating_point_v<T>`. -/
structure NumText (R : Type) where
  big : R → Bool
  big1 : R → Bool
  small : R → Bool
  floating : Bool
  fixed : R → List UInt8
  sci : R → List UInt8

/-- Tensor.hpp 2199–2221, 2242–2263: the text of an element; those with large absolute value are printed white on red. -/
def NumText.value (F : NumText R) (big : R → Bool) (v : R) : List UInt8 :=
  if big v then ascii ['\x1b', '[', '0', ';', '3', '7', ';', '4', '1', 'm'] ++ F.fixed v ++ ascii ['\x1b', '[', '0', 'm']
  else if F.floating && F.small v then F.sci v
  else F.fixed v

/-- Tensor.hpp 2191–2195: the decimal digits of a C `int` (`{:d}`). -/
def decimalInt (n : Int) : List UInt8 := if n < 0 then 45 :: decimal n.natAbs else decimal n.toNat

/-- Tensor.hpp 2191–2195 (`{:{}d}`): padding on the left. -/
def padLeft (w : Nat) (s : List UInt8) : List UInt8 := List.replicate (w - s.length) 32 ++ s

/-- Tensor.hpp 2191–2195 (`{:<14}`): padding on the right. -/
def padRight (w : Nat) (s : List UInt8) : List UInt8 := s ++ List.replicate (w - s.length) 32

/-- Print.hpp 136–147: `TuplePrinterNoType`, the last number last. -/
def tupleText : List Nat → List UInt8
  | [] => []
  | [i] => decimal i
  | i :: j :: is => decimal i ++ ascii [',', ' '] ++ tupleText (j :: is)

/-- Tensor.hpp 2191–2195: the label of a line. -/
def labelText (pre : List Nat) (first last : Int) (nd : Nat) : List UInt8 :=
  padRight 14 (ascii ['('] ++ tupleText pre ++ ascii [',', ' '] ++ padLeft nd (decimalInt first) ++ ascii ['-'] ++
    padLeft nd (decimalInt last) ++ ascii [')', ':', ' '])

/-- Tensor.hpp 2190: `final_dim >= j + options.width`, a comparison of a `size_t` with an `int`, which is converted to `size_t`. -/
def notShort (n j : Nat) (width : Int) : Bool :=
  decide ((if (j : Int) + width < 0 then 2 ^ 64 + (j + width) else j + width) ≤ (n : Int))

/-- Tensor.hpp 2186–2225: what the iteration `j` of the loop over the last index adds to the text.  `j % 0` is undefined. -/
def printCell (F : NumText R) (A : Strided R) (width : Int) (n : Nat) (pre : List Nat) (j : Nat) : Outcome (List UInt8) :=
  if width = 0 then .ub "remainder of a division by zero"
  else do
    let v ← A.read (toIdx (pre ++ [j]))
    return (if (j : Int).tmod width = 0 then
        labelText pre j (if notShort n j width then j + width - 1 else n - 1) (ndigits n) else []) ++
      F.value F.big v ++
      (if (j : Int).tmod width = width - 1 ∧ j ≠ n - 1 then [10] else [])

/-- Tensor.hpp 2185–2226: the text for one combination of the indices but the last. -/
def printCells (F : NumText R) (A : Strided R) (width : Int) (n : Nat) (pre : List Nat) : Outcome (List UInt8) :=
  (List.range n).foldlM (fun s j => do
    let c ← printCell F A width n pre j
    return s ++ c) []

/-- Print.hpp 249–276: `fprintln(os)`. -/
def blankLine (st : PrintState) (par : Bool) (thread : Nat) : List UInt8 := println st .stream par thread [10]

/-- Tensor.hpp 2158–2267: the elements, by the rank of the tensor. -/
def printElements (F : NumText R) (st : PrintState) (par : Bool) (thread : Nat) (A : Strided R) (width : Int) :
    Outcome (List UInt8) :=
  match A.dims.length with
  | 0 => do
      let v ← A.read []
      return println st .stream par thread (List.replicate 14 32 ++ F.value (fun _ => false) v) ++ blankLine st par thread
  | 1 => (cartesian A.dims).foldlM (fun s i => do
      let v ← A.read (toIdx i)
      return s ++ println st .stream par thread (ascii ['('] ++ tupleText i ++ ascii [')', ':', ' '] ++ F.value F.big1 v)) []
  | r + 2 => (cartesian (A.dims.take (r + 1))).foldlM (fun s pre => do
      let row ← printCells F A width (A.dims.getD (r + 1) 0) pre
      return s ++ println st .stream par thread row ++ blankLine st par thread) []

/-- Tensor.hpp 2140–2156: the numbers of `Dims{…}` and `Strides{…}`, each followed by a space. -/
def numbersText (ds : List Nat) : List UInt8 := ds.flatMap fun d => decimal d ++ [32]

/-- Tensor.hpp 2158–2268: the part that `options.full_output` decides on. -/
def printBody (F : NumText R) (st : PrintState) (par : Bool) (thread : Nat) (A : Strided R) (width : Int) (full : Bool) :
    Outcome (List UInt8) :=
  if full then do
    let s ← printElements F st par thread A width
    return blankLine st par thread ++ s
  else .ok []

/-- Tensor.hpp 2112–2279: `fprintln(os, A, options)`: the bytes written.  `name`, `kind` and `dataType` are the name of the
tensor, `In Core Tensor` or `In Core Tensor View`, and the name of the type of its elements. -/
def printTensor (F : NumText R) (st : PrintState) (par : Bool) (thread : Nat) (name kind dataType : List UInt8) (width : Int)
    (full : Bool) (A : Strided R) : Outcome (List UInt8) := do
  let head := println st .stream par thread (ascii ['N', 'a', 'm', 'e', ':', ' '] ++ name)
  let st' := st.indent thread
  let line := println st' .stream par thread
  let info := line (ascii ['T', 'y', 'p', 'e', ':', ' '] ++ kind) ++
    line (ascii ['D', 'a', 't', 'a', ' ', 'T', 'y', 'p', 'e', ':', ' '] ++ dataType) ++
    (if 0 < A.dims.length then
      line (ascii ['D', 'i', 'm', 's', '{'] ++ numbersText A.dims ++ ascii ['}']) ++
      line (ascii ['S', 't', 'r', 'i', 'd', 'e', 's', '{'] ++ numbersText A.strides ++ ascii ['}'])
    else [])
  let body ← printBody F st' par thread A width full
  return head ++ info ++ body ++ blankLine (st'.deindent thread) par thread

end
end Einsums.Model
