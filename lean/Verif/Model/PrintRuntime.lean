import Verif.Model.PrintTensor
import Verif.Model.RuntimeTensor
/-
Printing of tensors whose rank is known at run time only: RuntimeTensor.hpp 1419–1632 (`println` and `fprintln` of a runtime
tensor or view in core memory).  Simplifications: those of PrintTensor.lean; the arithmetic on `Rank`, `int` and `size_t` does not
overflow.
-/
namespace Einsums.Model

section
variable {R : Type}

/-- RuntimeTensor.hpp 1419–1611: what the function asks of its argument: `dim`, `stride` and `size`, `A(index)` for a container of
indices and `A(i)` for one integer, on a const tensor. -/
structure RtPrinted (R : Type) where
  dims : List Nat
  strides : List Nat
  size : Nat
  get : List Int → Outcome R
  at1 : Int → Outcome R

/-- RuntimeTensor.hpp 181–187, 223–243, 637: a runtime tensor.  With one integer and a rank of 0 the subscript throws; with rank 1 it is
that of a container; larger ranks (a view, not a `T`: `std::get` throws) do not occur here. -/
def Strided.printed (t : Strided R) : RtPrinted R :=
  ⟨t.dims, t.strides, t.data.length, rtGet t, fun i => rtGetInts t [i]⟩

/-- RuntimeTensor.hpp 886–890, 940–960, 1407: a runtime view.  `A(0)` and `A(i)` are calls of the template for integers: an `int` or a
`size_t` would have to be converted for the overload for `ptrdiff_t`. -/
def RtView.printed (v : RtView R) : RtPrinted R :=
  ⟨v.view.dims, v.view.strides, v.size, rtvGet v, fun i => rtvGetInts v [i]⟩

/-- RuntimeTensor.hpp 1525–1534: the label of a line: every index but the last is followed by a comma and a space, and the format has
another space. -/
def rtLabelText (pre : List Nat) (first last : Int) (nd : Nat) : List UInt8 :=
  padRight 14 (ascii ['('] ++ (pre.flatMap fun i => decimal i ++ ascii [',', ' ']) ++ ascii [' '] ++ padLeft nd (decimalInt first) ++
    ascii ['-'] ++ padLeft nd (decimalInt last) ++ ascii [')', ':', ' '])

/-- RuntimeTensor.hpp 1523–1560: what the iteration `j` of the loop over the last index adds to the text.  `j % 0` is undefined. -/
def rtPrintCell (F : NumText R) (A : RtPrinted R) (width : Int) (n : Nat) (pre : List Nat) (j : Nat) : Outcome (List UInt8) :=
  if width = 0 then .ub "remainder of a division by zero"
  else do
    let v ← A.get (toIdx (pre ++ [j]))
    return (if (j : Int).tmod width = 0 then
        rtLabelText pre j (if notShort n j width then j + width - 1 else n - 1) (ndigits n) else []) ++
      F.value F.big v ++
      (if (j : Int).tmod width = width - 1 ∧ j ≠ n - 1 then [10] else [])

/-- RuntimeTensor.hpp 1518–1561: the text for one combination of the indices but the last. -/
def rtPrintCells (F : NumText R) (A : RtPrinted R) (width : Int) (n : Nat) (pre : List Nat) : Outcome (List UInt8) :=
  (List.range n).foldlM (fun s j => do
    let c ← rtPrintCell F A width n pre j
    return s ++ c) []

/-- RuntimeTensor.hpp 1469–1608: the elements, by the rank of the tensor.  The combinations of the indices but the last are those of the
numbers below the product of the dimensions (1507–1521). -/
def rtPrintElements (F : NumText R) (st : PrintState) (par : Bool) (thread : Nat) (A : RtPrinted R) (width : Int) :
    Outcome (List UInt8) :=
  match A.dims.length with
  | 0 => do
      let v ← A.at1 0
      return println st .stream par thread (List.replicate 14 32 ++ F.value (fun _ => false) v) ++ blankLine st par thread
  | 1 => (List.range A.size).foldlM (fun s (i : Nat) => do
      let v ← A.at1 i
      return s ++ println st .stream par thread (ascii ['('] ++ decimal i ++ ascii [')', ':', ' '] ++ F.value F.big1 v)) []
  | r + 2 =>
      let rows := dimsToStrides (A.dims.take (r + 1))
      (List.range rows.1).foldlM (fun s i => do
        let row ← rtPrintCells F A width (A.dims.getD (r + 1) 0) (sentinelToIndices i rows.2)
        return s ++ println st .stream par thread row ++ blankLine st par thread) []

/-- RuntimeTensor.hpp 1466–1609: the part that `options.full_output` decides on. -/
def rtPrintBody (F : NumText R) (st : PrintState) (par : Bool) (thread : Nat) (A : RtPrinted R) (width : Int) (full : Bool) :
    Outcome (List UInt8) :=
  if full then do
    let s ← rtPrintElements F st par thread A width
    return blankLine st par thread ++ s
  else .ok []

/-- RuntimeTensor.hpp 1419–1613: `fprintln(os, A, options)`: the bytes written.  `name`, `kind` and `dataType` are the name of the
tensor, `In Core Runtime Tensor` or `In Core Runtime Tensor View`, and the name of the type of its elements.  When an exception
leaves the function the lines written so far stay written; `error` forgets them. -/
def printRuntime (F : NumText R) (st : PrintState) (par : Bool) (thread : Nat) (name kind dataType : List UInt8) (width : Int)
    (full : Bool) (A : RtPrinted R) : Outcome (List UInt8) := do
  let head := println st .stream par thread (ascii ['N', 'a', 'm', 'e', ':', ' '] ++ name)
  let st' := st.indent thread
  let line := println st' .stream par thread
  let info := line (ascii ['T', 'y', 'p', 'e', ':', ' '] ++ kind) ++
    line (ascii ['D', 'a', 't', 'a', ' ', 'T', 'y', 'p', 'e', ':', ' '] ++ dataType) ++
    (if 0 < A.dims.length then
      line (ascii ['D', 'i', 'm', 's', '{'] ++ numbersText A.dims ++ ascii ['}'])
    else []) ++
    (if 0 < A.dims.length then
      line (ascii ['S', 't', 'r', 'i', 'd', 'e', 's', '{'] ++ numbersText A.strides ++ ascii ['}'])
    else [])
  let body ← rtPrintBody F st' par thread A width full
  return head ++ info ++ body ++ blankLine (st'.deindent thread) par thread

end
end Einsums.Model
