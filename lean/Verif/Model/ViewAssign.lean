import Verif.Model.Tensor
/-
Model of the assignments to a `TensorView` (src/include/einsums/Tensor.hpp 1105–1155).
-/
namespace Einsums.Model

variable {α : Type}

/-- Tensor.hpp 1131 and 1150: `std::apply(other, combination)`.  `shared`: `other` is a view of the same storage as the target, so it sees
what has been written. -/
def Strided.seen (shared : Bool) (src dst : Strided α) : Strided α := if shared then { src with data := dst.data } else src

/-- Tensor.hpp 1121–1136 and 1138–1155: `TensorView::operator=` of another view, or of a tensor.  The iterations are executed in the order
`sched`; nothing compares the dimensions. -/
def Strided.viewAssign (shared : Bool) (dst src : Strided α) (sched : List (List Nat)) : Outcome (Strided α) :=
  sched.foldlM (fun d i => do
    let x ← (src.seen shared d).read (toIdx i)
    d.write (toIdx i) x) dst

/-- Tensor.hpp 1114: `other[item]` of an array of `p.length` elements. -/
def pointerRead (p : List α) (item : Nat) : Outcome α :=
  match p[item]? with
  | some x => .ok x
  | none => .ub "read past the end of the array"

/-- Tensor.hpp 1105–1119: `TensorView::operator=(const T *)`, in order. -/
def Strided.viewFromPointer (dst : Strided α) (p : List α) : Outcome (Strided α) :=
  (cartesian dst.dims).zipIdx.foldlM (fun d it => do
    let x ← pointerRead p it.2
    d.write (toIdx it.1) x) dst

end Einsums.Model
