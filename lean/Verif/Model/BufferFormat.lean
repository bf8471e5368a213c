import Verif.Model.PythonTensor
/-
Model of the choice of the C++ type of the items of a Python buffer by its format: python/PyTensor.hpp 662–779 (`COPY_CAST_OP`;
lines 1210–1360 do the same for views).
Simplification: an item is a pair of numbers (real and imaginary part); `rnd` is the rounding of the conversion to `T`.
-/
namespace Einsums.Model

/-- PyTensor.hpp 709–772: the C++ types of items, with their size in bytes (`complex n` consists of two of `n` bytes). -/
inductive ItemType
  | int (n : Nat)
  | uint (n : Nat)
  | real (n : Nat)
  | complex (n : Nat)
  deriving DecidableEq

/-- PyTensor.hpp 668 `sizeof(TOther)`. -/
def ItemType.size : ItemType → Nat
  | .int n | .uint n | .real n => n
  | .complex n => 2 * n

/-- PyTensor.hpp 703–778: the `switch`.  `format[1]` of a format with one character is `'\0'`. -/
def formatType (format : List Char) (itemsize : Nat) : Outcome ItemType :=
  if format.length > 2 then .error "Can't handle most user defined data type"
  else match format.getD 0 '\x00' with
    | 'b' => .ok (.int 1)
    | 'B' => .ok (.uint 1)
    | 'h' => .ok (.int 2)
    | 'H' => .ok (.uint 2)
    | 'i' => .ok (.int 4)
    | 'I' => .ok (.uint 4)
    | 'q' => .ok (.int 8)
    | 'Q' => .ok (.uint 8)
    | 'l' =>
        if itemsize = 4 then .ok (.int 4) else if itemsize = 8 then .ok (.int 8)
        else .error "Something's wrong with your system! Python ints are neither 32 nor 64 bits!"
    | 'L' =>
        if itemsize = 4 then .ok (.uint 4) else if itemsize = 8 then .ok (.uint 8)
        else .error "Something's wrong with your system! Python ints are neither 32 nor 64 bits!"
    | 'f' => .ok (.real 4)
    | 'd' => .ok (.real 8)
    | 'g' => .ok (.real 16)
    | 'Z' =>
        match format.getD 1 '\x00' with
        | 'f' => .ok (.complex 4)
        | 'd' => .ok (.complex 8)
        | 'g' => .ok (.complex 16)
        | _ => .error "Can not convert format descriptor"
    | _ => .error "Can not convert format descriptor"

section
variable {R α : Type}

/-- PyTensor.hpp 682–686, 694–698: the conversion of an item to a real `T`: of complex items the real part. -/
def castReal (rnd : R → R) (x : R × R) : R := rnd x.1

/-- PyTensor.hpp 681–686, 693–698: the conversion of an item to a complex `T`. -/
def castComplex (rnd : R → R) (x : R × R) : R × R := (rnd x.1, rnd x.2)

/-- PyTensor.hpp 668, 679: `buffer_data[k]` for a pointer to items of `sz` bytes. -/
def PyBuffer.readAs (b : PyBuffer β) (sz : Nat) (k : Int) : Outcome β :=
  match b.items (sz * k) with
  | some x => .ok x
  | none => .ub "read outside the buffer"

/-- PyTensor.hpp 669–701: the loop over the elements; the place in the buffer is counted in items of `buffer_info.itemsize` bytes, the
pointer in items of `sz` bytes. -/
def bufLoopAs (op : α → α → α) (conv : β → α) (sz : Nat) (t : Strided α) (b : PyBuffer β) (sch : List Nat) :
    Outcome (Strided α) :=
  sch.foldlM (fun (t' : Strided α) (i : Nat) => do
    let k ← bufPos t.strides b i
    let x ← b.readAs sz k
    ptrModify t' i fun y => op y (conv x)) t

/-- PyTensor.hpp 135–174 with 703–778: the constructor from a buffer with the format `format`. -/
def rtOfFormat (z : Nat → α) (conv : R × R → α) (format : List Char) (b : PyBuffer (R × R)) (sch : List Nat) :
    Outcome (Strided α) := do
  let ty ← formatType format b.itemsize
  bufLoopAs (fun _ x => x) conv ty.size (rtNew z b.shape) b sch

/-- PyTensor.hpp 815–855 with 703–778: `t OP= buffer` with the format `format`. -/
def rtOpFormat (op : α → α → α) (conv : R × R → α) (t : Strided α) (format : List Char) (b : PyBuffer (R × R))
    (sch : List Nat) : Outcome (Strided α) :=
  if t.dims.length ≠ b.shape.length then .error "different rank"
  else if t.dims ≠ b.shape then .error "different dimensions"
  else do
    let ty ← formatType format b.itemsize
    bufLoopAs op conv ty.size t b sch

end
end Einsums.Model
