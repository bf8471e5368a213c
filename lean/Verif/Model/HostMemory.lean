import Verif.Model.ViewAssign
import Verif.Model.DeviceMemory

/-
Model of the memory of `Tensor` and of the pointers that `TensorView` holds into it (src/include/einsums/Tensor.hpp): programs of
declarations, views, reshaping, resizing, assignments and destructions in any order.

The elements of a tensor are in a `std::vector`, whose contract is: the memory is kept as long as the capacity suffices, otherwise the
elements move to new memory and the old is freed; moving from a vector leaves it without memory; the destructor frees it.  Views are
pointers and neither keep memory nor free it.  Simplifications: allocation succeeds; a view through which an element past the end of the
vector is read is undefined, also when the capacity would cover it; assigning a tensor to itself is the identity.
-/
namespace Einsums.Model
open Spec (Sel ReqDim)

variable {α : Type}

/-- Tensor.hpp 142 (`VectorData`): a block of memory: the elements in it, how many it can take, and whether it is allocated. -/
structure HostBlock (α : Type) where
  data : List α
  cap : Nat
  live : Bool
  deriving DecidableEq, Repr

/-- Tensor.hpp 925–930 and 1432–1440: a tensor (`owner`) or a view: the block its `_data` is in or points into, the position of the first
element, dimensions and strides. -/
structure HostObj where
  owner : Bool
  block : Option Nat
  off : Nat
  dims : List Nat
  strides : List Nat
  deriving DecidableEq, Repr

/-- Tensor.hpp 150–1440: the memory and the objects of a program in the order of their declaration; `none` are objects that were
destroyed or whose constructor threw. -/
structure HostProgram (α : Type) where
  blocks : List (HostBlock α)
  objs : List (Option HostObj)
  deriving DecidableEq, Repr

namespace HostProgram

/-- Tensor.hpp 150: the object at a position. -/
def at' (P : HostProgram α) (x : Nat) : Option HostObj := (P.objs[x]?).join

/-- Tensor.hpp 425, 1162: the elements that `_data` of an object reaches, if the memory is still allocated. -/
def contents (P : HostProgram α) (o : HostObj) : Option (List α) :=
  match o.block with
  | none => some []
  | some b =>
      match P.blocks[b]? with
      | some k => if k.live then some k.data else none
      | none => none

/-- Tensor.hpp 925–930, 1432–1440: an object with the elements that it reaches. -/
def strided (P : HostProgram α) (o : HostObj) : Option (Strided α) := (P.contents o).map fun d => ⟨d, o.off, o.dims, o.strides⟩

/-- Tensor.hpp 487–511 and 1190–1213: reading an element of the object at `x`. -/
def read (P : HostProgram α) (x : Nat) (idx : List Int) : Outcome α :=
  match P.at' x with
  | none => .ub "no such object"
  | some o =>
      match P.strided o with
      | none => .ub "use after free"
      | some t => t.read idx

/-- Tensor.hpp 209, 311 (`std::vector`): new memory. -/
def alloc (P : HostProgram α) (d : List α) (cap : Nat) : HostProgram α := { P with blocks := P.blocks ++ [⟨d, cap, true⟩] }

/-- Tensor.hpp 172 (`std::vector`): freeing memory. -/
def free (P : HostProgram α) : Option Nat → Did (HostProgram α)
  | none => .returns P
  | some b =>
      match P.blocks[b]? with
      | some k => if k.live then .returns { P with blocks := P.blocks.set b { k with live := false } } else .bad "double free"
      | none => .bad "double free"

/-- Tensor.hpp 513–537 (writing through a pointer): new elements in the memory that an object reaches. -/
def put (P : HostProgram α) (o : HostObj) (d : List α) : HostProgram α :=
  match o.block with
  | none => P
  | some b =>
      match P.blocks[b]? with
      | some k => { P with blocks := P.blocks.set b { k with data := d } }
      | none => P

/-- Tensor.hpp 375, 726 (`std::vector::resize`): the elements `d` in the vector of a tensor; `grow` is the capacity that the library of C++
chooses for new memory.  The result has the block that the vector then has. -/
def store (grow : Nat → Nat → Nat) (P : HostProgram α) (block : Option Nat) (d : List α) : Did (HostProgram α × Option Nat) :=
  match block with
  | none => if d.length = 0 then .returns (P, none) else .returns (P.alloc d (max d.length (grow 0 d.length)), some P.blocks.length)
  | some b =>
      match P.blocks[b]? with
      | none => .bad "no such memory"
      | some k =>
          if d.length ≤ k.cap then .returns ({ P with blocks := P.blocks.set b { k with data := d } }, some b)
          else
            match (P.alloc d (max d.length (grow k.cap d.length))).free (some b) with
            | .returns P' => .returns (P', some P.blocks.length)
            | .throws P' => .throws (P', some P.blocks.length)
            | .bad m => .bad m

/-- Tensor.hpp 190–210: a constructor ends with the object `o`. -/
def declare (P : HostProgram α) (o : Option HostObj) : HostProgram α := { P with objs := P.objs ++ [o] }

/-- Tensor.hpp 353–387: the object at `x` after a member function. -/
def setObj (P : HostProgram α) (x : Nat) (o : Option HostObj) : HostProgram α := { P with objs := P.objs.set x o }

/-- Tensor.hpp 190–346: a constructor that fills a new vector. -/
def construct (grow : Nat → Nat → Nat) (P : HostProgram α) (t : Strided α) : Did (HostProgram α) :=
  match P.store grow none t.data with
  | .returns (P', b) => .returns (P'.declare (some ⟨true, b, 0, t.dims, t.strides⟩))
  | .throws (P', _) => .throws (P'.declare none)
  | .bad m => .bad m

/-- Tensor.hpp 353–387, 700–730: a member function that leaves the tensor at `x`, whose vector was in `block`, as `t`. -/
def renew (grow : Nat → Nat → Nat) (P : HostProgram α) (x : Nat) (block : Option Nat) (t : Strided α) : Did (HostProgram α) :=
  match P.store grow block t.data with
  | .returns (P', b) => .returns (P'.setObj x (some ⟨true, b, 0, t.dims, t.strides⟩))
  | .throws (P', b) => .throws (P'.setObj x (some ⟨true, b, 0, t.dims, t.strides⟩))
  | .bad m => .bad m

end HostProgram

/-- Tensor.hpp 540–650, 907–912, 1304–1320: how a view is made. -/
inductive ViewKind where
  | sub (args : List Sel)
  | ranges (rs : List (Int × Int))
  deriving DecidableEq, Repr

/-- Tensor.hpp 540–628 and 630–650. -/
def ViewKind.make : ViewKind → Strided α → Outcome (Strided α)
  | .sub args, t => t.sub args
  | .ranges rs, t => t.ranges rs

/-- Tensor.hpp 150–1440: the statements.  `x`, `y` are positions of objects; a statement about an object that is not there, or not of the
right class, is no statement of a program and does nothing.  `z`: what fresh memory holds (`vecResize`). -/
inductive HostStmt (α : Type) where
  /-- Tensor.hpp 190–210. -/
  | create (z : Nat → α) (dims : List Nat)
  /-- Tensor.hpp 167: the copy constructor. -/
  | copy (y : Nat)
  /-- Tensor.hpp 237–288. -/
  | reshape (y : Nat) (req : List ReqDim)
  /-- Tensor.hpp 540–650 and 1348–1430. -/
  | view (y : Nat) (k : ViewKind)
  /-- Tensor.hpp 1015: a copy of a view. -/
  | copyView (y : Nat)
  /-- Tensor.hpp 353–387. -/
  | resize (z : Nat → α) (x : Nat) (dims : List Nat)
  /-- Tensor.hpp 700–730: assignment of tensors. -/
  | assign (z : Nat → α) (x y : Nat)
  /-- Tensor.hpp 800–810 and 1121–1155: element by element, for a tensor from a view and for views, in the order `sched`. -/
  | copyElements (x y : Nat) (sched : List (List Nat))
  /-- Tensor.hpp 513–537. -/
  | write (x : Nat) (idx : List Int) (v : α)
  /-- Tensor.hpp 172 and 1016. -/
  | destroy (x : Nat)

namespace HostProgram

/-- Tensor.hpp 237–288: reshaping.  The vector has moved into the new object before anything is checked; when the constructor throws, its
members are destroyed. -/
def reshapeTo (P : HostProgram α) (y : Nat) (o : HostObj) (t : Strided α) (req : List ReqDim) : Did (HostProgram α) :=
  match reshape t req with
  | .ok t' => .returns ((P.setObj y (some { o with block := none })).declare (some ⟨true, o.block, 0, t'.dims, t'.strides⟩))
  | .error _ =>
      match P.free o.block with
      | .returns P' => .throws ((P'.setObj y (some { o with block := none })).declare none)
      | .throws P' => .throws ((P'.setObj y (some { o with block := none })).declare none)
      | .bad m => .bad m
  | .ub m => .bad m

/-- Tensor.hpp 513–537, 1105–1155: what has been written through the object at `o`. -/
def written (P : HostProgram α) (o : HostObj) : Outcome (Strided α) → Did (HostProgram α)
  | .ok t => .returns (P.put o t.data)
  | .error _ => .throws P
  | .ub m => .bad m

/-- Tensor.hpp 150–1440: one statement. -/
def step (grow : Nat → Nat → Nat) (P : HostProgram α) : HostStmt α → Did (HostProgram α)
  | .create z dims => P.construct grow (Strided.mk' z dims)
  | .copy y =>
      match P.at' y with
      | none => .returns P
      | some o =>
          if o.owner then
            match P.strided o with
            | none => .bad "use after free"
            | some t => P.construct grow t
          else .returns P
  | .reshape y req =>
      match P.at' y with
      | none => .returns P
      | some o =>
          if o.owner then
            match P.strided o with
            | none => .bad "use after free"
            | some t => P.reshapeTo y o t req
          else .returns P
  | .view y k =>
      match P.at' y with
      | none => .returns P
      | some o =>
          match P.strided o with
          | none => .bad "use after free"
          | some t =>
              match k.make t with
              | .ok v => .returns (P.declare (some ⟨false, o.block, v.off, v.dims, v.strides⟩))
              | .error _ => .throws (P.declare none)
              | .ub m => .bad m
  | .copyView y =>
      match P.at' y with
      | none => .returns P
      | some o => if o.owner then .returns P else .returns (P.declare (some o))
  | .resize z x dims =>
      match P.at' x with
      | none => .returns P
      | some o =>
          if o.owner then
            match P.strided o with
            | none => .bad "use after free"
            | some t => P.renew grow x o.block (t.resize z dims)
          else .returns P
  | .assign z x y =>
      match P.at' x, P.at' y with
      | some o, some p =>
          if o.owner && p.owner then
            match P.strided o, P.strided p with
            | some t, some u =>
                match t.assign z u with
                | .ok t' => P.renew grow x o.block t'
                | .error _ => .throws P
                | .ub m => .bad m
            | _, _ => .bad "use after free"
          else .returns P
      | _, _ => .returns P
  | .copyElements x y sched =>
      match P.at' x, P.at' y with
      | some o, some p =>
          if o.owner && p.owner then .returns P
          else
            match P.strided o, P.strided p with
            | some t, some u => P.written o (t.viewAssign (decide (o.block = p.block)) u sched)
            | _, _ => .bad "use after free"
      | _, _ => .returns P
  | .write x idx v =>
      match P.at' x with
      | none => .returns P
      | some o =>
          match P.strided o with
          | none => .bad "use after free"
          | some t => P.written o (t.write idx v)
  | .destroy x =>
      match P.at' x with
      | none => .returns P
      | some o =>
          if o.owner then
            match P.free o.block with
            | .returns P' => .returns (P'.setObj x none)
            | .throws P' => .throws (P'.setObj x none)
            | .bad m => .bad m
          else .returns (P.setObj x none)

/-- Tensor.hpp 150: a program without objects. -/
def init : HostProgram α := ⟨[], []⟩

/-- Tensor.hpp 150–1440: the statements in sequence; exceptions are caught and the program goes on.  `none`: undefined behaviour. -/
def run (grow : Nat → Nat → Nat) : List (HostStmt α) → HostProgram α → Option (HostProgram α)
  | [], P => some P
  | s :: ss, P =>
      match P.step grow s with
      | .returns P => run grow ss P
      | .throws P => run grow ss P
      | .bad _ => none

end HostProgram

end Einsums.Model
