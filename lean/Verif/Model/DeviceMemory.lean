import Verif.Model.Gpu

/-
Model of who owns the memory of device tensors and device views: constructors, copies, reshaping, assignment, resizing and destructors
of `DeviceTensor` and `DeviceTensorView` (src/include/einsums/DeviceTensor.hpp, gpu/DeviceTensor.hpp, gpu/DeviceTensorView.hpp).

Every piece of memory is a number with its kind; addresses, sizes and contents are left out (C129–C136 and C162 are about the elements),
except the dimensions that `_gpu_dims` holds for the kernels.  Contracts of HIP used here (its documentation): `hipMalloc` and
`hipHostMalloc` of 0 bytes give null; `hipFree` and `hipHostFree` of null do nothing; `hipHostRegister` of 0 bytes or of
registered memory, `hipHostUnregister` of null or of memory that is not registered and `hipHostGetDevicePointer` of null fail, and
`hip_catch` throws then; a destructor that throws ends the program.  Simplifications: allocations succeed; the number of elements is
the exact product of the dimensions (for `size()` beyond 2^31 see `sizeMethod`); ranks are positive.
-/
namespace Einsums.Model
open Spec

/-- gpu/DeviceTensor.hpp 75–91, gpu/DeviceTensorView.hpp 38: what kind of memory: `new T[]`, the registration of such memory, pinned host
memory, device memory, and the registration of the memory of a tensor in core. -/
inductive MemKind where
  | heap
  | registered
  | pinned
  | device
  | foreign
  deriving DecidableEq, Repr

/-- gpu/DeviceTensor.hpp 75–93: the memory that is allocated or registered now; `next` numbers the next allocation. -/
structure DevHeap where
  next : Nat
  live : List (MemKind × Nat)
  deriving DecidableEq, Repr

/-- gpu/DeviceTensor.hpp 77, 82, 87, 93: an allocation. -/
def DevHeap.alloc (h : DevHeap) (k : MemKind) : DevHeap := ⟨h.next + 1, (k, h.next) :: h.live⟩

/-- gpu/DeviceTensor.hpp 78 and DeviceTensor.hpp 1323: a registration. -/
def DevHeap.register (h : DevHeap) (k : MemKind) (n : Nat) : DevHeap := { h with live := (k, n) :: h.live }

/-- gpu/DeviceTensor.hpp 32–46: memory given back. -/
def DevHeap.release (h : DevHeap) (r : MemKind × Nat) : DevHeap := { h with live := h.live.erase r }

/-- DeviceTensor.hpp 333–376: the members of `DeviceTensor`; a pointer is null or leads to an allocation.  `gshape` are the numbers stored in
`_gpu_dims` for the kernels (`_gpu_strides` is part of that allocation and always its row-major strides). -/
structure DevObject where
  dims : List Nat
  mode : DeviceMode
  host : Option Nat
  data : Option Nat
  gdims : Option Nat
  gshape : List Nat
  deriving DecidableEq, Repr

/-- gpu/DeviceTensor.hpp 73, 129, 248, 457: the number of elements that the constructors allocate. -/
def countOf (dims : List Nat) : Nat := dims.foldl (· * ·) 1

/-- gpu/DeviceTensor.hpp 16–1232: how a member function ends: normally, with an exception (the object keeps what has been done to it), or with
undefined behaviour or the end of the program. -/
inductive Did (σ : Type) where
  | returns (s : σ)
  | throws (s : σ)
  | bad (why : String)
  deriving DecidableEq, Repr

/-- gpu/DeviceTensor.hpp 16–1232: one statement after another. -/
def Did.andThen {σ : Type} : Did σ → (σ → Did σ) → Did σ
  | .returns s, f => f s
  | .throws s, _ => .throws s
  | .bad m, _ => .bad m

/-- gpu/DeviceTensor.hpp 39, 46 and 36: `hipFree` or `hipHostFree` of a pointer. -/
def freePtr (k : MemKind) (p : Option Nat) (s : DevHeap × DevObject) : Did (DevHeap × DevObject) :=
  match p with
  | none => .returns s
  | some n => if (k, n) ∈ s.1.live then .returns (s.1.release (k, n), s.2) else .bad "frees memory that is not allocated"

/-- gpu/DeviceTensor.hpp 75–91 (also 129–145, 250–266, 459–461, 1186–1202, 1705–1721): memory for `size` elements in the mode of the tensor. -/
def takeData (size : Nat) (s : DevHeap × DevObject) : Did (DevHeap × DevObject) :=
  match s.2.mode with
  | .mapped =>
      if size = 0 then .throws (s.1.alloc .heap, { s.2 with host := some s.1.next })
      else .returns ((s.1.alloc .heap).register .registered s.1.next,
        { s.2 with host := some s.1.next, data := some s.1.next })
  | .pinned =>
      if size = 0 then .throws (s.1, { s.2 with host := none })
      else .returns (s.1.alloc .pinned, { s.2 with host := some s.1.next, data := some s.1.next })
  | .deviceOnly =>
      if size = 0 then .returns (s.1, { s.2 with host := none, data := none })
      else .returns (s.1.alloc .device, { s.2 with host := none, data := some s.1.next })
  | .notInitialized => .throws s

/-- gpu/DeviceTensor.hpp 944–964 (1025–1045, 1107–1127, 556–581): the memory of the tensor is given back before it gets new memory. -/
def dropData (s : DevHeap × DevObject) : Did (DevHeap × DevObject) :=
  match s.2.mode with
  | .mapped =>
      match s.2.host with
      | none => .throws s
      | some n =>
          if (.registered, n) ∈ s.1.live then
            freePtr .heap (some n) (s.1.release (.registered, n), s.2)
          else .throws s
  | .pinned => freePtr .pinned s.2.host s
  | .deviceOnly => freePtr .device s.2.data s
  | .notInitialized => .throws s

/-- gpu/DeviceTensor.hpp 93–99 (147–155, 268–273, 463–467, 1217–1222, 1723–1728): the constructors give the dimensions to the kernels. -/
def newShape (s : DevHeap × DevObject) : Did (DevHeap × DevObject) :=
  .returns (s.1.alloc .device, { s.2 with gdims := some s.1.next, gshape := s.2.dims })

/-- gpu/DeviceTensor.hpp 971–980 (1052–1061, 589–595): the dimensions are given to the kernels again.  (`_gpu_strides` is null when
`_gpu_dims` is: 173, 174.) -/
def renewShape (s : DevHeap × DevObject) : Did (DevHeap × DevObject) :=
  match s.2.gdims with
  | none => newShape s
  | some _ => .returns (s.1, { s.2 with gshape := s.2.dims })

/-- gpu/DeviceTensor.hpp 75–91: the memory the elements are in. -/
def DevObject.storage (t : DevObject) : Option (MemKind × Nat) :=
  match t.mode with
  | .mapped => t.data.map fun n => (.heap, n)
  | .pinned => t.data.map fun n => (.pinned, n)
  | .deviceOnly => t.data.map fun n => (.device, n)
  | .notInitialized => none

/-- gpu/DeviceTensor.hpp 984–988: may a kernel work on the tensor: the elements and the dimensions are there. -/
def DevObject.usable (h : DevHeap) (t : DevObject) : Bool :=
  (match t.storage with | some r => decide (r ∈ h.live) | none => false) &&
  (match t.gdims with | some n => decide ((.device, n) ∈ h.live) | none => false)

/-- gpu/DeviceTensor.hpp 984–992: the copying kernel. -/
def copyKernel (other : DevObject) (s : DevHeap × DevObject) : Did (DevHeap × DevObject) :=
  if countOf s.2.dims = 0 then .returns s
  else if s.2.usable s.1 && other.usable s.1 then .returns s
  else .bad "a kernel follows a pointer that leads nowhere"

/-- gpu/DeviceTensor.hpp 56–103 (105–157, 234–274; from a tensor in core 1697–1729; from a device view 442–475, always `deviceOnly`): the
constructors.  A constructor that throws leaves no object, and its destructor is not called. -/
def DevObject.create (mode : DeviceMode) (dims : List Nat) (h : DevHeap) : Did (DevHeap × DevObject) :=
  (takeData (countOf dims) (h, ⟨dims, mode, none, none, none, []⟩)).andThen newShape

/-- gpu/DeviceTensor.hpp 1204–1214: the elements of the copied tensor are copied from its memory; HIP refuses null. -/
def copyElements (other : DevObject) (s : DevHeap × DevObject) : Did (DevHeap × DevObject) :=
  if other.mode = .notInitialized then .throws s
  else if countOf other.dims = 0 then .returns s
  else match other.storage with
    | none => .throws s
    | some r => if r ∈ s.1.live then .returns s else .bad "copies from memory that is not allocated"

/-- gpu/DeviceTensor.hpp 1165–1225: `init`, for a tensor that is not initialised. -/
def initFrom (other : DevObject) (s : DevHeap × DevObject) : Did (DevHeap × DevObject) :=
  if s.2.mode ≠ .notInitialized then .throws s
  else
    ((takeData (countOf other.dims) (s.1, { s.2 with dims := other.dims, mode := other.mode })).andThen
      (copyElements other)).andThen newShape

/-- gpu/DeviceTensor.hpp 917–996: `assign` of a device tensor; `same`: a tensor is assigned to itself. -/
def assignFrom (same : Bool) (other : DevObject) (s : DevHeap × DevObject) : Did (DevHeap × DevObject) :=
  if s.2.data = none ∨ deviceRealloc s.2.dims other.dims then
    ((((dropData (s.1, { s.2 with dims := other.dims })).andThen (takeData (countOf other.dims))).andThen renewShape).andThen
      fun s => copyKernel (if same then s.2 else other) s)
  else copyKernel other s

/-- gpu/DeviceTensor.hpp 1227–1234: `operator=`. -/
def assignDevice (same : Bool) (other : DevObject) (s : DevHeap × DevObject) : Did (DevHeap × DevObject) :=
  if s.2.mode = .notInitialized then initFrom other s else assignFrom same other s

/-- gpu/DeviceTensor.hpp 1132–1134: the new dimensions are copied to `_gpu_dims`; HIP refuses null. -/
def storeShape (s : DevHeap × DevObject) : Did (DevHeap × DevObject) :=
  match s.2.gdims with
  | none => .throws s
  | some _ => .returns (s.1, { s.2 with gshape := s.2.dims })

/-- gpu/DeviceTensor.hpp 1139–1146: the elements are copied from the core; `hipMemcpy` refuses null, `std::memcpy` does not. -/
def storeElements (s : DevHeap × DevObject) : Did (DevHeap × DevObject) :=
  if s.2.mode = .notInitialized then .throws s
  else if countOf s.2.dims = 0 then .returns s
  else match s.2.storage with
    | none => if s.2.mode = .deviceOnly then .throws s else .bad "std::memcpy to a null pointer"
    | some r => if r ∈ s.1.live then .returns s else .bad "copies to memory that is not allocated"

/-- gpu/DeviceTensor.hpp 1080–1149: `assign` of a tensor in core with the dimensions `dims`. -/
def assignCore (dims : List Nat) (s : DevHeap × DevObject) : Did (DevHeap × DevObject) :=
  (if deviceRealloc s.2.dims dims then
    ((dropData (s.1, { s.2 with dims := dims })).andThen (takeData (countOf dims))).andThen storeShape
  else .returns s).andThen storeElements

/-- gpu/DeviceTensor.hpp 556–587: `resize` gives the memory back only if there is some (`hipHostUnregister` is called in any case). -/
def resizeData (size : Nat) (s : DevHeap × DevObject) : Did (DevHeap × DevObject) :=
  (dropData s).andThen (takeData size)

/-- gpu/DeviceTensor.hpp 530–599: `resize`. -/
def resizeTo (dims : List Nat) (s : DevHeap × DevObject) : Did (DevHeap × DevObject) :=
  if dims = s.2.dims then .returns s
  else if countOf dims = countOf s.2.dims then .returns (s.1, { s.2 with dims := dims })
  else (resizeData (countOf dims) (s.1, { s.2 with dims := dims })).andThen renewShape

/-- gpu/DeviceTensor.hpp 22–48: the destructor.  `hip_catch` throws out of it if the memory is not registered, which ends the program. -/
def destroyDevice (s : DevHeap × DevObject) : Did (DevHeap × DevObject) :=
  match s.2.mode with
  | .mapped =>
      match s.2.host with
      | none => .returns s
      | some n =>
          if (.registered, n) ∈ s.1.live then
            (freePtr .heap (some n) (s.1.release (.registered, n), s.2)).andThen fun s => freePtr .device s.2.gdims s
          else .bad "an exception leaves a destructor"
  | .pinned => (freePtr .pinned s.2.host s).andThen fun s => freePtr .device s.2.gdims s
  | .deviceOnly => (freePtr .device s.2.data s).andThen fun s => freePtr .device s.2.gdims s
  | .notInitialized => freePtr .device s.2.gdims s

/-- gpu/DeviceTensor.hpp 186–222 (the text of Tensor.hpp 252–287): the dimensions of the reshaped tensor. -/
def reshapeDims (dims : List Nat) (req : List ReqDim) : Outcome (List Nat) :=
  (reshape (Strided.mk' (fun _ => ()) dims) req).bind fun t => .ok t.dims

/-- gpu/DeviceTensor.hpp 157–232: the reshaping constructor: the memory is taken from `src` (166–175), then the dimensions are checked
(186–222).  The result is the heap, the source and the new tensor, if there is one. -/
def reshapeDevice (req : List ReqDim) (h : DevHeap) (src : DevObject) : Did (DevHeap × DevObject × Option DevObject) :=
  if src.mode = .notInitialized then .throws (h, src, none)
  else
    let src' := { src with host := none, data := none, gdims := none }
    match reshapeDims src.dims req with
    | .error _ => .throws (h, src', none)
    | .ub m => .bad m
    | .ok dims =>
        .returns (h.alloc .device, src', some ⟨dims, src.mode, src.host, src.data, some h.next, dims⟩)

/-- DeviceTensor.hpp 1183–1240: the members of `DeviceTensorView` that own memory: `_gpu_dims`, and the memory in core that the view has
registered (`_free_dev_data`). -/
structure DevViewObject where
  gdims : Nat
  mapped : Option Nat
  deriving DecidableEq, Repr

/-- gpu/DeviceTensorView.hpp 260–354 and 349 (`common_initialization`): a view of a tensor or a view; the arguments are accepted. -/
def viewOf (h : DevHeap) : DevHeap × DevViewObject := (h.alloc .device, ⟨h.next, none⟩)

/-- gpu/DeviceTensorView.hpp 12–28: the copy constructor of a view allocates memory for the elements; `size` is `_dims[0] * _strides[0]`. -/
def copyOfView (size : Nat) (h : DevHeap) : DevHeap × DevViewObject :=
  viewOf (if size = 0 then h else h.alloc .device)

/-- DeviceTensor.hpp 1304–1325: a view that maps the memory at `p` of a tensor in core, of `size` elements. -/
def mapCore (p size : Nat) (h : DevHeap) : Did (DevHeap × Option DevViewObject) :=
  if size = 0 ∨ (.foreign, p) ∈ h.live then .throws (h.alloc .device, none)
  else .returns ((h.alloc .device).register .foreign p, some ⟨h.next, some p⟩)

/-- gpu/DeviceTensorView.hpp 31–40: the destructor of a view. -/
def destroyView (v : DevViewObject) (h : DevHeap) : Did DevHeap :=
  if (.device, v.gdims) ∈ h.live then
    match v.mapped with
    | none => .returns (h.release (.device, v.gdims))
    | some p =>
        if (.foreign, p) ∈ (h.release (.device, v.gdims)).live then
          .returns ((h.release (.device, v.gdims)).release (.foreign, p))
        else .bad "an exception leaves a destructor"
  else .bad "frees memory that is not allocated"

/-- DeviceTensor.hpp 318, 1160: an object. -/
inductive DevObj where
  | tensor (t : DevObject)
  | view (v : DevViewObject)
  deriving DecidableEq, Repr

/-- DeviceTensor.hpp 384–490 and 1242–1325: the memory and the objects of a program in the order of their declaration; `none` are objects
that were destroyed or whose constructor threw. -/
structure DevProgram where
  heap : DevHeap
  objs : List (Option DevObj)
  deriving DecidableEq, Repr

/-- DeviceTensor.hpp 384–490, 530, 857 and 1242–1325: the statements.  `x`, `y` are positions of objects; a statement about an object that
is not there is no statement of a program and does nothing. -/
inductive DevStmt where
  /-- DeviceTensor.hpp 389: the default constructor; the dimensions have the values that happen to be there. -/
  | declare (junk : List Nat)
  /-- gpu/DeviceTensor.hpp 56–103. -/
  | create (mode : DeviceMode) (dims : List Nat)
  /-- gpu/DeviceTensor.hpp 16–19: the copy constructor (its mode is not used). -/
  | copy (y : Nat)
  /-- gpu/DeviceTensor.hpp 157–232. -/
  | reshape (y : Nat) (req : List ReqDim)
  /-- gpu/DeviceTensor.hpp 1227–1234. -/
  | assign (x y : Nat)
  /-- gpu/DeviceTensor.hpp 1080–1149. -/
  | assignCore (x : Nat) (dims : List Nat)
  /-- gpu/DeviceTensor.hpp 530–599. -/
  | resize (x : Nat) (dims : List Nat)
  /-- gpu/DeviceTensorView.hpp 260–354. -/
  | view (y : Nat)
  /-- gpu/DeviceTensorView.hpp 12–28. -/
  | copyView (y : Nat) (size : Nat)
  /-- DeviceTensor.hpp 1304–1325. -/
  | map (p size : Nat)
  /-- gpu/DeviceTensor.hpp 22–48 and gpu/DeviceTensorView.hpp 31–40. -/
  | destroy (x : Nat)
  deriving DecidableEq, Repr

/-- DeviceTensor.hpp 389: the object at a position. -/
def DevProgram.at (P : DevProgram) (x : Nat) : Option DevObj := (P.objs[x]?).join

/-- gpu/DeviceTensor.hpp 16–1234: the end of a constructor; the object exists if it returned. -/
def DevProgram.construct (P : DevProgram) : Did (DevHeap × DevObject) → Did DevProgram
  | .returns s => .returns ⟨s.1, P.objs ++ [some (.tensor s.2)]⟩
  | .throws s => .throws ⟨s.1, P.objs ++ [none]⟩
  | .bad m => .bad m

/-- gpu/DeviceTensor.hpp 530–1234: the end of a member function of the object at `x`. -/
def DevProgram.update (P : DevProgram) (x : Nat) : Did (DevHeap × DevObject) → Did DevProgram
  | .returns s => .returns ⟨s.1, P.objs.set x (some (.tensor s.2))⟩
  | .throws s => .throws ⟨s.1, P.objs.set x (some (.tensor s.2))⟩
  | .bad m => .bad m

/-- gpu/DeviceTensor.hpp 16–1234, gpu/DeviceTensorView.hpp 12–354: one statement. -/
def DevProgram.step (P : DevProgram) : DevStmt → Did DevProgram
  | .declare junk => .returns ⟨P.heap, P.objs ++ [some (.tensor ⟨junk, .notInitialized, none, none, none, []⟩)]⟩
  | .create mode dims => P.construct (DevObject.create mode dims P.heap)
  | .copy y =>
      match P.at y with
      | some (.tensor t) => P.construct (initFrom t (P.heap, ⟨[], .notInitialized, none, none, none, []⟩))
      | _ => .returns P
  | .reshape y req =>
      match P.at y with
      | some (.tensor t) =>
          match reshapeDevice req P.heap t with
          | .returns s => .returns ⟨s.1, P.objs.set y (some (.tensor s.2.1)) ++ [s.2.2.map .tensor]⟩
          | .throws s => .throws ⟨s.1, P.objs.set y (some (.tensor s.2.1)) ++ [none]⟩
          | .bad m => .bad m
      | _ => .returns P
  | .assign x y =>
      match P.at x, P.at y with
      | some (.tensor t), some (.tensor u) => P.update x (assignDevice (decide (x = y)) u (P.heap, t))
      | _, _ => .returns P
  | .assignCore x dims =>
      match P.at x with
      | some (.tensor t) => P.update x (Model.assignCore dims (P.heap, t))
      | _ => .returns P
  | .resize x dims =>
      match P.at x with
      | some (.tensor t) => P.update x (resizeTo dims (P.heap, t))
      | _ => .returns P
  | .view y =>
      match P.at y with
      | some _ => .returns ⟨(viewOf P.heap).1, P.objs ++ [some (.view (viewOf P.heap).2)]⟩
      | _ => .returns P
  | .copyView y size =>
      match P.at y with
      | some (.view _) => .returns ⟨(copyOfView size P.heap).1, P.objs ++ [some (.view (copyOfView size P.heap).2)]⟩
      | _ => .returns P
  | .map p size =>
      match mapCore p size P.heap with
      | .returns s => .returns ⟨s.1, P.objs ++ [s.2.map .view]⟩
      | .throws s => .throws ⟨s.1, P.objs ++ [none]⟩
      | .bad m => .bad m
  | .destroy x =>
      match P.at x with
      | some (.tensor t) =>
          match destroyDevice (P.heap, t) with
          | .returns s => .returns ⟨s.1, P.objs.set x none⟩
          | .throws s => .throws ⟨s.1, P.objs.set x none⟩
          | .bad m => .bad m
      | some (.view v) =>
          match destroyView v P.heap with
          | .returns h => .returns ⟨h, P.objs.set x none⟩
          | .throws h => .throws ⟨h, P.objs.set x none⟩
          | .bad m => .bad m
      | none => .returns P

/-- gpu/DeviceTensor.hpp 16–1234: a program without objects or device memory. -/
def DevProgram.init : DevProgram := ⟨⟨0, []⟩, []⟩

/-- gpu/DeviceTensor.hpp 16–1234: the statements in sequence; exceptions are caught and the program goes on.  `none`: the program has undefined
behaviour or was ended. -/
def DevProgram.run : List DevStmt → DevProgram → Option DevProgram
  | [], P => some P
  | s :: ss, P =>
      match P.step s with
      | .returns P => run ss P
      | .throws P => run ss P
      | .bad _ => none

end Einsums.Model
