import Verif.Model.DeviceRef

/-
Model of `DeviceTensor<T, 0>`, device tensors of no dimensions (src/include/einsums/DeviceTensor.hpp 870–1168).

The memory is a list of allocations of one element each; an allocation that has been released is `none`.  The tensors of a program are
numbered in the order in which they are made.  Calls of HIP with valid pointers succeed and are complete when the statement ends; a copy
from or to the null pointer is refused by HIP (`hipErrorInvalidValue`), which `hip_catch` turns into an exception.
-/
namespace Einsums.Model

/-- DeviceTensor.hpp 886–907: a tensor: `_name`, `_mode` and the allocation that `_data` points to; in the modes MAPPED and PINNED
`_host_data` is the same memory, in the mode DEV_ONLY it is null and not used. -/
structure Dev0 where
  name : String
  mode : DevMode
  ptr : Option Nat
  deriving DecidableEq

/-- DeviceTensor.hpp 919–1000: the allocations, with the call that made each (the mode) and the value in it, and the tensors. -/
structure Dev0State (R : Type) where
  mem : List (Option (DevMode × R))
  objs : List (Option Dev0)
  deriving DecidableEq

/-- DeviceTensor.hpp 919–1167: what a program does with the tensors. -/
inductive Dev0Op (R : Type) where
  /-- `DeviceTensor<T, 0> x;` -/
  | declare
  /-- `DeviceTensor<T, 0> x(Dim<0>{}, mode);` -/
  | ofDims (mode : DevMode)
  /-- `DeviceTensor<T, 0> x("name", mode);` -/
  | named (name : String) (mode : DevMode)
  /-- `DeviceTensor<T, 0> x(y, mode);`; with `unknown`, also `DeviceTensor<T, 0> x(y)`. -/
  | copy (src : Nat) (mode : DevMode)
  /-- `DeviceTensor<T, 0> x(h, mode);` for a host tensor `h` with the value `v`. -/
  | ofHost (v : R) (mode : DevMode)
  /-- `x = y` -/
  | assign (dst src : Nat)
  /-- `x = v` -/
  | set (k : Nat) (v : R)
  /-- `x OP= v` -/
  | compound (k : Nat) (op : RefOp) (v : R)
  /-- `(T) x` -/
  | get (k : Nat)
  /-- `(Tensor<T, 0>) x` -/
  | toHost (k : Nat)
  /-- the end of the life of `x` -/
  | destroy (k : Nat)

section
variable {R : Type}

/-- DeviceTensor.hpp 919, 924–939, 969–977, 987–1000, 1137–1149: `new`, `hipHostMalloc` or `hipMalloc` of one element, and the tensor that
gets it. -/
def Dev0State.alloc (s : Dev0State R) (name : String) (mode : DevMode) (v : R) : Dev0State R :=
  ⟨s.mem ++ [some (mode, v)], s.objs ++ [some ⟨name, mode, some s.mem.length⟩]⟩

/-- DeviceTensor.hpp 1012: the tensor with this number. -/
def Dev0State.obj (s : Dev0State R) (k : Nat) : Outcome Dev0 :=
  match s.objs[k]? with
  | some (some o) => .ok o
  | _ => .ub "no such object"

/-- DeviceTensor.hpp 1036, 1014, 1100: the value in device memory, by `hipMemcpy`. -/
def Dev0State.loadDev (s : Dev0State R) (o : Dev0) : Outcome R :=
  match o.ptr with
  | none => .error "hipErrorInvalidValue"
  | some a =>
      match s.mem[a]? with
      | some (some c) => .ok c.2
      | _ => .ub "released memory"

/-- DeviceTensor.hpp 1033, 1098: the value behind `_host_data`. -/
def Dev0State.loadHost (s : Dev0State R) (o : Dev0) : Outcome R :=
  match o.ptr with
  | none => .ub "null pointer"
  | some a =>
      match s.mem[a]? with
      | some (some c) => if c.1 = .devOnly then .ub "device memory on the host" else .ok c.2
      | _ => .ub "released memory"

/-- DeviceTensor.hpp 1095–1107: `operator T`. -/
def Dev0State.value (s : Dev0State R) (o : Dev0) : Outcome R :=
  if o.mode = .mapped ∨ o.mode = .pinned then s.loadHost o
  else if o.mode = .devOnly then s.loadDev o
  else .error "Tensor was not initialized!"

/-- DeviceTensor.hpp 1012–1017, 1023, 1039: a copy of one element to `_data`. -/
def Dev0State.storeDev (s : Dev0State R) (o : Dev0) (v : R) : Outcome (Dev0State R) :=
  match o.ptr with
  | none => .error "hipErrorInvalidValue"
  | some a =>
      match s.mem[a]? with
      | some (some c) => .ok { s with mem := s.mem.set a (some (c.1, v)) }
      | _ => .ub "released memory"

/-- DeviceTensor.hpp 1021, 1033: `*_host_data = v`. -/
def Dev0State.storeHost (s : Dev0State R) (o : Dev0) (v : R) : Outcome (Dev0State R) :=
  match o.ptr with
  | none => .ub "null pointer"
  | some a =>
      match s.mem[a]? with
      | some (some c) =>
          if c.1 = .devOnly then .ub "device memory on the host" else .ok { s with mem := s.mem.set a (some (c.1, v)) }
      | _ => .ub "released memory"

/-- DeviceTensor.hpp 1019–1029: `x = v`. -/
def Dev0State.put (s : Dev0State R) (o : Dev0) (v : R) : Outcome (Dev0State R) :=
  if o.mode = .mapped ∨ o.mode = .pinned then s.storeHost o v
  else if o.mode = .devOnly then s.storeDev o v
  else .error "Tensor was not initialized!"

/-- DeviceTensor.hpp 957, 959, 961: `delete`, `hipHostFree` or `hipFree`; releasing the null pointer does nothing. -/
def Dev0State.release (s : Dev0State R) (o : Dev0) : Outcome (Dev0State R) :=
  match o.ptr with
  | none => .ok s
  | some a =>
      match s.mem[a]? with
      | some (some c) => if c.1 = o.mode then .ok { s with mem := s.mem.set a none } else .ub "released by the wrong call"
      | _ => .ub "released twice"

/-- DeviceTensor.hpp 919–1167: one statement; the result is the state and the value read, if any.  `z a` is what the fresh memory of
allocation `a` holds when the call does not initialise it, and `moved` what a `std::string` holds after it has been moved from. -/
def Dev0Op.step [Zero R] [Add R] [Sub R] [Mul R] [Div R] (z : Nat → R) (moved : String → String) (s : Dev0State R) :
    Dev0Op R → Outcome (Dev0State R × Option R)
  -- 919
  | .declare => .ok (s.alloc "(Unnamed)" .devOnly (z s.mem.length), none)
  -- 968–981
  | .ofDims mode =>
      match mode with
      | .devOnly => .ok (s.alloc "(Unnamed)" .devOnly (z s.mem.length), none)
      | .mapped => .ok (s.alloc "(Unnamed)" .mapped 0, none)
      | .pinned => .ok (s.alloc "(Unnamed)" .pinned (z s.mem.length), none)
      | .unknown => .error "Unknown occupancy mode!"
  -- 986–1004
  | .named name mode =>
      match mode with
      | .mapped => .ok (s.alloc name .mapped 0, none)
      | .pinned => .ok (s.alloc name .pinned (z s.mem.length), none)
      | .devOnly => .ok (s.alloc name .devOnly (z s.mem.length), none)
      | .unknown => .error "Unknown occupancy mode!"
  -- 924–946
  | .copy src mode => do
      let y ← s.obj src
      match mode with
      | .devOnly =>
          let v ← s.loadDev y
          .ok (s.alloc "(Unnamed)" .devOnly v, none)
      | .mapped =>
          let v ← s.value y
          .ok (s.alloc "(Unnamed)" .mapped v, none)
      | .pinned =>
          let v ← s.value y
          .ok (s.alloc "(Unnamed)" .pinned v, none)
      | .unknown =>
          if y.mode = .unknown then .error "Trying to copy uninitialized tensor!"
          else .ok ({ s with objs := s.objs ++ [some ⟨"(Unnamed)", y.mode, none⟩] }, none)
  -- 1134–1157
  | .ofHost v mode =>
      match mode with
      | .mapped => .ok (s.alloc "(Unnamed)" .mapped v, none)
      | .pinned => .ok (s.alloc "(Unnamed)" .pinned v, none)
      | .devOnly => .ok (s.alloc "(Unnamed)" .devOnly v, none)
      | .unknown => .error "Could not understand occupancy mode!"
  -- 1012–1017
  | .assign dst src => do
      let x ← s.obj dst
      let y ← s.obj src
      let v ← s.loadDev y
      let s' ← s.storeDev x v
      .ok (s', none)
  -- 1019–1029
  | .set k v => do
      let x ← s.obj k
      let s' ← s.put x v
      .ok (s', none)
  -- 1031–1093
  | .compound k op v => do
      let x ← s.obj k
      let a ← s.value x
      let s' ← s.put x (op.host a v)
      .ok (s', none)
  -- 1095–1107
  | .get k => do
      let x ← s.obj k
      let v ← s.value x
      .ok (s, some v)
  -- 1162–1167
  | .toHost k => do
      let x ← s.obj k
      let v ← s.value x
      .ok ({ s with objs := s.objs.set k (some { x with name := moved x.name }) }, some v)
  -- 951–963
  | .destroy k => do
      let x ← s.obj k
      let s' ← s.release x
      .ok ({ s' with objs := s'.objs.set k none }, none)

/-- DeviceTensor.hpp 919–1167: a program; the result is the state and the values read, in order. -/
def runDev0 [Zero R] [Add R] [Sub R] [Mul R] [Div R] (z : Nat → R) (moved : String → String) :
    List (Dev0Op R) → Dev0State R → Outcome (Dev0State R × List R)
  | [], s => .ok (s, [])
  | c :: p, s => do
      let (s', o) ← c.step z moved s
      let (s'', os) ← runDev0 z moved p s'
      .ok (s'', o.toList ++ os)

end

end Einsums.Model
