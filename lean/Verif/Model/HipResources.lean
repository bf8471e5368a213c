/-
Model of the resources that the functions of the GPU backend hold: device memory, registered host memory and the heap.

Each function is the sequence of its HIP calls (`hip_catch`, `hipblas_catch`, `hipsolver_catch` throw if a call fails).  Any call may
fail; which ones do is an arbitrary function of their position.  Simplifications: device blocks are counted, not named (each function
frees only pointers it has allocated, each once); a call that copies or computes is `work`; the handles exist.
-/
namespace Einsums.Model

/-- _GPUUtils.hpp, hipblas.hip, hipsolver.hip: what the calls do to the resources. -/
inductive HipOp
  /-- hipblas.hip 56 (external HIP): `hipMalloc`. -/
  | malloc
  /-- hipblas.hip 81 (external HIP): `hipFree`. -/
  | free
  /-- hipsolver.hip 96 (external HIP): `hipHostRegister` of the memory at an address: fails if it is registered. -/
  | register (p : Nat)
  /-- hipsolver.hip 116 (external HIP): `hipHostUnregister`: fails if the address is not that of a registration. -/
  | unregister (p : Nat)
  /-- hipsolver.hip 67: `new int`. -/
  | newInt
  /-- hipsolver.hip 117: `delete`. -/
  | deleteInt
  /-- hipblas.hip 62, 71, 75: a copy, a routine, a synchronisation. -/
  | work
  deriving DecidableEq, Repr

/-- hipsolver.hip 96 (external HIP): device blocks in use, addresses of registered host memory, integers on the heap. -/
structure HipState where
  device : Nat
  registered : List Nat
  heap : Nat
  deriving DecidableEq, Repr

/-- hipsolver.hip 96, 116 (external HIP): one call; `none` is a failure. -/
def HipOp.step (s : HipState) : HipOp → Option HipState
  | .malloc => some { s with device := s.device + 1 }
  | .free => some { s with device := s.device - 1 }
  | .register p => if p ∈ s.registered then none else some { s with registered := p :: s.registered }
  | .unregister p => if p ∈ s.registered then some { s with registered := s.registered.erase p } else none
  | .newInt => some { s with heap := s.heap + 1 }
  | .deleteInt => some { s with heap := s.heap - 1 }
  | .work => some s

/-- _GPUUtils.hpp (`hip_catch`): the calls in sequence; the first one that fails ends the function with an exception.  `fails i`: call
number i fails.  The result is whether the function returns normally, and the resources afterwards: nothing is released during
the unwinding, all of them being plain pointers. -/
def runHip (fails : Nat → Bool) : Nat → List HipOp → HipState → Bool × HipState
  | _, [], s => (true, s)
  | i, o :: os, s =>
      match (if fails i then none else o.step s) with
      | some s => runHip fails (i + 1) os s
      | none => (false, s)

/-- hipblas.hip 37–84, 86–233: `gemm`; `c`: C is copied to the device. -/
def gemmCalls (c : Bool) : List HipOp :=
  [.malloc, .malloc, .malloc, .malloc, .work, .work, .work] ++ (if c then [.work] else []) ++
    [.work, .work, .work, .free, .free, .free, .free]

/-- hipblas.hip 237–270, 272–376: `gemv`; `c`: y is copied to the device. -/
def gemvCalls (c : Bool) : List HipOp :=
  [.malloc, .malloc, .malloc, .malloc, .work, .work, .work] ++ (if c then [.work] else []) ++
    [.work, .work, .free, .free, .free, .free]

/-- hipblas.hip 378–399, 401–468: `scal`. -/
def scalCalls : List HipOp := [.malloc, .malloc, .work, .work, .work, .work, .work, .free, .free]

/-- hipblas.hip 470–490, 492–556: `dot`. -/
def dotCalls : List HipOp := [.malloc, .malloc, .work, .work, .work, .free, .free]

/-- hipblas.hip 558–587, 589–680: `axpy` with alpha ≠ 0. -/
def axpyCalls : List HipOp :=
  [.malloc, .malloc, .malloc, .work, .work, .work, .work, .work, .work, .free, .free, .free]

/-- hipblas.hip 693–724, 726–825: `ger` with alpha ≠ 0. -/
def gerCalls : List HipOp :=
  [.malloc, .malloc, .malloc, .malloc, .work, .work, .work, .work, .work, .work, .work, .free, .free, .free, .free]

/-- hipsolver.hip 63–117, 119–292: `syev`, `heev`; `info` is the address of the integer, `reg` the address of a work array that is not
registered yet. -/
def syevCalls (info : Nat) (reg : Option Nat) : List HipOp :=
  [.newInt] ++ (match reg with | some p => [.register p] | none => []) ++
    [.malloc, .malloc, .work, .register info, .work, .work, .work, .work] ++
    (match reg with | some p => [.unregister p] | none => []) ++ [.unregister info, .deleteInt]

/-- hipsolver.hip 295–353, 355–533: `gesv`; NVIDIA hardware needs a second copy of b. -/
def gesvCalls (nvidia : Bool) (info : Nat) : List HipOp :=
  [.newInt, .malloc, .malloc, .malloc, .register info, .work, .work] ++
    (if nvidia then [.malloc, .work, .work, .work, .work, .free] else [.work, .work, .work]) ++
    [.work, .work, .free, .free, .free, .unregister info, .deleteInt]

/-- hipsolver.hip 535–593 (`sgetrf`), 595–777 (the other types): `getrf`.  `slot` is the address of the local variable `info`, which is
registered (555); `info` is the address in it, which is unregistered (586).  `ipiv`: the pivots are wanted; `nvidia`: no work array. -/
def getrfCalls (nvidia ipiv : Bool) (slot info : Nat) : List HipOp :=
  [.newInt, .malloc] ++ (if ipiv then [.malloc] else []) ++ [.register slot, .work] ++
    (if nvidia then [.work, .work] else [.work, .malloc, .work, .work, .free]) ++ [.work, .free] ++
    (if ipiv then [.work, .free] else []) ++ [.unregister info, .deleteInt]

end Einsums.Model
