import Verif.Model.Gpu
/-
Model of the transfer of whole tensors and arrays between host and device (src/include/einsums/gpu/DeviceTensor.hpp and
src/include/einsums/Tensor.hpp).

`hipMemcpy` and `memcpy` copy the given number of elements; a copy that leaves an allocation is undefined behaviour.  The allocations
themselves and their release are those of Model/DeviceMemory.lean; here they succeed.  In the modes MAPPED and PINNED `_data` and
`_host_data` are two addresses of the same memory (HIP's contract), so one list of elements stands for both.
-/
namespace Einsums.Model

/-- `hipMemcpy(dst, src, n * sizeof(T), ...)` and `std::memcpy` (DeviceTensor.hpp 711–774, 1708–1717, 1738; Tensor.hpp 841). -/
def copyRun (n : Nat) (dst src : List K) : Outcome (List K) :=
  if n ≤ dst.length ∧ n ≤ src.length then .ok (src.take n ++ dst.drop n) else .ub "copy outside an allocation"

/-- gpu/DeviceTensor.hpp 1697–1729: construction of a device tensor from a host tensor: memory for `size()` elements, with the
strides of the host tensor. -/
def deviceFromHost (mode : DeviceMode) (z : Nat → K) (u : Strided K) : Outcome (Strided K) :=
  match mode with
  | .notInitialized => .error "Unknown occupancy mode!"
  | _ => do
      let n := sizeMethod u.dims
      let data ← copyRun n ((List.range n).map z) u.data
      return { data, off := 0, dims := u.dims, strides := u.strides }

/-- gpu/DeviceTensor.hpp 1731–1742: conversion of a device tensor to a host tensor. -/
def deviceToHost (z : Nat → K) (d : Strided K) : Outcome (Strided K) := do
  let out := Strided.mk' z d.dims
  let data ← copyRun (sizeMethod d.dims) out.data d.data
  return { out with data }

/-- Tensor.hpp 812–844: assignment of a device tensor to a host tensor; the number of elements is `_strides[0] * _dims[0]`. -/
def hostAssignDevice (z : Nat → K) (t d : Strided K) : Outcome (Strided K) := do
  let t' : Strided K :=
    if deviceRealloc t.dims d.dims then
      let strides := transformStrides d.dims
      { data := vecResize z (linearSize strides d.dims) t.data, off := 0, dims := d.dims, strides := strides }
    else t
  let data ← copyRun (linearSize t'.strides t'.dims) t'.data d.data
  return { t' with data }

/-- gpu/DeviceTensor.hpp 703–720: `read(vector)`. -/
def deviceRead (mode : DeviceMode) (d : Strided K) (xs : List K) : Outcome (Strided K) :=
  if xs.length ≤ sizeMethod d.dims then
    match mode with
    | .notInitialized => .error "Tensor was not initialized!"
    | _ => do
        let data ← copyRun xs.length d.data xs
        return { d with data }
  else .ub "assert"

/-- gpu/DeviceTensor.hpp 722–741: `write(vector)`: the new contents of the vector; `std::vector<T>::resize` appends zeros. -/
def deviceWrite [Zero K] (mode : DeviceMode) (d : Strided K) (xs : List K) : Outcome (List K) :=
  let n := sizeMethod d.dims
  let xs := if xs.length ≠ n then vecResize (fun _ => 0) n xs else xs
  match mode with
  | .notInitialized => .error "Tensor was not initialized!"
  | _ => copyRun n xs d.data

/-- gpu/DeviceTensor.hpp 743–759: `read(pointer)`; `mem` is the array behind the pointer. -/
def deviceReadFrom (mode : DeviceMode) (d : Strided K) (mem : List K) : Outcome (Strided K) :=
  match mode with
  | .notInitialized => .error "Tensor was not initialized!"
  | _ => do
      let data ← copyRun (sizeMethod d.dims) d.data mem
      return { d with data }

/-- gpu/DeviceTensor.hpp 761–777: `write(pointer)`: the new contents of the array. -/
def deviceWriteTo (mode : DeviceMode) (d : Strided K) (mem : List K) : Outcome (List K) :=
  match mode with
  | .notInitialized => .error "Tensor was not initialized!"
  | _ => copyRun (sizeMethod d.dims) mem d.data

end Einsums.Model
