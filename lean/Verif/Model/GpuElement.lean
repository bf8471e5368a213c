import Verif.Model.Gpu
/-
Model of the device overloads of src/include/einsums/ElementOperations.hpp (kernels in gpu/ElementKernels.hpp): `sum`, `max`,
`min` of device tensors and the functions of namespace `new_tensor` (abs, invert, exp, scale).

Shared memory belongs to a block, and only worker 0, a thread of the first block, stores the result; the other blocks work on
shared memory of their own that nobody reads, and are left out.  Simplification: `if (x > work[w]) work[w] = x;` always stores.
-/
namespace Einsums.Model

variable {K : Type}

/-! ### Functions that return a new tensor -/

/-- ElementKernels.hpp 150–157 (and 181, 206, 240): the position of element number `sentinel`. -/
def counterAddr (off : Nat) (dims strides : List Nat) (sentinel : Nat) : Outcome Nat := do
  let i ← counterOffset dims strides sentinel
  return off + i

/-- ElementOperations.hpp 318, 331–332 (397–398, 463–464, 529–530): the workers of the kernel on the new tensor, launched for
`tensor.size()` elements. -/
def mapThreads (t : Strided K) : List (List (Nat × RmwOp)) :=
  updateThreads (launchStraight (sizeMethod t.dims)) (sizeMethod t.dims)

/-- ElementOperations.hpp 314–340 (380–406, 446–472, 512–538): `result = tensor` (interleaving `s1`), then the kernel on the data of
`result`, with the dimensions and strides of the argument (interleaving `s2`).  `z` is the content of fresh memory. -/
def deviceMap (op : K → K) (z : Nat → K) (t : Strided K) (r : Nat → K) (s1 s2 : List (Nat × RmwOp)) : Outcome (Strided K) := do
  let result ← deviceCopy (Strided.mk' z t.dims) t r s1
  runKernel result (counterAddr result.off t.dims t.strides) (fun _ v => .ok (op v)) r s2

/-! ### Reductions -/

/-- Memory operations of the reduction kernels (ElementKernels.hpp 20–55). -/
inductive RedOp
  /-- `work_array[p] = init` -/
  | put (p : Nat)
  /-- load `work_array[p]` into the first register -/
  | ld (p : Nat)
  /-- load `work_array[p]` into the second register -/
  | ldNext (p : Nat)
  /-- load element number `i` of the tensor into the second register -/
  | ldData (i : Nat)
  /-- `work_array[p] = first op second`, while accumulating -/
  | stAcc (p : Nat)
  /-- `work_array[p] = first op second`, while combining the workers -/
  | stComb (p : Nat)
  deriving Repr, DecidableEq

/-- Shared memory of a block and the two registers of each of its threads (ElementKernels.hpp 14–55). -/
structure RedState (K : Type) where
  work : List K
  fst : Nat → K
  snd : Nat → K

/-- The parameters of a reduction: initial value, accumulation, combination (ElementKernels.hpp 20, 37, 47 for `sum`; 67, 82–84, 93
for `max`; 112, 127–129, 138 for `min`). -/
structure Reduction (K : Type) where
  init : K
  acc : K → K → K
  comb : K → K → K

/-- ElementKernels.hpp 14–56: `sum`. -/
def sumReduction [Zero K] [Add K] : Reduction K := ⟨0, (· + ·), (· + ·)⟩

/-- ElementKernels.hpp 58–102: `max`; `lt a b` is `a < b`, `ninf` is `T{-INFINITY}`. -/
def maxReduction (lt : K → K → Bool) (ninf : K) : Reduction K :=
  ⟨ninf, fun w x => if lt w x then x else w, fun a b => if lt b a then a else b⟩

/-- ElementKernels.hpp 104–147: `min`; `inf` is `T{INFINITY}`. -/
def minReduction (lt : K → K → Bool) (inf : K) : Reduction K :=
  ⟨inf, fun w x => if lt x w then x else w, fun a b => if lt a b then a else b⟩

/-- ElementKernels.hpp 20–55: one memory operation of thread `a.1`. -/
def redStep (R : Reduction K) (t : Strided K) (s : RedState K) (a : Nat × RedOp) : Outcome (RedState K) :=
  match a.2 with
  | .put p => do
      let m ← memUpd s.work p fun _ => .ok R.init
      return { s with work := m }
  | .ld p => do
      let v ← memGet s.work p
      return { s with fst := fun w => if w = a.1 then v else s.fst w }
  | .ldNext p => do
      let v ← memGet s.work p
      return { s with snd := fun w => if w = a.1 then v else s.snd w }
  | .ldData i => do
      let p ← counterAddr t.off t.dims t.strides i
      let v ← memGet t.data p
      return { s with snd := fun w => if w = a.1 then v else s.snd w }
  | .stAcc p => do
      let m ← memUpd s.work p fun _ => .ok (R.acc (s.fst a.1) (s.snd a.1))
      return { s with work := m }
  | .stComb p => do
      let m ← memUpd s.work p fun _ => .ok (R.comb (s.fst a.1) (s.snd a.1))
      return { s with work := m }

/-- ElementKernels.hpp 20–38: what worker `w` of `size` does before the first barrier. -/
def accumulate (n size w : Nat) : List RedOp :=
  .put w :: (countersOf n size w).flatMap fun i => [.ld w, .ldData i, .stAcc w]

/-- ElementKernels.hpp 43–50: what worker `w` does in step `s` of the combination. -/
def combine (size s w : Nat) : List RedOp :=
  let index := w <<< (s + 1)
  let next := index + (1 <<< s)
  if index < size ∧ next < size then [.ld index, .ldNext next, .stComb index] else []

/-- ElementKernels.hpp 41 (87, 132): `__clz` of a 32-bit number. -/
def clz32 (k : Nat) : Nat := if k = 0 then 32 else 31 - Nat.log2 k

/-- ElementKernels.hpp 41 (87, 132): `int log = 30 - __clz(kernel_size)`, the number of steps. -/
def redSteps (size : Nat) : Nat := ((30 : Int) - clz32 size).toNat

/-- ElementKernels.hpp 14–56: the phases of the first block of a launch.  Its threads are the workers 0, 1, … -/
def redPhases (l : Launch) (n : Nat) : List (List (List (Nat × RedOp))) :=
  let block := l.block.x * l.block.y * l.block.z
  ((List.range block).map fun w => (accumulate n l.size w).map (w, ·)) ::
    (List.range (redSteps l.size)).map fun s => (List.range block).map fun w => (combine l.size s w).map (w, ·)

/-- ElementOperations.hpp 88–118 (158–185, 236–260): the result of an execution of the kernel.  `z` is the content of the shared
memory (room for all workers is allocated, line 92) and `r`, `r'` that of the registers before the kernel. -/
def deviceReduce (R : Reduction K) (t : Strided K) (z r r' : Nat → K) (sched : List (Nat × RedOp)) : Outcome K := do
  let size := (launchStraight (sizeMethod t.dims)).size
  let s ← sched.foldlM (redStep R t) ⟨(List.range size).map z, r, r'⟩
  memGet s.work 0

/-- ElementOperations.hpp 88–118: the phases of the kernel for the tensor `t`. -/
def reducePhases (t : Strided K) : List (List (List (Nat × RedOp))) :=
  redPhases (launchStraight (sizeMethod t.dims)) (sizeMethod t.dims)

end Einsums.Model
