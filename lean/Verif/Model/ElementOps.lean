import Verif.Model.Block
/-
Model of src/include/einsums/ElementOperations.hpp: sum, max and min of tensors, views and block tensors, and the
functions of namespace `new_tensor` (abs, invert, exp, scale) that return a new tensor.

The number of threads and the distribution of the iterations over them are parameters.  The device overloads
(`__HIP__`) are in GpuElement.lean.  The comparison `<` of the element type is a parameter `lt`, so that the model covers
orders in which not everything is comparable (NaN).
-/
namespace Einsums.Model

/-- ElementOperations.hpp 190–290: Run a computation for every thread (or block) and collect the results. -/
def collect (f : Nat → Outcome β) : List Nat → Outcome (List β)
  | [] => .ok []
  | i :: is => do
      let x ← f i
      let xs ← collect f is
      return x :: xs

/-- ElementOperations.hpp 126–132 (the same loop in 201–207, 277–283, and for `from_index` and `to_index` in 347–354,
413–420, 479–486, 545–552): the counter is taken apart by the dimensions, first dimension fastest.  Division by a zero
dimension is undefined. -/
def counterOffset : List Nat → List Nat → Nat → Outcome Nat
  | d :: ds, s :: ss, quotient =>
      if d = 0 then .ub "division by zero"
      else do
        let rest ← counterOffset ds ss (quotient / d)
        return s * (quotient % d) + rest
  | _, _, _ => .ok 0

/-- ElementOperations.hpp 126–134: `tensor.data()[index]` for the counter `i`. -/
def Strided.counterRead (t : Strided R) (i : Nat) : Outcome R := do
  let index ← counterOffset t.dims t.strides i
  memGet t.data (t.off + index)

/-- ElementOperations.hpp 125–135: the iterations `is` of one thread, accumulated in its private copy of `result`. -/
def sumThread [Add R] (t : Strided R) (is : List Nat) (result : R) : Outcome R :=
  is.foldlM (fun r i => do
    let x ← t.counterRead i
    return r + x) result

/-- ElementOperations.hpp 121–138: `sum` of a tensor or view.  `parts` are the iterations of each thread, in the order
in which OpenMP adds the private copies (each initialised to zero) to `result`. -/
def sumTensor [Add R] [Zero R] (t : Strided R) (parts : List (List Nat)) : Outcome R :=
  parts.foldlM (fun result is => do
    let p ← sumThread t is 0
    return result + p) 0

/-- ElementOperations.hpp 77–86: the iterations of one thread of `sum` of a block tensor.  `inner b` is the distribution
of the iterations of the sum of block `b`. -/
def sumBlockThread [Add R] [Zero R] (T : Block R) (inner : Nat → List (List Nat)) (bs : List Nat) (result : R) :
    Outcome R :=
  bs.foldlM (fun r b => do
    let t ← T.at b
    if t.dim 0 = 0 then return r
    else do
      let x ← sumTensor t (inner b)
      return r + x) result

/-- ElementOperations.hpp 77–86: `sum` of a block tensor, the blocks distributed over threads as in `parts`. -/
def sumBlock [Add R] [Zero R] (T : Block R) (inner : Nat → List (List Nat)) (parts : List (List Nat)) : Outcome R :=
  parts.foldlM (fun result bs => do
    let p ← sumBlockThread T inner bs 0
    return result + p) 0

/-- ElementOperations.hpp 200 (and 276, 346, 412, 478, 544): the counters of thread `tid` of `n`:
`for (int i = tid; i < tensor.size(); i += n)`. -/
def countersOf (size n tid : Nat) : List Nat :=
  (List.range ((size - tid + n - 1) / n)).map fun k => tid + n * k

/-- ElementOperations.hpp 200, 276: The same; `i += n` may exceed the range of `int`, which is undefined. -/
def threadCounters (size n tid : Nat) : Outcome (List Nat) :=
  if (countersOf size n tid).any fun i => decide (2 ^ 31 ≤ i + n) then .ub "int overflow"
  else .ok (countersOf size n tid)

/-- ElementOperations.hpp 200–210 and 276–286: the loop of one thread;
`arr[tid] = better(arr[tid], x) ? arr[tid] : x`. -/
def extremeThread (better : R → R → Bool) (t : Strided R) (is : List Nat) (init : R) : Outcome R :=
  is.foldlM (fun m i => do
    let x ← t.counterRead i
    return if better m x then m else x) init

/-- ElementOperations.hpp 213, 289: `*std::max_element(first, last)` (or `min_element`): the first element that no
other one is better than;
dereferencing the end of an empty range is undefined. -/
def extremeElement (better : R → R → Bool) : List R → Outcome R
  | [] => .ub "dereferencing the end iterator"
  | x :: xs => .ok (xs.foldl (fun b y => if better y b then y else b) x)

/-- ElementOperations.hpp 190–214 and 266–290: the common shape of `max` and `min` on a tensor or view: an array of
`omp_get_max_threads()` elements, one for each of the `n` threads of the parallel region.  The threads touch different
elements of the array. -/
def extremeTensor (better : R → R → Bool) (init : R) (maxThreads n : Nat) (t : Strided R) : Outcome R := do
  let arr ← collect (fun tid =>
    if tid < n then do
      let is ← threadCounters (sizeMethod t.dims) n tid
      extremeThread better t is init
    else .ok init) (List.range maxThreads)
  if maxThreads < n then .ub "arr[tid] out of range"
  else extremeElement better arr

/-- ElementOperations.hpp 190–214: `max` of a tensor or view; `ninf` is `T{-INFINITY}`, `a > b` is `lt b a`. -/
def maxTensor (lt : R → R → Bool) (ninf : R) (maxThreads n : Nat) (t : Strided R) : Outcome R :=
  extremeTensor (fun a b => lt b a) ninf maxThreads n t

/-- ElementOperations.hpp 266–290: `min` of a tensor or view; `pinf` is `T{INFINITY}`. -/
def minTensor (lt : R → R → Bool) (pinf : R) (maxThreads n : Nat) (t : Strided R) : Outcome R :=
  extremeTensor lt pinf maxThreads n t

/-- ElementOperations.hpp 148–155 and 224–231: `max` and `min` of a block tensor: the extreme of each block (the
initial value for an empty block), then the extreme of those.  Each block uses the threads `n b`. -/
def extremeBlock (better : R → R → Bool) (init : R) (maxThreads : Nat) (n : Nat → Nat) (T : Block R) : Outcome R := do
  let arr ← collect (fun b => do
    let t ← T.at b
    if t.dim 0 = 0 then return init
    else extremeTensor better init maxThreads (n b) t) (List.range T.blocks.length)
  extremeElement better arr

/-- ElementOperations.hpp 148–155: `max` of a block tensor. -/
def maxBlock (lt : R → R → Bool) (ninf : R) (maxThreads : Nat) (n : Nat → Nat) (T : Block R) : Outcome R :=
  extremeBlock (fun a b => lt b a) ninf maxThreads n T

/-- ElementOperations.hpp 224–231: `min` of a block tensor. -/
def minBlock (lt : R → R → Bool) (pinf : R) (maxThreads : Nat) (n : Nat → Nat) (T : Block R) : Outcome R :=
  extremeBlock lt pinf maxThreads n T

/-- ElementOperations.hpp 347–356 (413–422, 479–488, 545–554): one iteration of an element-wise function that fills a
new tensor: `result.data()[to_index] = op(tensor.data()[from_index])`. -/
def mapStep (op : R → R) (t result : Strided R) (i : Nat) : Outcome (Strided R) := do
  let fromIndex ← counterOffset t.dims t.strides i
  let toIndex ← counterOffset t.dims result.strides i
  let x ← memGet t.data (t.off + fromIndex)
  let d ← memUpd result.data (result.off + toIndex) fun _ => .ok (op x)
  return { result with data := d }

/-- ElementOperations.hpp 341–361 (abs), 407–427 (invert), 473–493 (exp), 539–559 (scale): a new tensor with the
dimensions of the argument (Utilities.hpp 475–479; its elements are indeterminate: `z`), filled by the iterations of `n`
threads, which happen in the order `sched`. -/
def mapTensor (op : R → R) (z : Nat → R) (t : Strided R) (n : Nat) (sched : List Nat) : Outcome (Strided R) := do
  let _ ← collect (threadCounters (sizeMethod t.dims) n) (List.range n)
  sched.foldlM (mapStep op t) (Strided.mk' z t.dims)

/-- ElementOperations.hpp 305–311 (371–377, 437–443, 503–509): one iteration over the blocks; block `b` is
handled by `n b` threads in the order `inner b`; `z`, `z'` are the contents of fresh memory. -/
def mapBlockStep (op : R → R) (z z' : Nat → R) (T : Block R) (n : Nat → Nat) (inner : Nat → List Nat) (result : Block R) (b : Nat) :
    Outcome (Block R) := do
  let r ← result.at b
  let t ← T.at b
  let new ← mapTensor op z t (n b) (inner b)
  let r' ← r.assign z' new
  return { result with blocks := result.blocks.set b r' }

/-- ElementOperations.hpp 305–311 (371–377, 437–443, 503–509): an element-wise function of a block tensor, applied to
the blocks in the order `sched`; `create_tensor_like` makes a block tensor with the same block sizes (Utilities.hpp
515–519). -/
def mapBlock [Zero R] (op : R → R) (z0 : Nat → Nat → R) (z z' : Nat → R) (T : Block R) (n : Nat → Nat)
    (inner : Nat → List Nat) (sched : List Nat) : Outcome (Block R) :=
  sched.foldlM (mapBlockStep op z z' T n inner) (Block.mk' z0 T.rank (T.blocks.map (·.dim 0)))

end Einsums.Model
