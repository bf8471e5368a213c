import Verif.Model.IndexUtils
import Verif.Model.Blas
/-
Model of the Python interface of einsum: src/python/PyTensorAlgebra.cpp (`compile_plan` and the choice of
the generic path) and src/include/einsums/python/PyTensorAlgebra.hpp (the `execute` methods of the six
plans).

A Python buffer is a `Strided`: the allocation, the position of element 0, shape and strides counted in
elements (`strides[i] / sizeof(T)`).  Simplifications: strides are non-negative multiples of the item
size; all three buffers have one of the four supported element types, the same for all; `C` shares no
storage with `A` or `B`; `int` and `size_t` are unbounded; the HIP versions are left out.  Labels are an
arbitrary type with decidable equality (characters in the code).
-/
namespace Einsums.Model

section labels
variable {L : Type} [DecidableEq L]

/-- PyTensorAlgebra.cpp 22–33: `intersect`: a character of the first string for every equal one of the
second. -/
def pyIntersect (s t : List L) : List L := s.flatMap fun c => (t.filter fun d => c = d).map fun _ => c

/-- PyTensorAlgebra.cpp 73–89: `difference`. -/
def pyDifference (s t : List L) : List L := s.filter fun c => !(t.any fun d => c = d)

/-- PyTensorAlgebra.cpp 91–106: `unique`. -/
def pyUnique (s : List L) : List L :=
  s.foldl (fun out c => if out.any (fun o => o = c) then out else out ++ [c]) []

/-- PyTensorAlgebra.cpp 108–120: `find_ind_with_pos`. -/
def pyFind (s t : List L) : List (L × Nat) :=
  s.flatMap fun c => t.zipIdx.filterMap fun dj => if c = dj.1 then some (c, dj.2) else none

/-- PyTensorAlgebra.cpp 122–132: `contiguous_indices`.  (`pairs[i + 1].second - 1` is computed in `size_t`:
for position 0 it is 2^64 − 1, which is no position; so the test is `second + 1 = next`.) -/
def pyContiguous : List (L × Nat) → Bool
  | p :: q :: ps => if p.2 + 1 ≠ q.2 then false else pyContiguous (q :: ps)
  | _ => true

/-- PyTensorAlgebra.cpp 134–147: `same_ordering`. -/
def pySameOrdering (x y : List (L × Nat)) : Bool :=
  if x.length ≠ y.length then false
  else if x.length = 0 ∧ y.length = 0 then false
  else (List.zip x y).all fun p => p.1.1 = p.2.1

/-- PyTensorAlgebra.cpp 149–161: `create_perm_table`: the first position of every index in the list of
unique indices (0 when missing: the vector is zero-initialised). -/
def pyPermTable (indices uniq : List L) : List Nat :=
  indices.map fun c => match uniq.zipIdx.find? (fun dj => c = dj.1) with
    | some dj => dj.2
    | none => 0

/-- PyTensorAlgebra.cpp 265–289 and 320–358, 388–426, 469–520: the positions, without repetitions. -/
def pyPositions (ps : List (L × Nat)) : List Nat := pyUnique (ps.map (·.2))

/-- PyTensorAlgebra.cpp 299–318, 367–386, 437–466: `std::max_element(...)->second`; dereferencing the end of an
empty range is undefined. -/
def pyMaxPos : List (L × Nat) → Outcome Nat
  | [] => .ub "max_element of an empty range"
  | p :: ps => .ok (ps.foldl (fun m q => if m < q.2 then q.2 else m) p.2)

/-- PyTensorAlgebra.cpp 263, 319, 387, 467–468: `positions[0].second`. -/
def pyFirstPos : List (L × Nat) → Outcome Nat
  | [] => .ub "deque index out of range"
  | p :: _ => .ok p.2

/-- PyTensorAlgebra.hpp 336–340, PyTensorAlgebra.cpp 35–42: the data of the generic plan. -/
structure PyBase where
  numInds : Nat
  Cperm : List Nat
  Aperm : List Nat
  Bperm : List Nat
  deriving Repr, DecidableEq

/-- PyTensorAlgebra.cpp 44–71: the plans and the data each keeps. -/
inductive PyPlan
  | generic
  | dot
  | direct
  | ger (CA CB : List Nat) (swap : Bool)
  | gemv (Alink Blink AC : List Nat) (AtLast AlLast BlLast CtLast : Nat) (transA swap : Bool)
  | gemm (Alink Blink AC BC : List Nat) (AtLast AlLast BtLast BlLast CAtLast CBtLast : Nat)
      (transA transB transC : Bool)
  deriving Repr, DecidableEq

/-- PyTensorAlgebra.cpp 169–171, 194: `link_unique`. -/
def pyLinkUnique (Al Bl Cl : List L) : List L := pyUnique (pyDifference (pyIntersect Al Bl) Cl)

/-- PyTensorAlgebra.cpp 196–198: no index string repeats a character. -/
def pyNoHadamard (Al Bl Cl : List L) : Bool :=
  !decide (Al.length ≠ (pyUnique Al).length) && !decide (Bl.length ≠ (pyUnique Bl).length) &&
  !decide (Cl.length ≠ (pyUnique Cl).length)

/-- PyTensorAlgebra.cpp 228–232: `is_gemm_possible`. -/
def pyIsGemm (Al Bl Cl : List L) : Bool :=
  let lu := pyLinkUnique Al Bl Cl
  let cu := pyUnique Cl
  decide ((pyDifference Cl Al).length > 0) && decide ((pyDifference Cl Bl).length > 0) &&
  pyContiguous (pyFind lu Al) && pyContiguous (pyFind lu Bl) &&
  pyContiguous (pyFind cu Al) && pyContiguous (pyFind cu Bl) &&
  pyContiguous (pyFind Al Cl) && pyContiguous (pyFind Bl Cl) &&
  pySameOrdering (pyFind lu Al) (pyFind lu Bl) &&
  pySameOrdering (pyFind cu Al) (pyFind Al Cl) && pySameOrdering (pyFind cu Bl) (pyFind Bl Cl) &&
  pyNoHadamard Al Bl Cl

/-- PyTensorAlgebra.cpp 233–236: `is_gemv_AB_possible`. -/
def pyIsGemvAB (Al Bl Cl : List L) : Bool :=
  let lu := pyLinkUnique Al Bl Cl
  let cu := pyUnique Cl
  pyContiguous (pyFind lu Al) && pyContiguous (pyFind lu Bl) && pyContiguous (pyFind cu Al) &&
  pySameOrdering (pyFind lu Al) (pyFind lu Bl) && pySameOrdering (pyFind cu Al) (pyFind Al Cl) &&
  !pySameOrdering (pyFind cu Bl) (pyFind Bl Cl) && decide ((pyFind Bl Cl).length = 0) &&
  pyNoHadamard Al Bl Cl

/-- PyTensorAlgebra.cpp 237–240: `is_gemv_BA_possible`. -/
def pyIsGemvBA (Al Bl Cl : List L) : Bool :=
  let lu := pyLinkUnique Al Bl Cl
  let cu := pyUnique Cl
  pyContiguous (pyFind lu Al) && pyContiguous (pyFind lu Bl) && pyContiguous (pyFind cu Bl) &&
  pySameOrdering (pyFind lu Al) (pyFind lu Bl) && pySameOrdering (pyFind cu Bl) (pyFind Bl Cl) &&
  !pySameOrdering (pyFind cu Al) (pyFind Al Cl) && decide ((pyFind Al Cl).length = 0) &&
  pyNoHadamard Al Bl Cl

/-- PyTensorAlgebra.cpp 242–243: `element_wise_multiplication`. -/
def pyIsElementWise (Al Bl Cl : List L) : Bool :=
  decide (Al = Cl) && decide (Bl = Cl) && pyNoHadamard Al Bl Cl

/-- PyTensorAlgebra.cpp 244: `dot_product`. -/
def pyIsDot (Al Bl Cl : List L) : Bool :=
  decide (Cl.length = 0) && decide (Al = Bl) && pyNoHadamard Al Bl Cl

/-- PyTensorAlgebra.cpp 245–246: `outer_product`. -/
def pyIsOuter (Al Bl Cl : List L) : Bool :=
  decide ((pyIntersect Al Bl).length = 0) && pyContiguous (pyFind (pyUnique Cl) Al) &&
  pyContiguous (pyFind (pyUnique Cl) Bl) && pyNoHadamard Al Bl Cl

/-- PyTensorAlgebra.cpp 248–253: the base plan. -/
def pyBase (Al Bl Cl : List L) : PyBase :=
  let u := pyUnique (Al ++ Bl ++ Cl)
  { numInds := u.length, Cperm := pyPermTable Cl u, Aperm := pyPermTable Al u, Bperm := pyPermTable Bl u }

/-- PyTensorAlgebra.cpp 295–361 and 363–430: the gemv plan for the matrix labels `Xl` and the vector labels
`Yl`. -/
def pyGemvPlan (lu Xl Yl Cl : List L) (swap : Bool) : Outcome PyPlan := do
  let cu := pyUnique Cl
  let AtLast ← pyMaxPos (pyFind cu Xl)
  let AlLast ← pyMaxPos (pyFind lu Xl)
  let BlLast ← pyMaxPos (pyFind lu Yl)
  let CtLast ← pyMaxPos (pyFind cu Cl)
  let first ← pyFirstPos (pyFind lu Xl)
  return .gemv (pyPositions (pyFind lu Xl)) (pyPositions (pyFind lu Yl)) (pyPositions (pyFind Xl Cl))
    AtLast AlLast BlLast CtLast (decide (first = 0)) swap

/-- PyTensorAlgebra.cpp 432–524: the gemm plan. -/
def pyGemmPlan (lu Al Bl Cl : List L) : Outcome PyPlan := do
  let cu := pyUnique Cl
  let AtLast ← pyMaxPos (pyFind cu Al)
  let AlLast ← pyMaxPos (pyFind lu Al)
  let BtLast ← pyMaxPos (pyFind cu Bl)
  let BlLast ← pyMaxPos (pyFind lu Bl)
  let CAtLast ← pyMaxPos (pyFind Al Cl)
  let CBtLast ← pyMaxPos (pyFind Bl Cl)
  let firstA ← pyFirstPos (pyFind lu Al)
  let firstB ← pyFirstPos (pyFind lu Bl)
  let firstC ← pyFirstPos (pyFind Al Cl)
  return .gemm (pyPositions (pyFind lu Al)) (pyPositions (pyFind lu Bl)) (pyPositions (pyFind Al Cl))
    (pyPositions (pyFind Bl Cl)) AtLast AlLast BtLast BlLast CAtLast CBtLast
    (decide (firstA = 0)) (decide (firstB ≠ 0)) (decide (firstC ≠ 0))

/-- PyTensorAlgebra.cpp 162–528: `compile_plan(C_indices, A_indices, B_indices)`. -/
def compilePlan (Cl Al Bl : List L) : Outcome PyPlan :=
  let lu := pyLinkUnique Al Bl Cl
  if pyIsDot Al Bl Cl then .ok .dot
  else if pyIsElementWise Al Bl Cl then .ok .direct
  else if pyIsOuter Al Bl Cl then
    pyFirstPos (pyFind Al Cl) >>= fun first =>
    .ok (.ger (pyPositions (pyFind Al Cl)) (pyPositions (pyFind Bl Cl)) (decide (first ≠ 0)))
  else if pyIsGemvAB Al Bl Cl || pyIsGemvBA Al Bl Cl then
    if pyIsGemvBA Al Bl Cl && !pyIsGemvAB Al Bl Cl then pyGemvPlan lu Bl Al Cl true
    else pyGemvPlan lu Al Bl Cl false
  else if pyIsGemm Al Bl Cl then pyGemmPlan lu Al Bl Cl
  else .ok .generic

end labels

section execute
variable {R : Type} [Add R] [Mul R] [Zero R] [One R] [BEq R]

/-- PyTensorAlgebra.hpp 541–546, 572–577, 703–708, 791–795: `quotient / stride`, `quotient %= stride` over the strides.
(A stride is zero only when a later dimension is zero; then the loops around this have no iteration.) -/
def pyDivMod : Nat → List Nat → List Nat
  | _, [] => []
  | q, s :: ss => (q / s) :: pyDivMod (q % s) ss

/-- PyTensorAlgebra.hpp 579–591: `ord += stride[i] * unique_index[perm[i]]`. -/
def pyOrd (strides perm uidx : List Nat) : Nat :=
  (List.zipWith (fun s p => s * uidx.getD p 0) strides perm).sum

/-- PyTensorAlgebra.hpp 544, 710–711, 797–799: `index += stride[i] * (the i-th index)`. -/
def pyAddr : List Nat → List Nat → Nat
  | i :: is, s :: ss => s * i + pyAddr is ss
  | _, _ => 0

/-- PyTensorAlgebra.cpp 539–543: one of the loops of `get_dim_ranges_for_many`: a dimension already found
(not zero) is kept. -/
def pyDimLoop (out : List Nat) (perm shape : List Nat) : List Nat :=
  (List.zip perm shape).foldl (fun out ps => if out.getD ps.1 0 = 0 then out.set ps.1 ps.2 else out) out

/-- PyTensorAlgebra.cpp 530–558: `get_dim_ranges_for_many`. -/
def pyUniqueDims (b : PyBase) (C A B : List Nat) : List Nat :=
  pyDimLoop (pyDimLoop (pyDimLoop (List.replicate b.numInds 0) b.Cperm C) b.Aperm A) b.Bperm B

/-- PyTensorAlgebra.hpp 538–562: setting to zero or scaling the elements of `C`.  `C_dims[0]` on an empty
vector is undefined.  Simplification: the iterations, which touch different elements, run in order. -/
def pyScale (cp : R) (C : Strided R) : Outcome (Strided R) :=
  let st := (dimsToStrides C.dims).2
  match C.dims, st with
  | d0 :: _, s0 :: _ =>
      (List.range (d0 * s0)).foldlM (fun mem (s : Nat) =>
        memUpd mem (C.off + pyAddr (pyDivMod s st) C.strides) fun old =>
          .ok (if cp == 0 then 0 else old * cp)) C.data >>= fun d => .ok { C with data := d }
  | _, _ => .ub "C_dims[0] of an empty vector"

/-- PyTensorAlgebra.hpp 593: `C_data[C_ord] += ...` is a load and a store; it is not atomic. -/
inductive AddOp
  | load
  | store
  deriving Repr, DecidableEq

/-- PyTensorAlgebra.hpp 571: the values of `sentinel` in one thread of `kernel`. -/
def pySentinels (n kernel thread : Nat) : List Nat :=
  (List.range n).filter fun s => thread ≤ s ∧ (s - thread) % kernel = 0

/-- PyTensorAlgebra.hpp 564–594: the memory operations on `C` of every thread. -/
def pyThreads (n kernel : Nat) : List (List (Nat × AddOp)) :=
  (List.range kernel).map fun t => (pySentinels n kernel t).flatMap fun s => [(s, .load), (s, .store)]

/-- PyTensorAlgebra.hpp 564–594: shared storage and the private register of each iteration. -/
structure PyState (R : Type) where
  mem : List R
  reg : Nat → R

/-- PyTensorAlgebra.hpp 572–593: one memory operation of the iteration `sentinel`. -/
def pyStep (b : PyBase) (ab : R) (us : List Nat) (C A B : Strided R) (st : PyState R) (a : Nat × AddOp) :
    Outcome (PyState R) :=
  let u := pyDivMod a.1 us
  let p := C.off + pyOrd C.strides b.Cperm u
  match a.2 with
  | .load => memGet st.mem p >>= fun v => .ok { st with reg := fun t => if t = a.1 then v else st.reg t }
  | .store => do
      let x ← memGet A.data (A.off + pyOrd A.strides b.Aperm u)
      let y ← memGet B.data (B.off + pyOrd B.strides b.Bperm u)
      let m ← memUpd st.mem p fun _ => .ok (st.reg a.1 + ab * x * y)
      return { st with mem := m }

/-- PyTensorAlgebra.hpp 571: the number of iterations of the main loop. -/
def pyCount (b : PyBase) (C A B : List Nat) : Nat :=
  (pyUniqueDims b C A B).headD 0 * (dimsToStrides (pyUniqueDims b C A B)).2.headD 0

/-- PyTensorAlgebra.hpp 514–596: `execute_generic`; `sched` is the order in which the memory operations of
all threads take effect (sequentially consistent loads and stores). -/
def pyExecGeneric (b : PyBase) (sched : List (Nat × AddOp)) (cp : R) (C : Strided R) (ab : R)
    (A B : Strided R) : Outcome (Strided R) :=
  if b.Cperm.length ≠ C.dims.length ∨ b.Aperm.length ≠ A.dims.length ∨ b.Bperm.length ≠ B.dims.length then
    .error "Tensor ranks do not match the indices!"
  else
    let us := (dimsToStrides (pyUniqueDims b C.dims A.dims B.dims)).2
    pyScale cp C >>= fun C1 =>
    sched.foldlM (pyStep b ab us C1 A B) { mem := C1.data, reg := fun _ => 0 } >>= fun st =>
    .ok { C1 with data := st.mem }

/-- PyTensorAlgebra.hpp 673–716: `PyEinsumDotPlan::execute_imp`.  `parts` are the iterations of each thread:
`reduction(+)` gives every thread a private sum starting at zero, added to `C` at the end. -/
def pyExecDot (parts : List (List Nat)) (cp : R) (C : Strided R) (ab : R) (A B : Strided R) :
    Outcome (Strided R) :=
  if A.dims.length ≠ B.dims.length then .error "Tensor ranks do not match the indices!"
  else
    let us := (dimsToStrides A.dims).2
    match A.dims with
    | [] => .ub "shape[0] of an empty vector"
    | _ :: _ =>
      memUpd C.data C.off (fun old =>
        parts.foldlM (fun c part => do
          let t ← sumLoop (fun s => do
            let u := pyDivMod s us
            let x ← memGet A.data (A.off + pyAddr u A.strides)
            let y ← memGet B.data (B.off + pyAddr u B.strides)
            return ab * x * y) part 0
          return c + t) (if cp == 0 then 0 else old * cp)) >>= fun d => .ok { C with data := d }

/-- PyTensorAlgebra.hpp 702: the number of iterations of the dot product. -/
def pyDotCount (A : List Nat) : Nat := A.headD 0 * (dimsToStrides A).2.headD 0

/-- PyTensorAlgebra.hpp 772–808: `PyEinsumDirectProductPlan::execute_imp`.  Simplification: the iterations,
which touch different elements, run in order. -/
def pyExecDirect (b : PyBase) (cp : R) (C : Strided R) (ab : R) (A B : Strided R) : Outcome (Strided R) :=
  if A.dims.length ≠ B.dims.length ∨ A.dims.length ≠ C.dims.length ∨ A.dims.length ≠ b.numInds then
    .error "Tensor ranks do not match the indices!"
  else
    let us := (dimsToStrides A.dims).2
    (List.range (dimsToStrides A.dims).1).foldlM (fun mem (s : Nat) => do
      let u := pyDivMod s us
      let x ← memGet A.data (A.off + pyAddr u A.strides)
      let y ← memGet B.data (B.off + pyAddr u B.strides)
      memUpd mem (C.off + pyAddr u C.strides) fun old =>
        .ok (if cp == 0 then ab * x * y else cp * old + ab * x * y)) C.data >>= fun d => .ok { C with data := d }

/-- PyTensorAlgebra.hpp 1052, 1056, 1072: `info.shape[pos]`. -/
def pyShape (X : Strided R) (p : Nat) : Outcome Nat :=
  match X.dims[p]? with
  | some d => .ok d
  | none => .ub "shape index out of range"

/-- PyTensorAlgebra.hpp 1062: `info.strides[pos] / sizeof(T)`. -/
def pyStride (X : Strided R) (p : Nat) : Outcome Nat :=
  match X.strides[p]? with
  | some s => .ok s
  | none => .ub "stride index out of range"

/-- PyTensorAlgebra.hpp 1050–1057: `for (i = 0; i < n; i++) d *= info.shape[pos[i]]`. -/
def pyProd (X : Strided R) (pos : List Nat) (n : Nat) : Outcome Nat :=
  (List.range n).foldlM (fun acc (i : Nat) => match pos[i]? with
    | some p => pyShape X p >>= fun d => .ok (acc * d)
    | none => .ub "vector index out of range") 1

/-- PyTensorAlgebra.hpp 896–936: `PyEinsumGerPlan::execute_imp`; `sz` is `sizeof(T)`.  The strides of the
buffer are in bytes, so `memset` clears `shape[0] * strides[0]` bytes, and the scaling loop runs over as
many elements. -/
def pyExecGer (sz : Nat) (CA CB : List Nat) (swap : Bool) (cp : R) (C : Strided R) (ab : R)
    (A B : Strided R) : Outcome (Strided R) := do
  let d0 ← pyProd C CA CA.length
  let d1 ← pyProd C CB CB.length
  let (d0, d1) := if swap then (d1, d0) else (d0, d1)
  let mem ← if cp == 0 then do
      let n ← pyShape C 0
      let s ← pyStride C 0
      (List.range (n * s)).foldlM (fun mem (i : Nat) => memUpd mem (C.off + i) fun _ => .ok 0) C.data
    else if cp == 1 then .ok C.data
    else do
      let n ← pyShape C 0
      let s ← pyStride C 0
      (List.range (n * (s * sz))).foldlM (fun mem (i : Nat) => memUpd mem (C.off + i) fun old => .ok (old * cp))
        C.data
  let (X, Y) := if swap then (B, A) else (A, B)
  let mem ← vendorGer d0 d1 ab X.data X.off 1 Y.data Y.off 1 mem C.off d1
  return { C with data := mem }

/-- PyTensorAlgebra.hpp 1035–1089: `PyEinsumGemvPlan::execute_imp`.  The loop for `dA1` runs over the
positions in `_AC_pos` and reads `_A_link_pos[i]`. -/
def pyExecGemv (Alink Blink AC : List Nat) (AtLast AlLast BlLast CtLast : Nat) (transA swap : Bool) (cp : R)
    (C : Strided R) (ab : R) (A B : Strided R) : Outcome (Strided R) := do
  let (A, B) := if swap then (B, A) else (A, B)
  let d0 ← pyProd C AC AC.length
  let d1 ← pyProd A Alink AC.length
  let s0 ← pyStride A AtLast
  let s1 ← pyStride A AlLast
  let (d0, d1, s0) := if transA then (d1, d0, s1) else (d0, d1, s0)
  let _ ← pyProd B Blink Blink.length
  let sB ← pyStride B BlLast
  let _ ← pyProd C AC AC.length
  let sC ← pyStride C CtLast
  let mem ← vendorGemv transA d0 d1 ab A.data A.off s0 B.data B.off sB cp C.data C.off sC
  return { C with data := mem }

/-- PyTensorAlgebra.hpp 1236–1303: `PyEinsumGemmPlan::execute_imp`. -/
def pyExecGemm (Alink Blink AC BC : List Nat) (AtLast AlLast BtLast BlLast CAtLast CBtLast : Nat)
    (transA transB transC : Bool) (cp : R) (C : Strided R) (ab : R) (A B : Strided R) :
    Outcome (Strided R) := do
  let dA0 ← pyProd C AC AC.length
  let dA1 ← pyProd A Alink AC.length
  let sA0 ← pyStride A AtLast
  let sA1 ← pyStride A AlLast
  let (dA0, dA1, sA0) := if transA then (dA1, dA0, sA1) else (dA0, dA1, sA0)
  let dB1 ← pyProd C BC BC.length
  let dB0 ← pyProd B Blink BC.length
  let sB1 ← pyStride B BtLast
  let sB0 ← pyStride B BlLast
  let (dB1, sB0) := if transB then (dB0, sB1) else (dB1, sB0)
  let sC0 ← pyStride C CAtLast
  let sC1 ← pyStride C CBtLast
  let sC0 := if transC then sC1 else sC0
  let mem ← if !transC then
      vendorGemm transA transB dA0 dB1 dA1 ab A.data A.off sA0 B.data B.off sB0 cp C.data C.off sC0
    else
      vendorGemm (!transB) (!transA) dB1 dA0 dA1 ab B.data B.off sB0 A.data A.off sA0 cp C.data C.off sC0
  return { C with data := mem }

/-- PyTensorAlgebra.cpp 703–727, 806–830, 929–953: the strides of a buffer are those of a contiguous
row-major array. -/
def pyContiguousBuffer (X : Strided R) : Bool := decide (X.strides = (dimsToStrides X.dims).2)

/-- What the OpenMP runtime decides: the interleaving of the generic loop (PyTensorAlgebra.hpp 564) and the
iterations of each thread in the reduction of the dot product (697–701). -/
structure OmpRun where
  sched : List (Nat × AddOp)
  parts : List (List Nat)

/-- PyTensorAlgebra.cpp 583–599, 622–638, 659–675, 696–745, 799–848, 922–971: `plan.execute(...)`. -/
def pyExecute (sz : Nat) (run : OmpRun) (b : PyBase) (plan : PyPlan) (cp : R) (C : Strided R) (ab : R)
    (A B : Strided R) : Outcome (Strided R) :=
  let useGeneric := !pyContiguousBuffer C || !pyContiguousBuffer A || !pyContiguousBuffer B
  match plan with
  | .generic => pyExecGeneric b run.sched cp C ab A B
  | .dot => pyExecDot run.parts cp C ab A B
  | .direct => pyExecDirect b cp C ab A B
  | .ger CA CB swap =>
      if useGeneric then pyExecGeneric b run.sched cp C ab A B else pyExecGer sz CA CB swap cp C ab A B
  | .gemv Al Bl AC a1 a2 b1 c1 tA sw =>
      if useGeneric then pyExecGeneric b run.sched cp C ab A B
      else pyExecGemv Al Bl AC a1 a2 b1 c1 tA sw cp C ab A B
  | .gemm Al Bl AC BC a1 a2 b1 b2 c1 c2 tA tB tC =>
      if useGeneric then pyExecGeneric b run.sched cp C ab A B
      else pyExecGemm Al Bl AC BC a1 a2 b1 b2 c1 c2 tA tB tC cp C ab A B

/-- PyTensorAlgebra.cpp 162–528 and the execute methods: compile a plan and execute it. -/
def pyEinsum [DecidableEq L] (sz : Nat) (run : OmpRun) (cp : R) (Cl : List L) (C : Strided R) (ab : R)
    (Al : List L) (A : Strided R) (Bl : List L) (B : Strided R) : Outcome (Strided R) :=
  compilePlan Cl Al Bl >>= fun plan => pyExecute sz run (pyBase Al Bl Cl) plan cp C ab A B

end execute
end Einsums.Model
