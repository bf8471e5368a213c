import Verif.Model.Dispatch
/-
Model of sort (Sort.hpp), unfold (Unfold.hpp), khatri_rao (KhatriRao.hpp), element_transform and element
(ElementTransform.hpp), and of the element-wise operators of `TensorView` (Tensor.hpp).

The OpenMP loops are given the order `sched` in which their iterations happen; a step of `sched` is one
whole iteration (the iterations of one loop touch different elements).
-/
namespace Einsums.Model
open Spec (ReqDim)

section
variable {L : Type} [DecidableEq L]

/-- _TensorAlgebraUtilities.hpp 142–167 and 206–211: `construct_indices` with position tuples
`(label, position, label, position, ...)`: a label is looked up among the labels of the first tuple,
then of the second. -/
def constructIndicesPos (tps : List (L × Nat)) (tc : List Nat) (lps : List (L × Nat)) (lc : List Nat)
    (ls : List L) : Outcome (List Nat) :=
  constructIndices (tps.map (·.1)) tc (lps.map (·.1)) lc ls

end

/-- ElementTransform.hpp 43–76: `cartesian_product` applied to a tuple of ranges; range-v3 defines the product of
no ranges as the
empty range. -/
def cartesianProduct (dims : List Nat) : List (List Nat) :=
  match dims with
  | [] => []
  | _ => cartesian dims

section elementwise
variable {α : Type}

/-- Tensor.hpp 1157–1168: `TensorView::operator=(const T &)`. -/
def Strided.viewFill (v : α) (t : Strided α) (sched : List (List Nat)) : Outcome (Strided α) :=
  sched.foldlM (fun t i => t.write (toIdx i) v) t

/-- Tensor.hpp 1173–1188: `TensorView::operator OP=(const T &)`. -/
def Strided.viewCompound (op : α → α → α) (v : α) (t : Strided α) (sched : List (List Nat)) :
    Outcome (Strided α) :=
  sched.foldlM (fun t i => do
    let x ← t.read (toIdx i)
    t.write (toIdx i) (op x v)) t

/-- ElementTransform.hpp 20–41: `element_transform(&C, op)`. -/
def elementTransform (op : α → α) (C : Strided α) (sched : List (List Nat)) : Outcome (Strided α) :=
  sched.foldlM (fun C i => do
    let x ← C.read (toIdx i)
    C.write (toIdx i) (op x)) C

/-- ElementTransform.hpp 43–76: `std::apply(tensors, it)...`: one element of each tensor. -/
def readAll (i : List Nat) : List (Strided α) → Outcome (List α)
  | [] => .ok []
  | t :: ts => do
      let x ← t.read (toIdx i)
      let xs ← readAll i ts
      return x :: xs

/-- ElementTransform.hpp 43–76: `element(op, &C, tensors...)`; shapes that differ abort the program. -/
def element (op : α → List α → α) (C : Strided α) (ts : List (Strided α)) (sched : List (List Nat)) :
    Outcome (Strided α) :=
  if ts.any fun t => decide (C.dims ≠ t.dims) then .error "abort: not the same dimensionality"
  else sched.foldlM (fun C i => do
    let x ← C.read (toIdx i)
    let xs ← readAll i ts
    C.write (toIdx i) (op x xs)) C

end elementwise

section algebra
variable {L : Type} [DecidableEq L] {R : Type} [Add R] [Mul R] [Zero R] [One R] [BEq R] [Div R]

/-- Contract of HPTT's `create_plan(perm, dim, alpha, A, sizeA, nullptr, beta, B, nullptr, ..., true)` and
`execute` (HPTT is not part of this repository; Sort.cpp 21–44 only passes the arguments on):
row-major `B(i_perm[0], i_perm[1], ...) := alpha*A(i_0, i_1, ...) + beta*B(...)`; with `beta = 0` the old
`B` is not used. -/
def hptt (perm : List Nat) (alpha : R) (a : List R) (sizeA : List Nat) (beta : R) (b : List R) :
    Outcome (List R) :=
  let sizeB := perm.map fun p => sizeA.getD p 0
  let A : Strided R := ⟨a, 0, sizeA, transformStrides sizeA⟩
  (cartesian sizeB).foldlM (fun (B : Strided R) ib => do
    let ia := (List.range sizeA.length).map fun p => ib.getD (perm.idxOf p) 0
    let x ← A.read (toIdx ia)
    let old ← B.read (toIdx ib)
    B.write (toIdx ib) (if beta == 0 then alpha * x else alpha * x + beta * old))
    ⟨b, 0, sizeB, transformStrides sizeB⟩ >>= fun B => .ok B.data

/-- Sort.hpp 44–110: `sort(C_prefactor, C_indices, &C, A_prefactor, A_indices, A)`.  `useHptt` is
`EINSUMS_USE_HPTT`; `fillOrder` and `sched` are the orders of the two parallel loops. -/
def sort (useHptt : Bool) (cp : R) (Cl : List L) (C : Operand R) (ap : R) (Al : List L) (A : Operand R)
    (fillOrder sched : List (List Nat)) : Outcome (Strided R) :=
  if (difference Al Cl).length ≠ 0 then .error "static_assert"
  else
    let ps := findTypeWithPosition Cl Al
    (if cp == 0 then (if C.isView then C.t.viewFill 0 fillOrder else .ok (C.t.setAll 0)) else .ok C.t) >>=
    fun C0 =>
    if useHptt && !C.isView && !A.isView then
      hptt ((ps.map (·.2)).take Al.length) ap A.t.data A.t.dims cp C0.data >>= fun d => .ok { C0 with data := d }
    else if Al = Cl then axpby ap A.t cp C0
    else sched.foldlM (fun C it => do
      let ia ← constructIndicesPos ps it ps it Al
      let old ← C.read (toIdx it)
      let x ← A.t.read (toIdx ia)
      C.write (toIdx it) (cp * old + ap * x)) C0

/-- Unfold.hpp 78–79: The labels of unfold: `index::list` (here the numbers) and `index::Z`. -/
abbrev UnfoldLabel := Option Nat

/-- Unfold.hpp 95–110: the iterations of the loop: a value of the unfolded axis, a multi-index of the
other axes, and the running column number `Z`. -/
def unfoldIterations (linkDims sourceDims : List Nat) : List (List Nat × List Nat × Nat) :=
  (cartesianProduct linkDims).flatMap fun link =>
    (cartesianProduct sourceDims).zipIdx.map fun s => (link, s.1, s.2)

/-- Unfold.hpp 62–114: `unfold<mode>(source)`; `z` is the content of the fresh memory of the result. -/
def unfold (z : Nat → R) (mode : Nat) (source : Strided R) (sched : List (List Nat × List Nat × Nat)) : Outcome (Strided R) :=
  let rank := source.dims.length
  let cols := ((List.range rank).filter (· ≠ mode)).foldl (fun acc i => acc * source.dim i) 1
  let target := Strided.mk' z [source.dim mode, cols]
  let sourceLabels : List UnfoldLabel := (List.range rank).map some
  let link := intersect [some mode, none] sourceLabels
  let sourceOnly := difference sourceLabels link
  let sps := findTypeWithPosition sourceOnly sourceLabels
  let lps := findTypeWithPosition link sourceLabels
  sched.foldlM (fun target it => do
    let is ← constructIndicesPos sps it.2.1 lps it.1 sourceLabels
    let v ← source.read (toIdx is)
    target.write (toIdx [it.1.headD 0, it.2.2]) v) target

/-- Unfold.hpp 89–93: the ranges the loop runs over. -/
def unfoldRanges (mode : Nat) (source : Strided R) : List Nat × List Nat :=
  let sourceLabels : List UnfoldLabel := (List.range source.dims.length).map some
  let link := intersect [some mode, none] sourceLabels
  (dimsFor [source.dim mode] (findTypeWithPosition link [some mode, none]),
   dimsFor source.dims (findTypeWithPosition (difference sourceLabels link) sourceLabels))

/-- KhatriRao.hpp 19–86: `khatri_rao(A_indices, A, B_indices, B)` for dense in-core operands; `z` is the
content of the fresh memory of the result. -/
def khatriRao (z : Nat → R) (check : Bool) (Al : List L) (A : Operand R) (Bl : List L) (B : Operand R) : Outcome (Strided R) :=
  let common := intersect Al Bl
  let aOnly := difference Al common
  let bOnly := difference Bl common
  let aCommonDims := dimsFor A.t.dims (findTypeWithPosition common Al)
  let bCommonDims := dimsFor B.t.dims (findTypeWithPosition common Bl)
  if (aCommonDims.zip bCommonDims).any fun p => decide (p.1 ≠ p.2) then
    .error "Common dimensions for index of A and B do not match."
  else
    let dims := dimsFor A.t.dims (findTypeWithPosition aOnly Al) ++
      dimsFor B.t.dims (findTypeWithPosition bOnly Bl) ++ aCommonDims
    einsum false check 0 (aOnly ++ bOnly ++ common) ⟨Strided.mk' z dims, false, true⟩ 1
      (aOnly ++ common) A (bOnly ++ common) B >>= fun result =>
    reshape result [.auto, .n (productDims (findTypeWithPosition common Al) A.t)]

end algebra
end Einsums.Model
