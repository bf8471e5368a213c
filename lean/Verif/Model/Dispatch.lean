import Verif.Model.Einsum
import Verif.Model.LinearAlgebra
/-
Model of src/include/einsums/tensor_algebra_backends/Dispatch.hpp, `detail::einsum` 40–507: the choice of
algorithm from the labels, the run-time dimension check, and the calls into the linear algebra layer.
Simplifications: in-core dense operands of one element type (mixed types and block/tiled tensors take
other branches); `C` shares no storage with `A` or `B`; the generic algorithm runs its iterations in
order (C18 shows that the order does not matter).
-/
namespace Einsums.Model

section positions
variable {L : Type} [DecidableEq L]

/-- _TensorAlgebraUtilities.hpp 214–217, 244–251: `contiguous_positions`: each position is one more than
the one before. -/
def contiguousPositions : List (L × Nat) → Bool
  | p :: q :: ps => decide (p.2 + 1 = q.2) && contiguousPositions (q :: ps)
  | _ => true

/-- _TensorAlgebraUtilities.hpp 253–269: `is_same_ordering`. -/
def isSameOrdering (x y : List (L × Nat)) : Bool :=
  if x.length = 0 ∨ y.length = 0 then false
  else if x.length ≠ y.length then false
  else decide (x.map (·.1) = y.map (·.1))

/-- _TensorAlgebraUtilities.hpp 271–274, 286–289: `product_dims`. -/
def productDims (ps : List (L × Nat)) (X : Strided α) : Nat := ps.foldr (fun p acc => X.dim p.2 * acc) 1

/-- _TensorAlgebraUtilities.hpp 308–311: `last_stride`. The list is not empty where it is used (otherwise
`std::get` would not compile). -/
def lastStride (ps : List (L × Nat)) (X : Strided α) : Nat :=
  match ps.getLast? with
  | some p => X.stride p.2
  | none => 0

/-- Dispatch.hpp 95–110: `std::get<1>(positions)`: the first position (an empty tuple would not compile). -/
def firstPos : List (L × Nat) → Nat
  | p :: _ => p.2
  | [] => 0

/-- Dispatch.hpp 89: `link_unique`. -/
def linkUnique (Al Bl Cl : List L) : List L := unique (links Al Bl Cl)

/-- Dispatch.hpp 91–93: `A_hadamard_found` etc.: a label occurs twice. -/
def hadamard (ls : List L) : Bool := decide (ls.length ≠ (unique ls).length)

/-- Dispatch.hpp 91–93: No operand repeats a label. -/
def noHadamard (Al Bl Cl : List L) : Bool := !hadamard Al && !hadamard Bl && !hadamard Cl

/-- Dispatch.hpp 95–96: `link_position_in_A`, `link_position_in_B`. -/
def linkPosA (Al Bl Cl : List L) := findTypeWithPosition (linkUnique Al Bl Cl) Al
/-- Dispatch.hpp 96: `link_position_in_B`. -/
def linkPosB (Al Bl Cl : List L) := findTypeWithPosition (linkUnique Al Bl Cl) Bl

/-- Dispatch.hpp 99–100: `target_position_in_A`, `target_position_in_B`. -/
def targetPos (Cl Xl : List L) := findTypeWithPosition (unique Cl) Xl

/-- Dispatch.hpp 103–104: `A_target_position_in_C`, `B_target_position_in_C`. -/
def posInC (Xl Cl : List L) := findTypeWithPosition Xl Cl

/-- Dispatch.hpp 129–133: `is_gemm_possible`. -/
def isGemmPossible (Al Bl Cl : List L) : Bool :=
  decide ((difference Cl Al).length ≠ 0) && decide ((difference Cl Bl).length ≠ 0) &&
  contiguousPositions (linkPosA Al Bl Cl) && contiguousPositions (linkPosB Al Bl Cl) &&
  contiguousPositions (targetPos Cl Al) && contiguousPositions (targetPos Cl Bl) &&
  contiguousPositions (posInC Al Cl) && contiguousPositions (posInC Bl Cl) &&
  isSameOrdering (linkPosA Al Bl Cl) (linkPosB Al Bl Cl) &&
  isSameOrdering (targetPos Cl Al) (posInC Al Cl) &&
  isSameOrdering (targetPos Cl Bl) (posInC Bl Cl) && noHadamard Al Bl Cl

/-- Dispatch.hpp 134–137: `is_gemv_normal_possible`. -/
def isGemvNormalPossible (Al Bl Cl : List L) : Bool :=
  contiguousPositions (linkPosA Al Bl Cl) && contiguousPositions (linkPosB Al Bl Cl) &&
  contiguousPositions (targetPos Cl Al) &&
  isSameOrdering (linkPosA Al Bl Cl) (linkPosB Al Bl Cl) &&
  isSameOrdering (targetPos Cl Al) (posInC Al Cl) &&
  !isSameOrdering (targetPos Cl Bl) (posInC Bl Cl) &&
  decide ((posInC Bl Cl).length = 0) && noHadamard Al Bl Cl

/-- Dispatch.hpp 138–141: `is_gemv_swap_possible`. -/
def isGemvSwapPossible (Al Bl Cl : List L) : Bool :=
  contiguousPositions (linkPosA Al Bl Cl) && contiguousPositions (linkPosB Al Bl Cl) &&
  contiguousPositions (targetPos Cl Bl) &&
  isSameOrdering (linkPosA Al Bl Cl) (linkPosB Al Bl Cl) &&
  isSameOrdering (targetPos Cl Al) (posInC Al Cl) &&
  !isSameOrdering (targetPos Cl Bl) (posInC Bl Cl) &&
  decide ((posInC Al Cl).length = 0) && noHadamard Al Bl Cl

/-- Dispatch.hpp 123–127, 144–145: `element_wise_multiplication` (`same_indices` compares the tuples). -/
def isElementWise (Al Bl Cl : List L) : Bool :=
  decide (Cl = Al) && decide (Cl = Bl) && noHadamard Al Bl Cl

/-- Dispatch.hpp 127, 146–147: `dot_product`. -/
def isDotProduct (Al Bl Cl : List L) : Bool :=
  decide (Cl.length = 0) && decide (Al = Bl) && noHadamard Al Bl Cl

/-- Dispatch.hpp 149–150: `outer_product`. -/
def isOuterProduct (Al Bl Cl : List L) : Bool :=
  decide ((intersect Al Bl).length = 0) && contiguousPositions (targetPos Cl Al) &&
  contiguousPositions (targetPos Cl Bl) && noHadamard Al Bl Cl

/-- Dispatch.hpp 212–489: The algorithms of Dispatch.hpp. -/
inductive Path where
  | dot | elementWise | outer | gemvNormal | gemvSwap | gemm | generic
  deriving DecidableEq, Repr

/-- Dispatch.hpp 212–489: the `if constexpr` chain.  A scalar `C` (`Cl = []`) is not a basic tensor. -/
def choosePath (onlyGeneric : Bool) (Al Bl Cl : List L) : Path :=
  if isDotProduct Al Bl Cl then .dot
  else if isElementWise Al Bl Cl then .elementWise
  else if Cl.length = 0 then .generic
  else if isOuterProduct Al Bl Cl then .outer
  else if onlyGeneric then .generic
  else if isGemvNormalPossible Al Bl Cl then .gemvNormal
  else if isGemvSwapPossible Al Bl Cl then .gemvSwap
  else if 2 ≤ Cl.length ∧ 2 ≤ Al.length ∧ 2 ≤ Bl.length ∧ isGemmPossible Al Bl Cl then .gemm
  else .generic

/-- Dispatch.hpp 153–209 (`EINSUMS_RUNTIME_INDICES_CHECK`): some pair of equal letters of two operands
with different dimensions. -/
def dimsClash (Xl : List L) (X : List Nat) (Yl : List L) (Y : List Nat) : Bool :=
  (List.range Xl.length).any fun a => (List.range Yl.length).any fun b =>
    decide (Xl[a]? = Yl[b]?) && decide (X.getD a 0 ≠ Y.getD b 0)

/-- Dispatch.hpp 153–209: `runtime_indices_abort`. -/
def runtimeAbort (Al Bl Cl : List L) (A B C : List Nat) : Bool :=
  dimsClash Al A Bl B || dimsClash Al A Cl C || dimsClash Bl B Cl C

end positions

/-- An in-core operand: `Tensor` (`isView = false`, `full = true`) or `TensorView`; `full` is
`full_view_of_underlying()` (Tensor.hpp 923, 1058–1098, 1322). -/
structure Operand (R : Type) where
  t : Strided R
  isView : Bool
  full : Bool

section
variable {L : Type} [DecidableEq L] {R : Type} [Add R] [Mul R] [Zero R] [One R] [BEq R] [Div R]

/-- Tensor.hpp 1021–1050, 1348–1430: `TensorView{X, dims, strides}` with explicit strides and no offsets. -/
def Strided.viewAs (t : Strided R) (dims strides : List Nat) : Strided R :=
  { data := t.data, off := t.off, dims := dims, strides := strides }

/-- Tensor.hpp 1348–1430: `TensorView{X, dims}` without strides: the strides of `X` if the ranks agree,
row-major strides if the element counts agree, otherwise an exception.  (The counts are compared as
`double`; taken as exact here.) -/
def Strided.viewDims (t : Strided R) (dims : List Nat) : Outcome (Strided R) :=
  if dims.length > t.dims.length then .error "static_assert: rank"
  else if dims.length = t.dims.length then .ok (t.viewAs dims t.strides)
  else if dims.foldl (· * ·) 1 = t.dims.foldl (· * ·) 1 then .ok (t.viewAs dims (transformStrides dims))
  else .error "Unable to automatically deduce stride information. Stride must be passed in."

/-- Tensor.hpp 913–918 and 1304–1320: `to_rank_1_view()` of a tensor or a view. -/
def Operand.toRank1 (X : Operand R) : Outcome (Strided R) :=
  if X.isView then X.t.viewToRank1 else .ok X.t.toRank1

/-- BaseLinearAlgebra.hpp 147–191: `dot(A, B)`. -/
def dotOp (A B : Operand R) : Outcome R :=
  if A.t.dims.length = 1 then dotVec A.t B.t
  else if A.full && B.full then dotFull A.t B.t
  else dotStrided A.t B.t

/-- Dispatch.hpp 230–272: the outer-product branch.  An exception of `ger` is caught
(`std::runtime_error`), the scaling is undone unless the factor is zero, and the generic algorithm runs. -/
def einsumOuter (cp : R) (Cl : List L) (C : Strided R) (ab : R) (Al : List L) (A : Operand R)
    (Bl : List L) (B : Operand R) : Outcome (Strided R) :=
  if !A.full || !B.full then einsumGeneric cp Cl C ab Al A.t Bl B.t
  else
    let swapAB := firstPos (posInC Al Cl) ≠ 0
    let dA := productDims (posInC Al Cl) C
    let dB := productDims (posInC Bl Cl) C
    let dC := if swapAB then [dB, dA] else [dA, dB]
    C.viewDims dC >>= fun tC =>
    (if cp == 1 then .ok C else scale cp C) >>= fun C1 =>
    A.toRank1 >>= fun a => B.toRank1 >>= fun b =>
    match (if swapAB then ger ab b a { tC with data := C1.data } else ger ab a b { tC with data := C1.data }) with
    | .ok r => .ok { C1 with data := r.data }
    | .ub w => .ub w
    | .error _ =>
        (if cp == 0 then .ok C1 else scale (1 / cp) C1) >>= fun C2 =>
        einsumGeneric cp Cl C2 ab Al A.t Bl B.t

/-- Dispatch.hpp 276–338: the gemv branch, `A` the matrix. -/
def einsumGemvNormal (cp : R) (Cl : List L) (C : Strided R) (ab : R) (Al : List L) (A : Strided R)
    (Bl : List L) (B : Strided R) : Outcome (Strided R) :=
  let transA := firstPos (linkPosA Al Bl Cl) = 0
  let d0 := productDims (posInC Al Cl) C
  let d1 := productDims (linkPosA Al Bl Cl) A
  let s0 := lastStride (targetPos Cl Al) A
  let s1 := lastStride (linkPosA Al Bl Cl) A
  let tA := if transA then A.viewAs [d1, d0] [s1, s0] else A.viewAs [d0, d1] [s0, s1]
  let tB := B.viewAs [productDims (linkPosB Al Bl Cl) B] [lastStride (linkPosB Al Bl Cl) B]
  let tC := C.viewAs [productDims (posInC Al Cl) C] [lastStride (posInC Al Cl) C]
  gemv (decide transA) ab tA tB cp tC >>= fun r => .ok { C with data := r.data }

/-- Dispatch.hpp 339–385: the gemv branch, `B` the matrix. -/
def einsumGemvSwap (cp : R) (Cl : List L) (C : Strided R) (ab : R) (Al : List L) (A : Strided R)
    (Bl : List L) (B : Strided R) : Outcome (Strided R) :=
  let transB := firstPos (linkPosB Al Bl Cl) = 0
  let d0 := productDims (posInC Bl Cl) C
  let d1 := productDims (linkPosB Al Bl Cl) B
  let s0 := lastStride (targetPos Cl Bl) B
  let s1 := lastStride (linkPosB Al Bl Cl) B
  let tB := if transB then B.viewAs [d1, d0] [s1, s0] else B.viewAs [d0, d1] [s0, s1]
  let tA := A.viewAs [productDims (linkPosA Al Bl Cl) A] [lastStride (linkPosA Al Bl Cl) A]
  let tC := C.viewAs [productDims (posInC Bl Cl) C] [lastStride (posInC Bl Cl) C]
  gemv (decide transB) ab tB tA cp tC >>= fun r => .ok { C with data := r.data }

/-- Dispatch.hpp 391–486: the gemm branch with its eight transposition cases. -/
def einsumGemm (cp : R) (Cl : List L) (C : Strided R) (ab : R) (Al : List L) (A : Strided R)
    (Bl : List L) (B : Strided R) : Outcome (Strided R) :=
  let transA := decide (firstPos (linkPosA Al Bl Cl) = 0)
  let transB := decide (firstPos (linkPosB Al Bl Cl) ≠ 0)
  let transC := decide (firstPos (posInC Al Cl) ≠ 0)
  let dA0 := productDims (posInC Al Cl) C
  let dA1 := productDims (linkPosA Al Bl Cl) A
  let sA0 := lastStride (targetPos Cl Al) A
  let sA1 := lastStride (linkPosA Al Bl Cl) A
  let tA := if transA then A.viewAs [dA1, dA0] [sA1, sA0] else A.viewAs [dA0, dA1] [sA0, sA1]
  let dB0 := productDims (linkPosB Al Bl Cl) B
  let dB1 := productDims (posInC Bl Cl) C
  let sB0 := lastStride (linkPosB Al Bl Cl) B
  let sB1 := lastStride (targetPos Cl Bl) B
  let tB := if transB then B.viewAs [dB1, dB0] [sB1, sB0] else B.viewAs [dB0, dB1] [sB0, sB1]
  let dC0 := productDims (posInC Al Cl) C
  let dC1 := productDims (posInC Bl Cl) C
  let sC0 := lastStride (posInC Al Cl) C
  let sC1 := lastStride (posInC Bl Cl) C
  let tC := if transC then C.viewAs [dC1, dC0] [sC1, sC0] else C.viewAs [dC0, dC1] [sC0, sC1]
  let r :=
    if !transC && !transA && !transB then gemm false false ab tA tB cp tC
    else if !transC && !transA then gemm false true ab tA tB cp tC
    else if !transC && !transB then gemm true false ab tA tB cp tC
    else if !transC then gemm true true ab tA tB cp tC
    else if !transA && !transB then gemm true true ab tB tA cp tC
    else if !transA && transB then gemm false true ab tB tA cp tC
    else if transA && !transB then gemm true false ab tB tA cp tC
    else gemm false false ab tB tA cp tC
  r >>= fun r => .ok { C with data := r.data }

/-- Dispatch.hpp 40–507: `detail::einsum<OnlyUseGenericAlgorithm>` with a tensor `C` (`Cl ≠ []`); `check` is
`EINSUMS_RUNTIME_INDICES_CHECK`.  The generic algorithm is instantiated on every path, so its
`static_assert` on the labels applies always. -/
def einsum (onlyGeneric check : Bool) (cp : R) (Cl : List L) (C : Operand R) (ab : R) (Al : List L)
    (A : Operand R) (Bl : List L) (B : Operand R) : Outcome (Strided R) :=
  if labelsOk (unique Cl) (linkUnique Al Bl Cl) Al Bl = false then .error "static_assert"
  else if check && runtimeAbort Al Bl Cl A.t.dims B.t.dims C.t.dims then
    .error "Inconsistent dimensions found!"
  else
    let generic := einsumGeneric cp Cl C.t ab Al A.t Bl B.t
    match choosePath onlyGeneric Al Bl Cl with
    | .dot => .error "scalar result: see einsumScalar"
    | .elementWise => if C.isView then .error "does not compile: zero()" else directProduct ab A.t B.t cp C.t
    | .outer => einsumOuter cp Cl C.t ab Al A Bl B
    | .gemvNormal =>
        if !C.full || !A.full || !B.full then generic else einsumGemvNormal cp Cl C.t ab Al A.t Bl B.t
    | .gemvSwap =>
        if !C.full || !A.full || !B.full then generic else einsumGemvSwap cp Cl C.t ab Al A.t Bl B.t
    | .gemm =>
        if !C.full || !A.full || !B.full then generic else einsumGemm cp Cl C.t ab Al A.t Bl B.t
    | .generic => generic

/-- Dispatch.hpp 40–507 with a scalar `C`: the dot product (217–223) or the generic algorithm. -/
def einsumScalar (check : Bool) (cp : R) (c : R) (ab : R) (Al : List L) (A : Operand R) (Bl : List L)
    (B : Operand R) : Outcome R :=
  if labelsOk [] (linkUnique Al Bl []) Al Bl = false then .error "static_assert"
  else if check && runtimeAbort Al Bl [] A.t.dims B.t.dims [] then .error "Inconsistent dimensions found!"
  else if isDotProduct Al Bl [] then
    dotOp A B >>= fun temp => .ok (c * cp + ab * temp)
  else einsumGenericScalar cp c ab Al A.t Bl B.t

end
end Einsums.Model
