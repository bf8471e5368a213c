import Verif.Model.Tensor
/-
Model of the compile-time label computations and of `einsum_generic_algorithm`.
Labels are an arbitrary type `L` with decidable equality: a C++ tuple of index types is a list of
labels.  Element types have `+`, `*`, `0` and a Boolean `==`, with no laws assumed in the model.
Simplification: all three tensors have the same element type (the code also mixes types).
-/
namespace Einsums.Model

section labels
variable {L : Type} [DecidableEq L]

/-- STL.hpp 231–243: `intersect_t`: elements of the first list that occur in the second. -/
def intersect (s1 s2 : List L) : List L := s1.filter (· ∈ s2)

/-- STL.hpp 245–257: `difference_t`. -/
def difference (s1 s2 : List L) : List L := s1.filter (· ∉ s2)

/-- STL.hpp 273–286: `filter<Out, In>`. -/
def uniqueAux : List L → List L → List L
  | out, [] => out
  | out, x :: xs => if x ∈ out then uniqueAux out xs else uniqueAux (out ++ [x]) xs

/-- STL.hpp 289: `unique_t`. -/
def unique (xs : List L) : List L := uniqueAux [] xs

/-- _TensorAlgebraUtilities.hpp 38–50: `_find_type_with_position<T, Position, ...>`: every position of
label `l`, counting from `p`. -/
def positionsOf (l : L) : Nat → List L → List (L × Nat)
  | _, [] => []
  | p, x :: xs => if x = l then (l, p) :: positionsOf l (p + 1) xs else positionsOf l (p + 1) xs

/-- _TensorAlgebraUtilities.hpp 101–109: `find_type_with_position`. -/
def findTypeWithPosition (ts us : List L) : List (L × Nat) := ts.flatMap fun l => positionsOf l 0 us

/-- _TensorAlgebraUtilities.hpp 52–64: first position only. -/
def firstPositionOf (l : L) : Nat → List L → List (L × Nat)
  | _, [] => []
  | p, x :: xs => if x = l then [(l, p)] else firstPositionOf l (p + 1) xs

/-- _TensorAlgebraUtilities.hpp 111–119: `unique_find_type_with_position`. -/
def uniqueFindTypeWithPosition (ts us : List L) : List (L × Nat) :=
  ts.flatMap fun l => firstPositionOf l 0 us

/-- _TensorAlgebraUtilities.hpp 77–95: `find_position`, `none` for −1. -/
def findPosition (l : L) : Nat → List L → Option Nat
  | _, [] => none
  | p, x :: xs => if x = l then some p else findPosition l (p + 1) xs

/-- _TensorAlgebraUtilities.hpp 67–70: `get_dim_ranges_for`: the dimensions at the listed positions.
(A missing position cannot occur: positions come from the label list, whose length is the rank.) -/
def dimsFor (dims : List Nat) (ps : List (L × Nat)) : List Nat := ps.map fun p => dims.getD p.2 0

/-- _TensorAlgebraUtilities.hpp 167–191: `construct_index_from_unique_target_combination`.  Indexing a
combination past its end cannot happen in C++ (`std::get` is checked at compile time). -/
def constructIndex (Cu : List L) (tc : List Nat) (Lu : List L) (lc : List Nat) (l : L) : Outcome Nat :=
  match findPosition l 0 Cu with
  | some k => match tc[k]? with
    | some v => .ok v
    | none => .error "std::get: does not compile"
  | none => match findPosition l 0 Lu with
    | some k => match lc[k]? with
      | some v => .ok v
      | none => .error "std::get: does not compile"
    | none => .error "static_assert: Looks like the indices in your einsum are not quite right! :("

/-- _TensorAlgebraUtilities.hpp 192–204: `construct_indices_from_unique_combination`. -/
def constructIndices (Cu : List L) (tc : List Nat) (Lu : List L) (lc : List Nat) :
    List L → Outcome (List Nat)
  | [] => .ok []
  | l :: ls => do
      let i ← constructIndex Cu tc Lu lc l
      let is ← constructIndices Cu tc Lu lc ls
      return i :: is

/-- Dispatch.hpp 66–68: `links`. -/
def links (Al Bl Cl : List L) : List L := difference (intersect Al Bl) Cl

end labels

section generic
variable {L : Type} [DecidableEq L] {R : Type} [Add R] [Mul R] [Zero R] [BEq R]

/-- GenericAlgorithm.hpp 75–89 (and 44–58): the loop over link combinations, accumulating `sum`. -/
def linkLoop (ab : R) (Cu : List L) (tc : List Nat) (Lu Al Bl : List L) (A B : Strided R) :
    List (List Nat) → R → Outcome R
  | [], sum => .ok sum
  | lc :: lcs, sum => do
      let ia ← constructIndices Cu tc Lu lc Al
      let ib ← constructIndices Cu tc Lu lc Bl
      let a ← A.read (toIdx ia)
      let b ← B.read (toIdx ib)
      linkLoop ab Cu tc Lu Al Bl A B lcs (sum + ab * a * b)

/-- GenericAlgorithm.hpp 92–95: `if (C_prefactor == 0) target = 0; target *= C_prefactor; target += sum`. -/
def updateTarget (cp : R) (sum old : R) : R :=
  let t := if cp == 0 then 0 else old
  let t := t * cp
  t + sum

/-- GenericAlgorithm.hpp 75–89 and 113–124: the value accumulated for one target combination. Without
link indices there is a single term, not added to zero. -/
def targetSum (ab : R) (Cu : List L) (tc : List Nat) (Lu Al Bl : List L) (A B : Strided R)
    (linkDims : List Nat) : Outcome R :=
  if linkDims.length ≠ 0 then linkLoop ab Cu tc Lu Al Bl A B (cartesian linkDims) 0
  else do
    let ia ← constructIndices Cu tc [] [] Al
    let ib ← constructIndices Cu tc [] [] Bl
    let a ← A.read (toIdx ia)
    let b ← B.read (toIdx ib)
    return ab * a * b

/-- GenericAlgorithm.hpp 65–96 and 97–132: one iteration of the target loop. -/
def targetStep (cp ab : R) (Cu Lu Cl Al Bl : List L) (A B : Strided R) (linkDims : List Nat)
    (tc : List Nat) (C : Strided R) : Outcome (Strided R) := do
  let ic ← constructIndices Cu tc [] [] Cl
  let sum ← targetSum ab Cu tc Lu Al Bl A B linkDims
  let old ← C.read (toIdx ic)
  C.write (toIdx ic) (updateTarget cp sum old)

/-- GenericAlgorithm.hpp 65–132: The target loop (executed in the given order). -/
def targetLoop (cp ab : R) (Cu Lu Cl Al Bl : List L) (A B : Strided R) (linkDims : List Nat) :
    List (List Nat) → Strided R → Outcome (Strided R)
  | [], C => .ok C
  | tc :: tcs, C => do
      let C ← targetStep cp ab Cu Lu Cl Al Bl A B linkDims tc C
      targetLoop cp ab Cu Lu Cl Al Bl A B linkDims tcs C

/-- The `static_assert` of _TensorAlgebraUtilities.hpp 180: every label of A and B is in C or a link. -/
def labelsOk (Cu Lu Al Bl : List L) : Bool :=
  (Al ++ Bl).all fun l => decide (l ∈ Cu) || decide (l ∈ Lu)

/-- Dispatch.hpp 66–68, 86–89, 104–105, 483–490 and GenericAlgorithm.hpp 65–132:
`einsum` through the generic algorithm, for a tensor `C` of rank ≥ 1, iterations in order.
Simplification: `C` shares no storage with `A` or `B`. -/
def einsumGeneric (cp : R) (Cl : List L) (C : Strided R) (ab : R) (Al : List L) (A : Strided R)
    (Bl : List L) (B : Strided R) : Outcome (Strided R) :=
  let Cu := unique Cl
  let Lu := unique (links Al Bl Cl)
  if labelsOk Cu Lu Al Bl = false then .error "static_assert" else
  let targetDims := dimsFor C.dims (uniqueFindTypeWithPosition Cu Cl)
  let linkDims := dimsFor A.dims (findTypeWithPosition Lu Al)
  targetLoop cp ab Cu Lu Cl Al Bl A B linkDims (cartesian targetDims) C

/-- GenericAlgorithm.hpp 42–64: `einsum` through the generic algorithm for a scalar `C` and at least one
link label. -/
def einsumGenericScalar (cp : R) (c : R) (ab : R) (Al : List L) (A : Strided R)
    (Bl : List L) (B : Strided R) : Outcome R :=
  let Lu := unique (links Al Bl ([] : List L))
  if labelsOk [] Lu Al Bl = false then .error "static_assert" else
  let linkDims := dimsFor A.dims (findTypeWithPosition Lu Al)
  linkLoop ab [] [] Lu Al Bl A B (cartesian linkDims) 0 >>= fun sum => .ok (updateTarget cp sum c)

end generic
end Einsums.Model
