import Verif.Model.Dispatch
/-
Model of the builds of einsum that test their results: Dispatch.hpp 545–580, 651–762 (`EINSUMS_CONTINUOUSLY_TEST_EINSUM`, with
or without `EINSUMS_TEST_EINSUM_ABORT`) and 585–649 (`EINSUMS_TEST_NANS`), for tensors on the host, without Catch2.
Simplifications: what is printed for an element is its index; `isNan`, `isInf`, `large` and `far` (`abs(x - y) > 1e-6`) are
functions, which are false of NaN when they compare numbers.
-/
namespace Einsums.Model

section
variable {R : Type}

/-- Dispatch.hpp 658–725: the loop over the elements of `C` and `testC`; `flag` is `print_info_and_abort`, `reported` the
elements printed so far.  The second result says whether the program was aborted. -/
def selfCheckLoop (isNan : R → Bool) (far : R → R → Bool) (complex abort : Bool) (C test : Strided R) :
    List (List Nat) → Bool → List (List Nat) → Outcome (List (List Nat) × Bool)
  | [], _, reported => .ok (reported, false)
  | i :: is, flag, reported => do
      let c ← C.read (toIdx i)
      let t ← test.read (toIdx i)
      let flag := flag || (!complex && (isNan c || isNan t)) || far c t
      if flag then
        if abort then return (reported ++ [i], true) else selfCheckLoop isNan far complex abort C test is flag (reported ++ [i])
      else selfCheckLoop isNan far complex abort C test is flag reported

/-- Dispatch.hpp 651–725: the test of a result that is a tensor. -/
def selfCheck (isNan : R → Bool) (far : R → R → Bool) (complex abort : Bool) (C test : Strided R) :
    Outcome (List (List Nat) × Bool) :=
  selfCheckLoop isNan far complex abort C test (cartesian C.dims) false []

/-- Dispatch.hpp 726–731: the test of a result that is a number: whether an error is printed. -/
def selfCheckScalar (far : R → R → Bool) (c test : R) : Bool := far c test

/-- Dispatch.hpp 588–647: the tests for NaN, infinity and large numbers; the loop leaves by an exception. -/
def nanCheck (isNan isInf large : R → Bool) (complex : Bool) (C : Strided R) : List (List Nat) → Outcome Unit
  | [] => .ok ()
  | i :: is => do
      let c ← C.read (toIdx i)
      if !complex && isNan c then .error "NAN detected in resulting tensor."
      else if !complex && isInf c then .error "Infinity detected in resulting tensor."
      else if !complex && large c then .error "Large value detected in resulting tensor."
      else nanCheck isNan isInf large complex C is

end

section
variable {L : Type} [DecidableEq L]
variable {R : Type} [Add R] [Mul R] [Zero R] [One R] [BEq R] [Div R]

/-- Dispatch.hpp 546–548: `Tensor<CDataType, CRank>(*C)`, the copy of `C` for the reference result; `z` is what new memory
holds. -/
def referenceTarget (z : Nat → R) (C : Operand R) : Outcome (Operand R) :=
  if C.isView then do
    let t ← Strided.ofView z C.t
    return ⟨t, false, true⟩
  else .ok C

/-- Dispatch.hpp 547, 574, 583 with 651–725: `einsum` in a build with `EINSUMS_CONTINUOUSLY_TEST_EINSUM`: the result, the
elements that are reported, and whether the program is aborted. -/
def einsumTested (isNan : R → Bool) (far : R → R → Bool) (complex abort check : Bool) (z : Nat → R) (cp : R) (Cl : List L)
    (C : Operand R) (ab : R) (Al : List L) (A : Operand R) (Bl : List L) (B : Operand R) :
    Outcome (Strided R × List (List Nat) × Bool) := do
  let testC ← referenceTarget z C
  let test ← einsum true check cp Cl testC ab Al A Bl B
  let C' ← einsum false check cp Cl C ab Al A Bl B
  let r ← selfCheck isNan far complex abort C' test
  return (C', r.1, r.2)

/-- Dispatch.hpp 547, 574, 583 with 726–760: the same for a result without indices, `c` before the call: the result, whether an
error is printed, and whether the program is aborted.  `OnlyUseGenericAlgorithm` (Dispatch.hpp 217–229) makes no difference
for such a result. -/
def einsumTestedScalar (far : R → R → Bool) (abort check : Bool) (cp c ab : R) (Al : List L) (A : Operand R) (Bl : List L)
    (B : Operand R) : Outcome (R × Bool × Bool) := do
  let test ← einsumScalar check cp c ab Al A Bl B
  let c' ← einsumScalar check cp c ab Al A Bl B
  let wrong := selfCheckScalar far c' test
  return (c', wrong, wrong && abort)

end
end Einsums.Model
