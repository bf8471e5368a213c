import Verif.Model.PythonIndices
import Verif.Model.PythonTensor
import Mathlib.Algebra.Ring.Defs
/-
Model of `create_tensor` and `create_random_tensor` in einsums/utils.py (lines 74–125), with the overloads of `__setitem__`
that they reach (PyTensor.hpp 1528–1537).

A function without arguments is the sequence of the values that its calls return: `f n` is the value of call number `n`.
Simplifications: parts of numbers are elements of a commutative ring (no NaN, no infinity), `rnd` is the rounding to the
precision of the tensor; the types of values are those listed in `PyType`.
Contracts: pybind11 tries all overloads without conversions first and then with them, each time in the order of their
definition; without conversions `double` takes instances of `float` and `std::complex` those of `complex`; the scalars of
NumPy have the buffer protocol; `np.float64` is a subclass of `float` and `np.complex128` one of `complex`; the types of
results of arithmetic are those of NumPy 2.
-/
namespace Einsums.Model

/-- utils.py 74–77: the types of numbers in the four lists, and `int`. -/
inductive PyType
  | int | float | f32 | f64 | complex | c64 | c128
  deriving Repr, DecidableEq

/-- utils.py 106, 114: a number that a function returns, with its type and its parts. -/
structure PyNum (R : Type) where
  type : PyType
  re : R
  im : R
  deriving Repr, DecidableEq

/-- utils.py 81–87: the four classes of tensors. -/
inductive ElemKind
  | F | D | C | Z
  deriving Repr, DecidableEq

/-- utils.py 79–88: the class that `create_tensor` chooses; `none` is any data type that is not in the lists. -/
def pyTensorKind (dtype : Option PyType) : Outcome ElemKind :=
  if dtype ∈ [some PyType.f32] then .ok .F
  else if dtype ∈ [some PyType.float, some PyType.f64] then .ok .D
  else if dtype ∈ [some PyType.c64] then .ok .C
  else if dtype ∈ [some PyType.complex, some PyType.c128] then .ok .Z
  else .error "Can not create tensor with data type"

/-- utils.py 101, 120: `dtype in __complex_singles or dtype in __complex_doubles`. -/
def inComplexLists (dtype : Option PyType) : Bool :=
  decide (dtype ∈ [some PyType.c64]) || decide (dtype ∈ [some PyType.complex, some PyType.c128])

/-- utils.py 97 (NumPy 2): the type of `a + 1j * b`. -/
def complexSumType (a b : PyType) : PyType :=
  if a ∈ [PyType.f64, .c128] ∨ b ∈ [PyType.f64, .c128] then .c128
  else if a ∈ [PyType.f32, .c64] ∨ b ∈ [PyType.f32, .c64] then .c64
  else .complex

/-- utils.py 97: `a + 1j * b`. -/
def complexSum {R : Type} [CommRing R] (a b : PyNum R) : PyNum R :=
  ⟨complexSumType a.type b.type, a.re - b.im, a.im + b.re⟩

/-- utils.py 117: `a.real`. -/
def pyReal {R : Type} [Zero R] (a : PyNum R) : PyNum R :=
  match a.type with
  | .complex => ⟨.float, a.re, 0⟩
  | .c64 => ⟨.f32, a.re, 0⟩
  | .c128 => ⟨.f64, a.re, 0⟩
  | t => ⟨t, a.re, 0⟩

/-- utils.py 97, 109: `complex_func`, called after `n` calls of the function: the value and the number of calls. -/
def pyComplexFunc {R : Type} [CommRing R] (f : Nat → PyNum R) (n : Nat) : PyNum R × Nat :=
  if inComplexLists (some (f 0).type) then (f n, n + 1) else (complexSum (f n) (f (n + 1)), n + 2)

/-- utils.py 98, 117: `real_func`. -/
def pyRealFunc {R : Type} [Zero R] (f : Nat → PyNum R) (n : Nat) : PyNum R × Nat :=
  if inComplexLists (some (f 0).type) then (pyReal (f n), n + 1) else (f n, n + 1)

/-- PyTensor.hpp 1528–1532: the number as an element; an element of a real tensor has the imaginary part 0. -/
def pyElem {R : Type} [Zero R] (cplx : Bool) (rnd : R → R) (x : PyNum R) : R × R :=
  if cplx then (rnd x.re, rnd x.im) else (rnd x.re, 0)

/-- PyTensor.hpp 1528–1537 with pybind11's choice of the overload: `t[args] = x` for a number `x`. -/
def pySetItem {R : Type} [Zero R] (cplx : Bool) (rnd : R → R) (v : RtView (R × R)) (args : List PyArg) (x : PyNum R) :
    Outcome (RtView (R × R)) :=
  if x.type ∈ (if cplx then [PyType.complex, .c128] else [PyType.float, .f64]) then
    pySetTuple v args (pyElem cplx rnd x) []
  else if x.type ∈ [PyType.f32, .f64, .c64, .c128] then
    pySetBuffer (some id) v args ⟨fun o => if o = 0 then some (pyElem cplx rnd x) else none, [], [], 8⟩ []
  else if x.type ∈ (if cplx then [PyType.int, .float] else [PyType.int]) then
    pySetTuple v args (pyElem cplx rnd x) []
  else .error "incompatible function arguments"

/-- utils.py 119–123: the body of the loop, with the number of calls so far. -/
def pyRandomStep {R : Type} [CommRing R] (cplx : Bool) (rnd : R → R) (f : Nat → PyNum R)
    (s : RtView (R × R) × Nat) (ind : List Nat) : Outcome (RtView (R × R) × Nat) := do
  let x := if cplx then pyComplexFunc f s.2 else pyRealFunc f s.2
  let v ← pySetItem cplx rnd s.1 ((toIdx ind).map .int) x.1
  return (v, x.2)

/-- utils.py 90–125: `create_random_tensor`: the class and the elements of the tensor, and how often the function was called.
`z` is the content of fresh memory. -/
def pyCreateRandom {R : Type} [CommRing R] (rnd : ElemKind → R → R) (z : Nat → R × R) (dims : List Nat)
    (dtype : Option PyType) (f : Nat → PyNum R) : Outcome (ElemKind × RtView (R × R) × Nat) := do
  let k ← pyTensorKind dtype
  let it ← TensorIndices.init dims none
  let inds ← it.collect (it.size + 1)
  let r ← inds.1.foldlM (pyRandomStep (inComplexLists dtype) (rnd k) f) (rtvWhole (rtNew z dims) (rtNew z dims).data.length, 1)
  return (k, r.1, r.2)

end Einsums.Model
