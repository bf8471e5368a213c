import Verif.Model.Tensor
/-
Model of src/include/einsums/ArithmeticTensor.hpp: lazily evaluated element-wise expressions.  An expression object holds
scalars by value and pointers to tensors and to the tuples inside other expression objects; objects are numbered in the
order of their creation, and the store remembers which of them are still alive.
Arithmetic on elements is that of the operations of `R`; element types are equal in one expression (others do not compile).
Tensors are assumed to outlive the expressions.
-/
namespace Einsums.Model

/-- ArithmeticTensor.hpp 22–43: the tags of the operations. -/
inductive ArithTag
  | add | sub | mul | div
  deriving Repr, DecidableEq

/-- What an entry of a tuple may be (ArithmeticTensor.hpp 120–175): a scalar, a pointer to a tensor, a pointer to the tuple of
another expression object. -/
inductive ArithRef (R : Type)
  | scalar (v : R)
  | tensor (t : Nat)
  | expr (k : Nat)
  deriving Repr, DecidableEq

/-- ArithmeticTensor.hpp 92–97: `std::tuple<Op, Left, Right>` and `std::tuple<SubtractionOp, Operand>`. -/
inductive ArithTuple (R : Type)
  | bin (op : ArithTag) (l r : ArithRef R)
  | neg (x : ArithRef R)
  deriving Repr, DecidableEq

/-- ArithmeticTensor.hpp 92–97: members `_tuple` and `_dims`. -/
structure ArithObj (R : Type) where
  tuple : ArithTuple R
  dims : List Nat
  deriving Repr, DecidableEq

/-- ArithmeticTensor.hpp 94–121 (the program state is a modelling device): The tensors and the expression objects
of a program; a destroyed object is `none`. -/
structure ArithState (R : Type) where
  tensors : List (Strided R)
  objs : List (Option (ArithObj R))
  deriving Repr, DecidableEq

section
variable {R : Type} [Add R] [Sub R] [Mul R] [Div R] [Neg R]

/-- ArithmeticTensor.hpp 64–74: the `if constexpr` over the tags. -/
def ArithTag.apply : ArithTag → R → R → R
  | .add, a, b => a + b
  | .sub, a, b => a - b
  | .mul, a, b => a * b
  | .div, a, b => a / b

/-- ArithmeticTensor.hpp 50–80: the overloads of `compute_arithmetic`.  The depth of the recursion is fixed by the type of the
expression; here it is bounded by `n`. -/
def computeArith (st : ArithState R) (idx : List Int) : Nat → ArithRef R → Outcome R
  | _, .scalar v => .ok v
  | _, .tensor t =>
    match st.tensors[t]? with
    | some T => T.read idx
    | none => .ub "dangling pointer to a tensor"
  | 0, .expr _ => .ub "expression type of infinite depth"
  | n + 1, .expr k =>
    match st.objs[k]? with
    | some (some ⟨.bin op l r, _⟩) => do
      let a ← computeArith st idx n l
      let b ← computeArith st idx n r
      return op.apply a b
    | some (some ⟨.neg x, _⟩) => do
      let a ← computeArith st idx n x
      return -a
    | _ => .ub "dangling pointer to an expression"

/-- ArithmeticTensor.hpp 103–106: `operator()`. -/
def ArithState.read (st : ArithState R) (k : Nat) (idx : List Int) : Outcome R := computeArith st idx (k + 1) (.expr k)

end

section
variable {R : Type}

/-- ArithmeticTensor.hpp 113, 124–196: `left.dims()` of an operand; a scalar has none. -/
def ArithState.refDims (st : ArithState R) : ArithRef R → Outcome (Option (List Nat))
  | .scalar _ => .ok none
  | .tensor t =>
    match st.tensors[t]? with
    | some T => .ok (some T.dims)
    | none => .ub "dangling pointer to a tensor"
  | .expr k =>
    match st.objs[k]? with
    | some (some o) => .ok (some o.dims)
    | _ => .ub "dangling reference to an expression"

/-- ArithmeticTensor.hpp 120–196 (steps of a using program): One step of a program that uses expressions. -/
inductive ArithStep (R : Type)
  | bin (op : ArithTag) (l r : ArithRef R)
  | neg (x : ArithRef R)
  | copy (k : Nat)
  | destroy (k : Nat)
  | write (t : Nat) (idx : List Int) (v : R)
  deriving Repr, DecidableEq

/-- ArithmeticTensor.hpp 120–196: the operators, the implicit copy constructor and destructor, and a write to a tensor.  Two
scalars have no such operator.  (Unary minus of a temporary expression, 175–180, does not compile.) -/
def ArithState.step (st : ArithState R) : ArithStep R → Outcome (ArithState R)
  | .bin op l r => do
    let dl ← st.refDims l
    let dr ← st.refDims r
    match dl, dr with
    | some d, _ => return { st with objs := st.objs ++ [some ⟨.bin op l r, d⟩] }
    | none, some d => return { st with objs := st.objs ++ [some ⟨.bin op l r, d⟩] }
    | none, none => .error "no such operator"
  | .neg x => do
    match (← st.refDims x) with
    | some d => return { st with objs := st.objs ++ [some ⟨.neg x, d⟩] }
    | none => .error "no such operator"
  | .copy k =>
    match st.objs[k]? with
    | some (some o) => .ok { st with objs := st.objs ++ [some o] }
    | _ => .ub "copy of a destroyed expression"
  | .destroy k =>
    match st.objs[k]? with
    | some (some _) => .ok { st with objs := st.objs.set k none }
    | _ => .ub "expression destroyed twice"
  | .write t idx v =>
    match st.tensors[t]? with
    | some T => do
      let T' ← T.write idx v
      return { st with tensors := st.tensors.set t T' }
    | none => .ub "no such tensor"

/-- ArithmeticTensor.hpp 120–196 (a using program): A whole program. -/
def ArithState.run (st : ArithState R) (p : List (ArithStep R)) : Outcome (ArithState R) := p.foldlM ArithState.step st

end
end Einsums.Model
