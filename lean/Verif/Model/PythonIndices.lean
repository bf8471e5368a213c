import Verif.Model.Outcome
/-
Model of the Python class `TensorIndices` in einsums/utils.py (lines 22–73).
-/
namespace Einsums.Model

/-- utils.py 31–47: the attributes of a `TensorIndices`. -/
structure TensorIndices where
  curr : Int
  strides : List Nat
  reverse : Bool
  size : Nat
  deriving Repr, DecidableEq

/-- utils.py 30–41: the constructor from a tensor with the dimensions `dims`.  The loop runs from the last dimension to the
first.  The keyword argument is looked up as an attribute of a dictionary, which does not exist. -/
def TensorIndices.init (dims : List Nat) (reverseArg : Option Bool) : Outcome TensorIndices :=
  match reverseArg with
  | some _ => .error "AttributeError"
  | none =>
    let s := dims.foldr (fun (d : Nat) (s : List Nat × Nat) => (s.2 :: s.1, s.2 * d)) ([], 1)
    .ok ⟨0, s.1, false, s.2⟩

/-- utils.py 51–54: `__reversed__`, with the copy of lines 42–46. -/
def TensorIndices.reversed (t : TensorIndices) : TensorIndices := { t with reverse := !t.reverse }

/-- utils.py 60–65: the loop with `divmod`. -/
def divmodLoop : List Nat → Nat → Outcome (List Nat)
  | [], _ => .ok []
  | s :: ss, hold =>
    if s = 0 then .error "ZeroDivisionError"
    else do
      let out ← divmodLoop ss (hold % s)
      return hold / s :: out

/-- utils.py 56–72: `__next__`. -/
def TensorIndices.next (t : TensorIndices) : Outcome (List Nat × TensorIndices) :=
  if t.curr < 0 ∨ (t.size : Int) ≤ t.curr then .error "StopIteration"
  else do
    let out ← divmodLoop t.strides t.curr.toNat
    return (out, { t with curr := if t.reverse then t.curr - 1 else t.curr + 1 })

/-- utils.py 56–72 (the using loop): A `for` loop over the iterator that stops after `n` items if the iterator does
not stop before. -/
def TensorIndices.collect : Nat → TensorIndices → Outcome (List (List Nat) × TensorIndices)
  | 0, t => .ok ([], t)
  | n + 1, t =>
    match t.next with
    | .ok (i, t') => do
      let r ← TensorIndices.collect n t'
      return (i :: r.1, r.2)
    | .error m => if m = "StopIteration" then .ok ([], t) else .error m
    | .ub m => .ub m

end Einsums.Model
