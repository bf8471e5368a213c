import Verif.Model.ArithmeticTensor
/-
Specification of lazy expressions: the expression each object stands for, and which objects it refers to.
-/
namespace Einsums.Spec
open Model

/-- An arithmetic expression over scalars and tensors. -/
inductive Formula (R : Type)
  | const (v : R)
  | tensor (t : Nat)
  | bin (op : ArithTag) (a b : Formula R)
  | neg (a : Formula R)
  deriving Repr, DecidableEq

/-- Value, given the element of each tensor. -/
def Formula.value {R : Type} [Add R] [Sub R] [Mul R] [Div R] [Neg R] (X : Nat → R) : Formula R → R
  | .const v => v
  | .tensor t => X t
  | .bin .add a b => a.value X + b.value X
  | .bin .sub a b => a.value X - b.value X
  | .bin .mul a b => a.value X * b.value X
  | .bin .div a b => a.value X / b.value X
  | .neg a => -a.value X

/-- The tensors of an expression. -/
def Formula.tensors {R : Type} : Formula R → List Nat
  | .const _ => []
  | .tensor t => [t]
  | .bin _ a b => a.tensors ++ b.tensors
  | .neg a => a.tensors

/-- What the k-th object stands for, and the objects whose storage it refers to, directly or not. -/
abbrev Formulas (R : Type) := List (Formula R × List Nat)

def Formulas.ref {R : Type} (fs : Formulas R) : ArithRef R → Formula R × List Nat
  | .scalar v => (.const v, [])
  | .tensor t => (.tensor t, [])
  | .expr k => match fs[k]? with
    | some (f, needs) => (f, k :: needs)
    | none => (.tensor 0, [k])

/-- The formulas after one step: each operator writes down the formula of its operands. -/
def Formulas.step {R : Type} (fs : Formulas R) : ArithStep R → Formulas R
  | .bin op l r => fs ++ [(.bin op (fs.ref l).1 (fs.ref r).1, (fs.ref l).2 ++ (fs.ref r).2)]
  | .neg x => fs ++ [(.neg (fs.ref x).1, (fs.ref x).2)]
  | .copy k => fs ++ (fs[k]?).toList
  | _ => fs

def Formulas.run {R : Type} (p : List (ArithStep R)) : Formulas R := p.foldl Formulas.step []

/-- The k-th object has not been destroyed. -/
def Alive {R : Type} (st : ArithState R) (k : Nat) : Prop := ∃ o, st.objs[k]? = some (some o)

end Einsums.Spec
