import Verif.Spec.Index
/-
Specification vocabulary for tensors as functions of the multi-index.
-/
namespace Einsums.Spec

/-- Contents after a history of writes (oldest first): the last value written at `i`, else the
initial value. -/
def afterWrites (init : List Nat → α) : List (List Nat × α) → (List Nat → α)
  | [] => init
  | (j, v) :: ws => afterWrites (fun i => if i = j then v else init i) ws

/-- Componentwise sum of a start corner and a relative index. -/
def shift : List Nat → List Nat → List Nat
  | a :: as, j :: js => (a + j) :: shift as js
  | _, _ => []

/-- One argument of a sub-tensor expression `T(args...)`: an integer, `All`, or `Range{a, b}`. -/
inductive Sel
  | at (i : Int)
  | all
  | range (a b : Int)
  deriving Repr, DecidableEq

/-- The end of a range: a negative end counts from the end of the axis. -/
def rangeEnd (d : Nat) (b : Int) : Int := if b < 0 then b + d else b

/-- Shape of the selected sub-tensor; `none` when an argument is out of range or the number of
arguments is wrong. -/
def selDims : List Nat → List Sel → Option (List Nat)
  | [], [] => some []
  | d :: ds, .at k :: as => if (pyIndex d k).isSome then selDims ds as else none
  | d :: ds, .all :: as => (selDims ds as).map (d :: ·)
  | d :: ds, .range a b :: as =>
      if 0 ≤ a ∧ a ≤ rangeEnd d b ∧ rangeEnd d b ≤ d then
        (selDims ds as).map ((rangeEnd d b - a).toNat :: ·)
      else none
  | _, _ => none

/-- Index into the parent of element `js` of the selected sub-tensor. -/
def selIndex : List Nat → List Sel → List Nat → List Nat
  | d :: ds, .at k :: as, js => ((pyIndex d k).getD 0) :: selIndex ds as js
  | _ :: ds, .all :: as, j :: js => j :: selIndex ds as js
  | _ :: ds, .range a _ :: as, j :: js => (a.toNat + j) :: selIndex ds as js
  | _, _, _ => []

/-- A box inside a shape: on every axis a start inside the axis, and an end with
`start ≤ end ≤ dim`. -/
def BoxIn : List Nat → List (Nat × Nat) → Prop
  | [], [] => True
  | d :: ds, (a, b) :: rs => a < d ∧ a ≤ b ∧ b ≤ d ∧ BoxIn ds rs
  | _, _ => False

/-- `Denotes ds rs bs`: the user's ranges `rs` (a negative end counts from the end of the axis) denote
the box `bs`. -/
def Denotes : List Nat → List (Int × Int) → List (Nat × Nat) → Prop
  | [], [], [] => True
  | d :: ds, (a, b) :: rs, (x, y) :: bs => a = x ∧ rangeEnd d b = y ∧ Denotes ds rs bs
  | _, _, _ => False

/-- A requested dimension of a reshape: a number, or `-1` (to be determined).
Simplification: negative values other than −1 are not modelled. -/
inductive ReqDim
  | auto
  | n (d : Nat)
  deriving Repr, DecidableEq

/-- `dims` is what was asked for: fixed entries are kept, `-1` may be anything. -/
def Matches : List ReqDim → List Nat → Prop
  | [], [] => True
  | .auto :: rs, _ :: ds => Matches rs ds
  | .n r :: rs, d :: ds => r = d ∧ Matches rs ds
  | _, _ => False

/-- `Schedule threads s`: `s` is an execution order of all the threads' actions; at each step any
thread may perform its next action. -/
inductive Schedule : List (List α) → List α → Prop
  | done {ts : List (List α)} : (∀ t ∈ ts, t = []) → Schedule ts []
  | step {ts : List (List α)} {i : Nat} {x : α} {xs s : List α} :
      ts[i]? = some (x :: xs) → Schedule (ts.set i xs) s → Schedule ts (x :: s)

end Einsums.Spec
