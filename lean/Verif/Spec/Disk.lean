import Verif.Model.Disk
import Verif.Spec.Tensor
/-
Specification of disk tensors: what a program that works on a disk tensor through views has stored, and what is
in the file.
-/
namespace Einsums.Spec
open Einsums.Model

variable {R : Type}

/-- The arguments `args` select a block of shape `vd` of a tensor of shape `ds`: no negative numbers, at least
one axis, and more than one element along every selected axis. -/
def Selects (ds : List Nat) (args : List Sel) (vd : List Nat) : Prop :=
  selDims ds args = some vd ∧ vd ≠ [] ∧ (∀ d ∈ vd, 1 < d) ∧
    ∀ a ∈ args, match a with
      | .at k => 0 ≤ k
      | .all => True
      | .range _ b => 0 ≤ b

/-- `k` is one of the elements that `args` selects. -/
def InRegion (ds : List Nat) (args : List Sel) (k : List Nat) : Prop :=
  ∃ vd j, selDims ds args = some vd ∧ InBox j vd ∧ selIndex ds args j = k

/-- What the program sees: the values it has stored (`now`), what is in the file (`saved`) and the views it
has open, with the arguments they were made with. -/
structure DiskHistory (R : Type) where
  now : List Nat → R
  saved : List Nat → R
  live : Nat → Option (List Sel)

/-- `g` is `f` with the elements selected by `args` replaced by those of `b`. -/
def Patched (ds : List Nat) (args : List Sel) (f b g : List Nat → R) : Prop :=
  ∀ k, InBox k ds → (InRegion ds args k → g k = b k) ∧ (¬ InRegion ds args k → g k = f k)

/-- One step of a program on a disk tensor of shape `ds`, with the value it returns.
Opening a view requires that it does not overlap a view that is open. -/
inductive DiskStep (ds : List Nat) : DiskHistory R → DiskOp R → DiskHistory R → Option R → Prop
  | view {h : DiskHistory R} {id : Nat} {args vd : List _} : h.live id = none → Selects ds args vd →
      (∀ i args', h.live i = some args' → ∀ k, InRegion ds args k → ¬ InRegion ds args' k) →
      DiskStep ds h (.view id args) { h with live := fun i => if i = id then some args else h.live i } none
  | get {h : DiskHistory R} {id : Nat} {args vd j : List _} : h.live id = some args → Selects ds args vd →
      InBox j vd → DiskStep ds h (.get id j) h (some (h.now (selIndex ds args j)))
  | set {h : DiskHistory R} {id : Nat} {args vd j : List _} {x : R} : h.live id = some args →
      Selects ds args vd → InBox j vd →
      DiskStep ds h (.set id j x)
        { h with now := fun k => if k = selIndex ds args j then x else h.now k } none
  | setAll {h : DiskHistory R} {id : Nat} {args : List _} {x : R} {f : List Nat → R} :
      h.live id = some args → Patched ds args h.now (fun _ => x) f →
      DiskStep ds h (.setAll id x) { h with now := f } none
  | assign {h : DiskHistory R} {id : Nat} {args vd : List _} {t : Strided R} {g b f : List Nat → R} :
      h.live id = some args → Selects ds args vd → t.IsTensor → t.dims = vd → t.Represents g →
      (∀ j, InBox j vd → b (selIndex ds args j) = g j) → Patched ds args h.now b f →
      DiskStep ds h (.assign id t) { h with now := f } none
  | put {h : DiskHistory R} {id : Nat} {args : List _} {f : List Nat → R} :
      h.live id = some args → Patched ds args h.saved h.now f →
      DiskStep ds h (.put id) { h with saved := f } none
  | close {h : DiskHistory R} {id : Nat} {args : List _} {f : List Nat → R} :
      h.live id = some args → Patched ds args h.saved h.now f →
      DiskStep ds h (.close id)
        { h with saved := f, live := fun i => if i = id then none else h.live i } none

/-- A history: calls with the values they return. -/
inductive DiskRun (ds : List Nat) : DiskHistory R → List (DiskOp R) → DiskHistory R → List (Option R) → Prop
  | nil {h : DiskHistory R} : DiskRun ds h [] h []
  | cons {h h' h'' : DiskHistory R} {op : DiskOp R} {ops : List (DiskOp R)} {x : Option R} {xs : List (Option R)} :
      DiskStep ds h op h' x → DiskRun ds h' ops h'' xs → DiskRun ds h (op :: ops) h'' (x :: xs)

end Einsums.Spec
