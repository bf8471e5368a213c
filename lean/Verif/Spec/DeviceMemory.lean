import Verif.Model.DeviceMemory

/-
What C163 speaks about: programs with device tensors and views, and what they leave behind.
-/
namespace Einsums.Spec
open Model

/-- Every dimension is positive. -/
def Positive (dims : List Nat) : Prop := ∀ d ∈ dims, 0 < d

/-- No living view maps the memory at `p`. -/
def NotMapped (P : DevProgram) (p : Nat) : Prop := ∀ v, some (DevObj.view v) ∈ P.objs → v.mapped ≠ some p

/-- The tensor at `y` is initialised. -/
def Initialised (P : DevProgram) (y : Nat) : Prop := ∀ t, P.at y = some (.tensor t) → t.mode ≠ .notInitialized

/-- Elements that are mapped or pinned are at least one. -/
def Allocates (mode : DeviceMode) (dims : List Nat) : Prop := mode = .mapped ∨ mode = .pinned → Positive dims

/-- The tensor at `x`, if it is there, may get the dimensions `dims`: tensors of the same rank and, if it is mapped or pinned, with elements. -/
def MayBecome (P : DevProgram) (x : Nat) (dims : List Nat) : Prop :=
  ∀ t, P.at x = some (.tensor t) → Allocates t.mode dims ∧ t.dims.length = dims.length

/-- The statements of the proved part: no reshaping, no copies of views, storage modes that exist, empty tensors only on the device, only
initialised tensors of the same rank are assigned, and memory in core is not mapped by two views at a time. -/
def Plain (P : DevProgram) : DevStmt → Prop
  | .create mode dims => mode ≠ .notInitialized ∧ Allocates mode dims
  | .assign x y => Initialised P y ∧ ∀ u, P.at y = some (.tensor u) → MayBecome P x u.dims
  | .assignCore x dims => MayBecome P x dims
  | .resize x dims => MayBecome P x dims
  | .map p size => 0 < size ∧ NotMapped P p
  | .reshape _ _ => False
  | .copyView _ _ => False
  | _ => True

/-- Every statement satisfies `C` in the state in which it is executed. -/
def Each (C : DevProgram → DevStmt → Prop) : List DevStmt → DevProgram → Prop
  | [], _ => True
  | s :: ss, P => C P s ∧ ∀ P', (P.step s = .returns P' ∨ P.step s = .throws P') → Each C ss P'

/-- The kernels that work on the tensors of the program see the dimensions that the tensors report. -/
def ShapesShown (P : DevProgram) : Prop :=
  ∀ t, some (DevObj.tensor t) ∈ P.objs → t.mode ≠ .notInitialized → t.gshape = t.dims

/-- Kernels can work on every tensor of the program that is initialised and not empty: its elements and dimensions are in memory. -/
def TensorsUsable (P : DevProgram) : Prop :=
  ∀ t, some (DevObj.tensor t) ∈ P.objs → t.mode ≠ .notInitialized → Positive t.dims → t.usable P.heap = true

/-- No `resize` changes the shape of a tensor and keeps its number of elements. -/
def KeepsShape (P : DevProgram) : DevStmt → Prop
  | .resize x dims => ∀ t, P.at x = some (.tensor t) → t.dims = dims ∨ t.dims.prod ≠ dims.prod
  | _ => True

/-- The objects of the program are destroyed in the order `order`. -/
def destroyAll (order : List Nat) : List DevStmt := order.map .destroy

/-- Every object of the program occurs in `order`. -/
def Covers (order : List Nat) (P : DevProgram) : Prop := ∀ x o, P.at x = some o → x ∈ order

end Einsums.Spec
