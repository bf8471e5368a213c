import Verif.Model.Utilities
import Verif.Model.LinearAlgebra
import Mathlib.Data.Rat.Floor
/-
Model of src/include/einsums/polynomial/Laguerre.hpp (companion, derivative, value) and of the views with a computed
dimension it uses (src/include/einsums/Tensor.hpp, common_initialization).

Elements are those of a field: rounding of element arithmetic is not modelled.  The `float` arithmetic that computes the
dimension of a view is modelled with an arbitrary rounding function.  `gauss_laguerre` and `weight` are in Model/GaussLaguerre.lean.
-/
namespace Einsums.Model

/-- Tensor.hpp 1383: the dimension for a requested −1, `ceil((size - offset) / float(stride))`: the `size_t` difference
and the stride are converted to `float`, and the quotient is rounded. -/
def autoDim (fl : ℚ → ℚ) (size offset stride : Nat) : Int :=
  ⌈fl (fl ((size - offset : Nat) : ℚ) / fl (stride : ℚ))⌉

/-- Tensor.hpp 1348–1424: `TensorView{T, Dim<1>{-1}, Offset{...}, Stride<1>{...}}`.  Simplifications: an offset beyond the
size wraps around in the code, which forms a pointer outside the storage; a stride of zero divides by zero and converts an
infinity or NaN; the product of the dimensions is compared as a `double`, here exactly. -/
def autoView (fl : ℚ → ℚ) (t : Strided α) (offsets : List Nat) (stride : Option Nat) : Outcome (Strided α) :=
  let size := sizeMethod t.dims
  let offset := offsets.headD 0
  if size < offset then .ub "pointer outside the storage"
  else if stride = some 0 then .ub "conversion of an infinity or NaN"
  else
    let d := autoDim fl size offset (stride.getD 1)
    if t.dims.length = 1 then mkView t [d] (toIdx offsets) [stride.getD (t.strides.headD 0)]
    else if d = ((t.dims.foldl (· * ·) 1 : Nat) : Int) then mkView t [d] (toIdx offsets) [stride.getD 1]
    else match stride with
      | some s => mkView t [d] (toIdx offsets) [s]
      | none => .error "Unable to automatically deduce stride information. Stride must be passed in."

section
variable {K : Type} [Field K]

/-- Laguerre.hpp 19–59: `companion`; `sch k` is the order of the element updates of the k-th compound assignment. -/
def companion [LinearOrder K] [IsStrictOrderedRing K] [FloorRing K] (fl : ℚ → ℚ) (z : Nat → K) (sch : Nat → List Nat)
    (c : Strided K) : Outcome (Strided K) :=
  if c.dim 0 < 2 then .error "Series (c) must have maximum degree of at least 1."
  else if c.dim 0 = 2 then do
    let a ← c.read [0]
    let b ← c.read [1]
    (Strided.mk' z [1, 1]).write [0, 0] (1 + a / b)
  else do
    let n := c.dim 0 - 1
    let mat := (Strided.mk' z [n, n]).setAll 0
    let mat1 ← autoView fl mat [0, 0] none
    let top ← autoView fl mat1 [1] (some (n + 1))
    let mid ← autoView fl mat1 [0] (some (n + 1))
    let bot ← autoView fl mat1 [n] (some (n + 1))
    let U ← arange (fieldArith K) z 1 (n : K) 1
    let U := U.compoundScalar (· * ·) (-1) (sch 0)
    let top ← top.assignView U
    let V ← arange (fieldArith K) z 0 (n : K) 1
    let V := V.compoundScalar (· * ·) 2 (sch 1)
    let V := V.compoundScalar (· + ·) 1 (sch 2)
    -- the views share the storage of `mat`
    let mid ← ({ mid with data := top.data } : Strided K).assignView V
    let bot ← ({ bot with data := mid.data } : Strided K).assignView U
    return { mat with data := bot.data }

/-- Laguerre.hpp 82–85: one step of the inner loop of `derivative`, for `j = n - k`. -/
def derInner (n : Nat) (s : Strided K × Strided K) (k : Nat) : Outcome (Strided K × Strided K) := do
  let j := n - k
  let cj ← s.2.read [(j : Int)]
  let der ← s.1.write [((j - 1 : Nat) : Int)] (-cj)
  let cp ← s.2.read [((j - 1 : Nat) : Int)]
  let c ← s.2.write [((j - 1 : Nat) : Int)] (cp + cj)
  return (der, c)

/-- Laguerre.hpp 77–88: one derivative; `n` is already decremented. -/
def derStep (z : Nat → K) (scale : K) (sch : List Nat) (c : Strided K) (n : Nat) : Outcome (Strided K) := do
  let c := c.compoundScalar (· * ·) scale sch
  let s ← (List.range n).foldlM (derInner n) ((Strided.mk' z [n]).setAll 0, c)
  let c1 ← s.2.read [1]
  let der ← s.1.write [0] (-c1)
  s.2.assign z der

/-- Laguerre.hpp 61–92: `derivative(c, m, scale)`.  For an empty series and `m ≥ 1` the length `dim - 1` wraps around and
the allocation throws. -/
def lagDerivative (z : Nat → K) (sch : Nat → List Nat) (c : Strided K) (m : Nat) (scale : K) : Outcome (Strided K) :=
  if m = 0 then .ok c
  else
    let n := c.dim 0
    if n ≤ m then
      if n = 0 then .error "std::length_error" else .ok ((Strided.mk' z [n - 1]).setAll 0)
    else (List.range m).foldlM (fun (c : Strided K) (i : Nat) => derStep z scale (sch i) c (n - (i + 1))) c

/-- polynomial/Laguerre.hpp 101–134: The tensors `c0`, `c1` and the counter `nd` of the loop in `value`. -/
structure ValueState (K : Type) where
  c0 : Strided K
  c1 : Strided K
  nd : Nat

/-- Laguerre.hpp 117–133: one iteration; `sch` are the orders of the eight compound assignments.  `i` is an `int`, here a
natural number. -/
def valueStep (z : Nat → K) (x c : Strided K) (sch : Nat → List Nat) (s : ValueState K) (i : Nat) :
    Outcome (ValueState K) := do
  let tmp ← (Strided.mk' z x.dims).assign z s.c0
  let nd := s.nd - 1
  let c0 ← s.c0.assign z s.c1
  let c0 := c0.compoundScalar (· * ·) ((nd - 1 : Nat) : K) (sch 0)
  let c0 := c0.compoundScalar (· / ·) (nd : K) (sch 1)
  let c0 := c0.compoundScalar (· * ·) (-1) (sch 2)
  let ci ← c.read [-(i : Int)]
  let c0 := c0.compoundScalar (· + ·) ci (sch 3)
  let tmp1 := (Strided.mk' z x.dims).setAll ((2 * nd - 1 : Nat) : K)
  let tmp1 ← tmp1.compoundTensor (· - ·) x (sch 4)
  let tmp1 ← tmp1.compoundTensor (· * ·) s.c1 (sch 5)
  let tmp1 := tmp1.compoundScalar (· / ·) (nd : K) (sch 6)
  let c1 ← s.c1.assign z tmp
  let c1 ← c1.compoundTensor (· + ·) tmp1 (sch 7)
  return ⟨c0, c1, nd⟩

/-- Laguerre.hpp 101–134: `c0` and `c1` before the final combination. -/
def valueCoeffs (z : Nat → K) (x c : Strided K) (sch : Nat → Nat → List Nat) : Outcome (Strided K × Strided K) :=
  let c0 := (Strided.mk' z x.dims).setAll 0
  let c1 := (Strided.mk' z x.dims).setAll 0
  if c.dim 0 = 1 then do
    let a ← c.read [0]
    return (c0.setAll a, c1.setAll 0)
  else if c.dim 0 = 2 then do
    let a ← c.read [0]
    let b ← c.read [1]
    return (c0.setAll a, c1.setAll b)
  else do
    let a ← c.read [-2]
    let b ← c.read [-1]
    let s ← (List.range' 3 (c.dim 0 - 2)).foldlM (fun (s : ValueState K) (i : Nat) => valueStep z x c (sch i) s i)
      ⟨c0.setAll a, c1.setAll b, c.dim 0⟩
    return (s.c0, s.c1)

/-- Laguerre.hpp 94–146: `value(x, c)`; `x` is a `Tensor` (a view is converted to one where it is used). -/
def lagValue (z : Nat → K) (x c : Strided K) (sch : Nat → Nat → List Nat) : Outcome (Strided K) := do
  let s ← valueCoeffs z x c sch
  let result := (Strided.mk' z x.dims).setAll 1
  let result ← result.compoundTensor (· - ·) x (sch 0 0)
  let result ← result.compoundTensor (· * ·) s.2 (sch 0 1)
  result.compoundTensor (· + ·) s.1 (sch 0 2)

end
end Einsums.Model
