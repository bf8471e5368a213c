import Verif.Model.Laguerre
/-
Model of the constructor `TensorView(other, dims, options...)` of src/include/einsums/Tensor.hpp and of the search for
options by type, `arguments::get` of src/include/einsums/STL.hpp.

An option is a `Stride<n>` or an `Offset<n>`, where `n` is the number of its entries: two options have the same type if they are
of the same kind and length, and none of these types converts to another (_Common.hpp 111–126: the constructors
are explicit).  Other classes (`Count`, `Chunk`, `Dim`) behave as an option that is not looked for.
Simplifications: the rank of the view is at least one; a negative stride is reported as undefined behaviour; an offset that is
negative with a dimension of −1 as well; the two products of dimensions are compared as `double`s in the code,
here exactly.
-/
namespace Einsums.Model

/-- _Common.hpp 111–126: the options. -/
inductive ViewOpt
  | stride (s : List Int)
  | offset (o : List Int)
  | other (values : List Int)
  deriving DecidableEq, Repr

/-- _Common.hpp 111–126: their types; `Stride<n>` and so on. -/
inductive OptTy
  | stride (rank : Nat)
  | offset (rank : Nat)
  | other (rank : Nat)
  deriving DecidableEq, Repr

/-- _Common.hpp 111–126: the type of an option. -/
def ViewOpt.ty : ViewOpt → OptTy
  | .stride s => .stride s.length
  | .offset o => .offset o.length
  | .other v => .other v.length

/-- STL.hpp 25–47: `TuplePosition<S, P, C, Branch, PrevHead, std::tuple<...>>::value`: `branch` says that the
type before the remaining ones was convertible to the one looked for. -/
def tuplePosition (s : OptTy) : List OptTy → Int → Bool → Int
  | _, p, true => p
  | [], _, false => -1
  | h :: tail, p, false => tuplePosition s tail (p + 1) (decide (h = s))

/-- STL.hpp 54–59: `arguments::get(definition, args...)`. -/
def argumentsGet (definition : ViewOpt) (args : List ViewOpt) : Outcome ViewOpt :=
  let tuple := args ++ [definition]
  let idx := tuplePosition definition.ty (tuple.map ViewOpt.ty) (-1) false
  if idx < 0 then .error "does not compile"
  else match tuple[idx.toNat]? with
    | some o => .ok o
    | none => .error "does not compile"

/-- Tensor.hpp 1381–1425: `arguments::get` for a `Stride` or an `Offset`, by its entries. -/
def ViewOpt.values : ViewOpt → List Int
  | .stride s => s
  | .offset o => o
  | .other v => v

/-- Tensor.hpp 1378–1384: the dimension computed for a −1. -/
def viewAutoDim (fl : ℚ → ℚ) (t : Strided α) (args : List ViewOpt) : Outcome (List Int) :=
  argumentsGet (.offset (List.replicate t.dims.length 0)) args >>= fun offsets =>
  argumentsGet (.stride [1]) args >>= fun strides =>
    let o := offsets.values.headD 0
    let s := strides.values.headD 0
    if o < 0 then .ub "pointer outside the storage"
    else if (sizeMethod t.dims : Int) < o then .ub "pointer outside the storage"
    else if s ≤ 0 then .ub "conversion of an infinity or NaN"
    else .ok [autoDim fl (sizeMethod t.dims) o.toNat s.toNat]

/-- Tensor.hpp 1390–1418: `default_strides`. -/
def viewDefaultStrides (t : Strided α) (dims : List Int) (args : List ViewOpt) : Outcome (List Int) :=
  if dims.length = t.dims.length then .ok (t.strides.map Int.ofNat)
  else if dims.foldl (· * ·) 1 = ((t.dims.foldl (· * ·) 1 : Nat) : Int) then
    .ok ((transformStrides (dims.map Int.toNat)).map Int.ofNat)
  else
    argumentsGet (.stride (-1 :: List.replicate (dims.length - 1) 0)) args >>= fun d =>
      if d.values.headD 0 = -1 then
        .error "Unable to automatically deduce stride information. Stride must be passed in."
      else .ok d.values

/-- Tensor.hpp 1348–1430: `common_initialization(other, args...)` of a view with the dimensions `dims`. -/
def viewInit (fl : ℚ → ℚ) (t : Strided α) (dims : List Int) (args : List ViewOpt) : Outcome (Strided α) :=
  let nfound := (dims.filter (· == -1)).length
  if nfound > 1 then .error "More than one -1 was provided."
  else if nfound = 1 ∧ dims.length > 1 then .error "Haven't coded up this case yet."
  else
    (if nfound = 1 then viewAutoDim fl t args else .ok dims) >>= fun dims' =>
    viewDefaultStrides t dims' args >>= fun dflt =>
    argumentsGet (.stride dflt) args >>= fun strides =>
    argumentsGet (.offset (List.replicate t.dims.length 0)) args >>= fun offsets =>
      if strides.values.any (· < 0) then .ub "negative stride"
      else mkView t dims' offsets.values (strides.values.map Int.toNat)

end Einsums.Model
