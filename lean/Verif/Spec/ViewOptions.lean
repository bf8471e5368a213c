import Verif.Model.ViewOptions
/-
Specification of the options of a view: the strides asked for and the offset asked for are the first option of
that kind.
-/
namespace Einsums.Spec
open Model

/-- The first `Stride` among the options with `rank` entries. -/
def askedStride (rank : Nat) : List ViewOpt → Option (List Int)
  | [] => none
  | .stride s :: os => if s.length = rank then some s else askedStride rank os
  | _ :: os => askedStride rank os

/-- The first `Offset` among the options with `rank` entries. -/
def askedOffset (rank : Nat) : List ViewOpt → Option (List Int)
  | [] => none
  | .offset o :: os => if o.length = rank then some o else askedOffset rank os
  | _ :: os => askedOffset rank os

end Einsums.Spec
