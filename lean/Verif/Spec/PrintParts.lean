import Verif.Spec.Index
/-
The order in which the tiles of a tiled tensor are printed.
-/
namespace Einsums.Spec

/-- The positions of a grid, the first coordinate running fastest. -/
def positions : List Nat → List (List Nat)
  | [] => [[]]
  | d :: ds => (positions ds).flatMap fun is => (List.range d).map (· :: is)

end Einsums.Spec
