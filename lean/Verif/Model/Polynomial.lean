import Verif.Model.LinearAlgebra
/-
Model of `get_domain` (src/include/einsums/polynomial/Utilities.hpp 16–80) for real element types.  (For complex ones it
compares a real with a complex number and does not compile.  `from_roots`, 82–110, is unfinished: its loop does not change
its condition and there is no return statement; it is not modelled.)
-/
namespace Einsums.Model

/-- Utilities.hpp 30–58: the iterations `is` of one thread, starting with `x(0)`. -/
def domainThread (lt : R → R → Bool) (x : Strided R) (is : List Nat) : Outcome (R × R) := do
  let x0 ← x.read [0]
  is.foldlM (fun (s : R × R) (i : Nat) => do
    let v ← x.read [(i : Int)]
    return (if lt v s.1 then v else s.1, if lt s.2 v then v else s.2)) (x0, x0)

/-- Utilities.hpp 17–80: `get_domain`; `parts` are the iterations of each thread, in the order in which the threads enter
the critical section. -/
def getDomain (lt : R → R → Bool) (z : Nat → R) (x : Strided R) (parts : List (List Nat)) : Outcome (Strided R) := do
  let x0 ← x.read [0]
  let s ← parts.foldlM (fun (s : R × R) (is : List Nat) => do
    let l ← domainThread lt x is
    return (if lt l.1 s.1 then l.1 else s.1, if lt s.2 l.2 then l.2 else s.2)) (x0, x0)
  let result ← (Strided.mk' z [2]).write [0] s.1
  result.write [1] s.2

end Einsums.Model
