import Verif.Model.Einsum
/-
Model of the OpenMP-parallel target loop of `einsum_generic_algorithm`, with single loads and stores
of `C` as the atomic steps.
-/
namespace Einsums.Model

/-- GenericAlgorithm.hpp 91–95 and 126–130: the memory operations on the target element, in order:
`if (C_prefactor == 0) target = 0` (a store), `target *= C_prefactor` (load, multiply and store),
`target += sum` (load, add and store).  `sum` is local to the iteration. -/
inductive MicroOp
  | zeroStore
  | load
  | mulStore
  | addStore
  deriving Repr, DecidableEq

/-- GenericAlgorithm.hpp 69–130: One iteration of the target loop as a list of memory operations, tagged with the
iteration. -/
def iterationOps (tc : List Nat) : List (List Nat × MicroOp) :=
  [(tc, .zeroStore), (tc, .load), (tc, .mulStore), (tc, .load), (tc, .addStore)]

/-- GenericAlgorithm.hpp 69–130: Shared storage of `C` and the private register of every iteration. -/
structure ParState (R : Type) where
  C : Strided R
  reg : List Nat → R

variable {L : Type} [DecidableEq L] {R : Type} [Add R] [Mul R] [Zero R] [BEq R]

/-- GenericAlgorithm.hpp 69–70, 74–95, 113–130: one memory operation of one iteration. -/
def microStep (cp ab : R) (Cu Lu Cl Al Bl : List L) (A B : Strided R) (linkDims : List Nat)
    (s : ParState R) (a : List Nat × MicroOp) : Outcome (ParState R) := do
  let ic ← constructIndices Cu a.1 [] [] Cl
  match a.2 with
  | .zeroStore =>
      if cp == 0 then do
        let C ← s.C.write (toIdx ic) 0
        return { s with C := C }
      else return s
  | .load => do
      let v ← s.C.read (toIdx ic)
      return { s with reg := fun t => if t = a.1 then v else s.reg t }
  | .mulStore => do
      let C ← s.C.write (toIdx ic) (s.reg a.1 * cp)
      return { s with C := C }
  | .addStore => do
      let sum ← targetSum ab Cu a.1 Lu Al Bl A B linkDims
      let C ← s.C.write (toIdx ic) (s.reg a.1 + sum)
      return { s with C := C }

/-- Dispatch.hpp 104: the iteration space of the target loop. -/
def targetCombinations (Cl : List L) (C : Strided R) : List (List Nat) :=
  cartesian (dimsFor C.dims (uniqueFindTypeWithPosition (unique Cl) Cl))

/-- GenericAlgorithm.hpp 65–132 executed in parallel: `sched` is the order in which the memory
operations of all threads take effect.  Simplification: sequentially consistent single-element loads
and stores. -/
def einsumGenericPar (cp : R) (Cl : List L) (C : Strided R) (ab : R) (Al : List L) (A : Strided R)
    (Bl : List L) (B : Strided R) (sched : List (List Nat × MicroOp)) : Outcome (Strided R) :=
  let Cu := unique Cl
  let Lu := unique (links Al Bl Cl)
  if labelsOk Cu Lu Al Bl = false then .error "static_assert" else
  let linkDims := dimsFor A.dims (findTypeWithPosition Lu Al)
  sched.foldlM (microStep cp ab Cu Lu Cl Al Bl A B linkDims) { C := C, reg := fun _ => 0 } >>=
    fun s => .ok s.C

end Einsums.Model
