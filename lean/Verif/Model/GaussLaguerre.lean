import Verif.Model.Laguerre
import Verif.Model.Spectral
import Verif.Model.ElementOps
/-
Model of `gauss_laguerre` and `weight` in src/include/einsums/polynomial/Laguerre.hpp (lines 148–199).

Elements are those of an ordered field: rounding of element arithmetic is not modelled.  LAPACK's xSYEV is a function argument.
-/
namespace Einsums.Model

/-- Laguerre.hpp 148–186: what the run-time environment chooses during one call: the contents of new memory, the numbers of
threads and the orders of the updates of the parallel loops. -/
structure GaussRun (K : Type) where
  /-- contents of new memory -/
  z : Nat → K
  /-- the compound assignments of `companion` -/
  comp : Nat → List Nat
  /-- those of the three calls of `value` -/
  value : Nat → Nat → Nat → List Nat
  /-- those of `derivative` -/
  der : Nat → List Nat
  /-- the six compound assignments of `gauss_laguerre` -/
  upd : Nat → List Nat
  /-- `T{-INFINITY}`, and `omp_get_max_threads()` -/
  ninf : K
  maxThreads : Nat
  /-- the threads of the two calls of `max` -/
  maxTeam : Nat → Nat
  /-- the threads of the two calls of `abs` and of `invert`, and their orders -/
  mapTeam : Nat → Nat
  mapOrder : Nat → List Nat
  /-- the distribution of the iterations of `sum` -/
  parts : List (List Nat)

section
variable {K : Type} [Field K] [LinearOrder K] [IsStrictOrderedRing K] [FloorRing K]

/-- Laguerre.hpp 153–161: the nodes before the Newton step, and the series `c`. -/
def gaussNodes (fl : ℚ → ℚ) (syev : SyevFn K) (g : GaussRun K) (degree : Nat) : Outcome (Strided K × Strided K) := do
  let c ← ((Strided.mk' g.z [degree + 1]).setAll 0).write [-1] 1
  let m ← companion fl g.z g.comp c
  let x := (Strided.mk' g.z [degree]).setAll 0
  let r ← syevT syev true m x
  return (c, r.2)

/-- Laguerre.hpp 172–181: the scaling of `fm` and `df`, and the weights. -/
def gaussWeights (g : GaussRun K) (fm df : Strided K) : Outcome (Strided K) := do
  let a ← mapTensor (fun v => |v|) g.z fm (g.mapTeam 0) (g.mapOrder 0)
  let ma ← maxTensor (fun a b => decide (a < b)) g.ninf g.maxThreads (g.maxTeam 0) a
  let fm := fm.compoundScalar (· / ·) ma (g.upd 2)
  let b ← mapTensor (fun v => |v|) g.z df (g.mapTeam 1) (g.mapOrder 1)
  let mb ← maxTensor (fun a b => decide (a < b)) g.ninf g.maxThreads (g.maxTeam 1) b
  let df := df.compoundScalar (· / ·) mb (g.upd 3)
  let fm ← fm.compoundTensor (· * ·) df (g.upd 4)
  let w ← mapTensor (fun v => 1 / v) g.z fm (g.mapTeam 2) (g.mapOrder 2)
  let s ← sumTensor w g.parts
  return w.compoundScalar (· / ·) s (g.upd 5)

/-- Laguerre.hpp 148–186: `gauss_laguerre(degree)`: nodes and weights. -/
def gaussLaguerre (fl : ℚ → ℚ) (syev : SyevFn K) (g : GaussRun K) (degree : Nat) : Outcome (Strided K × Strided K) := do
  let r ← gaussNodes fl syev g degree
  let dy ← lagValue g.z r.2 r.1 (g.value 0)
  let dc ← lagDerivative g.z g.der r.1 1 1
  let df ← lagValue g.z r.2 dc (g.value 1)
  let dy ← dy.compoundTensor (· / ·) df (g.upd 0)
  let x ← r.2.compoundTensor (· - ·) dy (g.upd 1)
  let v ← autoView fl r.1 [1] none
  let fm ← lagValue g.z x v (g.value 2)
  let w ← gaussWeights g fm df
  return (x, w)

/-- Laguerre.hpp 188–199 with ElementOperations.hpp 27–42: `weight(tensor)` of a `Tensor`; `omp_loop` divides the elements among the
threads as the compound assignments do; `exp` is `std::exp`, `z`, `z'` the contents of new memory. -/
def lagWeight (exp : K → K) (z z' : Nat → K) (t : Strided K) (sched : List Nat) : Outcome (Strided K) := do
  let result ← (Strided.mk' z t.dims).assign z' t
  return result.compoundScalar (fun value _ => exp (-value)) 0 sched

end
end Einsums.Model
