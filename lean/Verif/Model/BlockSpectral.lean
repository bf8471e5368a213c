import Verif.Model.Block
import Verif.Model.Inverse
import Verif.Model.Spectral
/-
Model of `invert` (LinearAlgebra.hpp), `syev` and `pow` (BlockLinearAlgebra.hpp) of block tensors.  The parallel loop over the
blocks runs in the order `sched`: each iteration works on its own block and its own part of W.
-/
namespace Einsums.Model

variable {R : Type}

section
variable [Zero R]

/-- LinearAlgebra.hpp 574: one iteration of `invert` of a block tensor. -/
def blockInvertStep (getrf : GetrfFn R) (getri : GetriFn R) (A : Block R) (i : Nat) : Outcome (Block R) := do
  let a ← A.at i
  let a ← invert getrf getri a
  return { A with blocks := A.blocks.set i a }

/-- LinearAlgebra.hpp 571–576: `invert(&A)` of a block tensor. -/
def blockInvert (getrf : GetrfFn R) (getri : GetriFn R) (sched : List Nat) (A : Block R) : Outcome (Block R) :=
  sched.foldlM (blockInvertStep getrf getri) A

/-- BlockLinearAlgebra.hpp 93–97: one iteration of `syev` of a block tensor; the state is A and W. -/
def blockSyevStep (syev : SyevFn R) (vectors : Bool) (s : Block R × Strided R) (i : Nat) : Outcome (Block R × Strided R) := do
  let a ← s.1.at i
  if a.dim 0 = 0 then return s
  else
    match s.1.ranges[i]? with
    | none => .error "out_of_range"
    | some r => do
        let v ← s.2.ranges [r]
        let o ← syevT syev vectors a v
        return ({ s.1 with blocks := s.1.blocks.set i o.1 }, { s.2 with data := o.2.data })

/-- BlockLinearAlgebra.hpp 84–99: `syev<ComputeEigenvectors>(&A, &W)` of a block tensor. -/
def blockSyev (syev : SyevFn R) (vectors : Bool) (sched : List Nat) (A : Block R) (W : Strided R) :
    Outcome (Block R × Strided R) :=
  sched.foldlM (blockSyevStep syev vectors) (A, W)

end

section
variable [CommRing R] [LinearOrder R] [BEq R]

/-- BlockLinearAlgebra.hpp 334–337: one iteration of `pow` of a block tensor: `out[i] = pow(a[i], alpha, cutoff)`. -/
def blockPowStep (syev : SyevFn R) (rpow : R → R → Option R) (z : Nat → R) (a : Block R) (alpha cutoff : R) (out : Block R)
    (i : Nat) : Outcome (Block R) := do
  let t ← a.at i
  if t.dim 0 = 0 then return out
  else do
    let p ← matPow syev rpow z t alpha cutoff
    let o ← out.at i
    let o ← o.assign z p
    return { out with blocks := out.blocks.set i o }

/-- BlockLinearAlgebra.hpp 326–341: `pow(a, alpha, cutoff)` of a block tensor; `zb`, `z`: contents of fresh memory. -/
def blockPow (syev : SyevFn R) (rpow : R → R → Option R) (zb : Nat → Nat → R) (z : Nat → R) (sched : List Nat) (a : Block R)
    (alpha cutoff : R) : Outcome (Block R) :=
  sched.foldlM (blockPowStep syev rpow z a alpha cutoff) (Block.mk' zb 2 (a.blocks.map (·.dim 0)))

end
end Einsums.Model
