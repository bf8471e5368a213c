import Verif.Model.Als
/-
Model of `weighted_parafac` (src/include/einsums/Decomposition.hpp 332–447).  As for `parafac`, the starting factors are an argument and
the test that ends the iteration is an arbitrary decision.
-/
namespace Einsums.Model

section
variable {R : Type} [Add R] [Mul R] [Zero R] [One R] [BEq R] [Div R]

/-- Decomposition.hpp 387–393: the first factor is weighted, the others are not; `wsched` is the order of the loop of
`weight_tensor`.  Simplification: one order for all calls (the result does not depend on it, C66). -/
def gramFactor (z : Nat → R) (w : Strided R) (wsched : List (List Nat)) (f : Strided R) (m : Nat) : Outcome (Strided R) :=
  if m = 0 then weightTensor z f w wsched else .ok f

/-- Decomposition.hpp 384–411: the body of the loop over the other modes; the state is `V` and `KR`, `none` before the first. -/
def weightedInner (z : Nat → R) (check : Bool) (rank : Nat) (w : Strided R) (wsched : List (List Nat)) (factors : List (Strided R))
    (n : Nat) (st : Option (Strided R × Strided R)) (m : Nat) : Outcome (Option (Strided R × Strided R)) :=
  if m = n then .ok st
  else do
    let f ← factorAt factors m
    let g ← gramFactor z w wsched f m
    let ata ← einsum false check 0 [AlsLabel.r, .s] (tensorOperand (Strided.mk' z [rank, rank])) 1 [.I, .r]
      (tensorOperand g) [.I, .s] (tensorOperand g)
    match st with
    | none => do
        let V ← (defaultTensor 2 : Strided R).assign z ata
        let KR ← (defaultTensor 2 : Strided R).assign z f
        return some (V, KR)
    | some (V, KR) => do
        let V' ← einsum false check 0 [AlsLabel.r, .s] (tensorOperand V) 1 [.r, .s] (tensorOperand V) [.r, .s]
          (tensorOperand ata)
        let kr ← khatriRao z check [AlsLabel.I, .r] (tensorOperand KR) [.M, .r] (tensorOperand f)
        let KR' ← KR.assign z kr
        return some (V', KR')

/-- Decomposition.hpp 377–421: one update of `factors[n]`, and whether LAPACK reported success (the program ignores it). -/
def weightedUpdate (solve : GesvFn R) (z : Nat → R) (check : Bool) (rank : Nat) (w : Strided R) (wsched : List (List Nat))
    (unfolded factors : List (Strided R)) (n : Nat) : Outcome (List (Strided R) × Bool) := do
  let st ← (List.range factors.length).foldlM (weightedInner z check rank w wsched factors n) none
  match st with
  | none => .ub "V and KR are empty"
  | some (V, KR) => do
      let u ← factorAt unfolded n
      let f ← factorAt factors n
      let rhs ← einsum false check 0 [AlsLabel.I, .r] (tensorOperand f) 1 [.I, .K] (tensorOperand u) [.K, .r]
        (tensorOperand KR)
      let x := gesv solve V rhs
      return (factors.set n x.1, x.2)

/-- Decomposition.hpp 377–421: all modes once.  (The flag of the state collects that of the solves.) -/
def weightedSweep (solve : GesvFn R) (z : Nat → R) (check : Bool) (rank : Nat) (w : Strided R) (wsched : List (List Nat))
    (unfolded : List (Strided R)) (st : List (Strided R) × Bool) : Outcome (List (Strided R) × Bool) :=
  (List.range st.1.length).foldlM (fun st n => do
    let x ← weightedUpdate solve z check rank w wsched unfolded st.1 n
    return (x.1, st.2 && x.2)) st

/-- Decomposition.hpp 372–441: the iteration; `stop iter` is the outcome of the test, `fuel` counts `n_iter_max - iter`. -/
def weightedLoop (solve : GesvFn R) (z : Nat → R) (check : Bool) (rank : Nat) (w : Strided R) (wsched : List (List Nat))
    (unfolded : List (Strided R)) (stop : Nat → Bool) :
    Nat → Nat → List (Strided R) × Bool → Outcome (List (Strided R) × Bool)
  | 0, _, st => .ok st
  | fuel + 1, iter, st => do
      let st' ← weightedSweep solve z check rank w wsched unfolded st
      if stop iter then return st' else weightedLoop solve z check rank w wsched unfolded stop fuel (iter + 1) st'

/-- Decomposition.hpp 356–365: the weights are squared, the tensor is weighted, and every unfolding but the first is replaced. -/
def reweight (z : Nat → R) (check : Bool) (t : Strided R) (w : Operand R) (sched : Nat → List (List Nat × List Nat × Nat))
    (tsched : List (List Nat)) (us : List (Strided R)) : Outcome (List (Strided R)) := do
  let sq ← einsum false check 0 [AlsLabel.P] (tensorOperand (Strided.mk' z [w.t.dim 0])) 1 [.P] w [.P] w
  let wt ← weightTensor z t sq tsched
  (List.range t.dims.length).foldlM (fun us i =>
    if i ≠ 0 then do
      let u ← unfold z i wt (sched i)
      let old ← factorAt us i
      let u' ← old.assign z u
      return us.set i u'
    else return us) us

/-- Decomposition.hpp 339–446: `weighted_parafac(tensor, weights, rank, n_iter_max)` from the given starting factors. -/
def weightedParafac (solve : GesvFn R) (z : Nat → R) (check : Bool) (t : Strided R) (w : Operand R) (rank : Nat) (nIterMax : Int)
    (start : List (Strided R)) (sched sched' : Nat → List (List Nat × List Nat × Nat)) (tsched wsched : List (List Nat))
    (stop : Nat → Bool) : Outcome (List (Strided R) × Bool) := do
  let us ← unfoldAll z t sched
  let us ← reweight z check t w sched' tsched us
  weightedLoop solve z check rank w.t wsched us stop nIterMax.toNat 0 (start, true)

end
end Einsums.Model
