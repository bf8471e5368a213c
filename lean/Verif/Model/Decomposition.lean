import Verif.Model.TensorAlgebra
/-
Model of src/include/einsums/Decomposition.hpp: norm, rmsd, weight_tensor, parafac_reconstruct, tucker_reconstruct and
the core tensor of tucker_ho_svd.

parafac is in Als.lean, weighted_parafac in WeightedAls.lean, tucker_ho_svd and tucker_ho_oi in Tucker.lean.  Not modelled: the initial guess of
parafac (initialize_cp), the convergence tests and validate_cp_rank (floating-point rounding).
-/
namespace Einsums.Model

section
variable {R : Type}

/-- Decomposition.hpp 49–64: `norm`; `sqrt` is `std::sqrt` of the element type. -/
def tensorNorm [Add R] [Mul R] [Zero R] (sqrt : R → R) (t : Strided R) : Outcome R := do
  let val ← (cartesian t.dims).foldlM (fun val i => do
    let target ← t.read (toIdx i)
    return val + target * target) 0
  return sqrt val

/-- Decomposition.hpp 86–92: the iterations `is` of one thread of `rmsd`. -/
def rmsdThread [Add R] [Sub R] [Mul R] (t u : Strided R) (is : List (List Nat)) (diff : R) : Outcome R :=
  is.foldlM (fun diff i => do
    let x ← t.read (toIdx i)
    let y ← u.read (toIdx i)
    return diff + (x - y) * (x - y)) diff

/-- Decomposition.hpp 69–95: `rmsd`; `parts` are the iterations of each thread, in the order in which the private copies
of `diff` are added.  `divN x n` is `x / n` for the `size_t` n. -/
def rmsd [Add R] [Sub R] [Mul R] [Zero R] (sqrt : R → R) (divN : R → Nat → R) (t u : Strided R)
    (parts : List (List (List Nat))) : Outcome R := do
  let nelem := t.dims.foldl (· * ·) 1
  let diff ← parts.foldlM (fun diff is => do
    let p ← rmsdThread t u is 0
    return diff + p) 0
  return sqrt (divN diff nelem)

/-- Decomposition.hpp 100–131: `weight_tensor`; `println_abort` ends the program.  The iterations run in the order
`sched`. -/
def weightTensor [Mul R] (z : Nat → R) (t w : Strided R) (sched : List (List Nat)) : Outcome (Strided R) :=
  if t.dim 0 ≠ w.dim 0 then .error "The first dimension of the tensor and the dimension of the weight DO NOT match"
  else sched.foldlM (fun r i => do
    let source ← t.read (toIdx i)
    let scale ← w.read [((i.headD 0 : Nat) : Int)]
    r.write (toIdx i) (scale * source)) (Strided.mk' z t.dims)

/-- Decomposition.hpp 144–151: `rank` is the number of columns of the first factor that has any. -/
def cpRank (factors : List (Strided R)) : Nat :=
  factors.foldl (fun rank f => if rank = 0 then f.dim 1 else rank) 0

/-- Decomposition.hpp 163–164: `factors[n]`; a `std::vector` does not check the index. -/
def factorAt (factors : List (Strided R)) (n : Nat) : Outcome (Strided R) :=
  match factors[n]? with
  | some f => .ok f
  | none => .ub "factors[n] out of range"

/-- Decomposition.hpp 163–164: the product of one column over all modes.  Simplification: `temp` is a `double`, here an
element. -/
def cpTerm [Mul R] [One R] (factors : List (Strided R)) (idx : List Nat) (r : Nat) : Outcome R :=
  (List.range factors.length).foldlM (fun temp n => do
    let f ← factorAt factors n
    let x ← f.read [((idx.getD n 0 : Nat) : Int), (r : Int)]
    return temp * x) 1

/-- Decomposition.hpp 160–167: one iteration of the parallel loop. -/
def parafacStep [Add R] [Mul R] [One R] (factors : List (Strided R)) (rank : Nat) (target : Strided R) (idx : List Nat) :
    Outcome (Strided R) :=
  (List.range rank).foldlM (fun t r => do
    let temp ← cpTerm factors idx r
    let old ← t.read (toIdx idx)
    t.write (toIdx idx) (old + temp)) target

/-- Decomposition.hpp 138–171: `parafac_reconstruct<TRank>`, the iterations in the order `sched`. -/
def parafacReconstruct [Add R] [Mul R] [One R] [Zero R] (z : Nat → R) (trank : Nat) (factors : List (Strided R))
    (sched : List (List Nat)) : Outcome (Strided R) :=
  if trank < factors.length then .ub "dims[i] out of range"
  else if factors.length < trank then .ub "uninitialised dimension"
  else sched.foldlM (parafacStep factors (cpRank factors)) ((Strided.mk' z (factors.map (·.dim 0))).setAll 0)

/-- Decomposition.hpp 464–481 (tucker_reconstruct) and 545–562 (tucker_ho_svd): axis `i` of `old` is replaced by one of
length `m`: `target += source * coef(n, source index)`.  `z` is the content of the fresh memory. -/
def modeProduct [Add R] [Mul R] [Zero R] (z : Nat → R) (i m : Nat) (coef : Nat → Nat → Outcome R) (old : Strided R) :
    Outcome (Strided R) :=
  (cartesian old.dims).foldlM (fun t s =>
    (List.range m).foldlM (fun t n => do
      let x ← old.read (toIdx s)
      let y ← t.read (toIdx (s.set i n))
      let c ← coef n (s.getD i 0)
      t.write (toIdx (s.set i n)) (y + x * c)) t) ((Strided.mk' z (old.dims.set i m)).setAll 0)

/-- Decomposition.hpp 448–492: `tucker_reconstruct` with a `Tensor` core; `z0`, `z i` are the contents of the fresh
buffers. -/
def tuckerReconstruct [Add R] [Mul R] [Zero R] (z0 z0' : Nat → R) (z : Nat → Nat → R) (g : Strided R)
    (factors : List (Strided R)) : Outcome (Strided R) := do
  let old ← (Strided.mk' z0 g.dims).assign z0' g
  (List.range g.dims.length).foldlM (fun old i => do
    let f ← factorAt factors i
    modeProduct (z i) i (f.dim 0) (fun n s => f.read [(n : Int), (s : Int)]) old) old

/-- Decomposition.hpp 534–570: the core tensor computed by `tucker_ho_svd` from the factors. -/
def tuckerCore [Add R] [Mul R] [Zero R] (z0 z0' : Nat → R) (z : Nat → Nat → R) (tensor : Strided R) (ranks : List Nat)
    (factors : List (Strided R)) : Outcome (Strided R) := do
  let old ← (Strided.mk' z0 tensor.dims).assign z0' tensor
  (List.range tensor.dims.length).foldlM (fun old i => do
    let f ← factorAt factors i
    match ranks[i]? with
    | some rank => modeProduct (z i) i rank (fun r s => f.read [(s : Int), (r : Int)]) old
    | none => .ub "ranks[i] out of range") old

end
end Einsums.Model
