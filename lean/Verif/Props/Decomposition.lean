import Verif.Proofs.Decomposition
import Verif.Props.TensorAlgebra
import Mathlib.NumberTheory.Zsqrtd.GaussianInt
/-
C42 CP reconstruction; C43 Tucker reconstruction; C66 norm, rmsd and weights; C67 the Tucker core.
-/
namespace Einsums.Props
open Spec Model

section
variable {R : Type}

/-! ### C42: parafac_reconstruct -/

/-- **C42.** For every number of modes, all dimensions `dims`, every CP rank, all factor matrices `F n` (of `dims[n]`
rows and `rank` columns, tensors or not), every content `z` of the fresh memory and every order in which the parallel
loop runs its iterations, `parafac_reconstruct` returns the tensor with element
`(i_0, ..., i_{N-1}) = Σ_r Π_n F n (i_n, r)`. -/
theorem C42_parafac_reconstruct [CommSemiring R] (z : Nat → R) (dims : List Nat) (rank : Nat) (h0 : dims ≠ [])
    (factors : List (Strided R)) (F : Nat → Nat → Nat → R) (hl : factors.length = dims.length)
    (hF : ∀ (n : Nat) (f : Strided R) d, factors[n]? = some f → dims[n]? = some d → f.dims = [d, rank] ∧
      f.Represents fun i => F n (i.getD 0 0) (i.getD 1 0))
    (sched : List (List Nat)) (hs : sched.Perm (box dims)) :
    ∃ t, parafacReconstruct z dims.length factors sched = .ok t ∧ t.IsTensor ∧ t.dims = dims ∧
      t.Represents (cpElem dims.length rank F) :=
  parafac_eq z h0 hl hF hs

/-- Two modes, rank 2: rows of `[[1,2],[3,4]]` against rows of `[[5,6],[7,8],[9,1]]`, the iterations in another order. -/
example :
    parafacReconstruct (fun _ => (99 : Int)) 2 [⟨[1, 2, 3, 4], 0, [2, 2], [2, 1]⟩, ⟨[5, 6, 7, 8, 9, 1], 0, [3, 2], [2, 1]⟩]
      [[1, 2], [0, 0], [0, 1], [1, 1], [0, 2], [1, 0]] = .ok ⟨[17, 23, 11, 39, 53, 31], 0, [2, 3], [3, 1]⟩ := by decide
example : cpElem 2 2 (fun n i r => if n = 0 then ([[1, 2], [3, 4]].getD i []).getD r 0 else ([[5, 6], [7, 8], [9, 1]].getD i []).getD r 0) [1, 2]
    = (31 : Int) := by decide
example : ([[1, 2], [0, 0], [0, 1], [1, 1], [0, 2], [1, 0]] : List (List Nat)).Perm (box [2, 3]) := by decide

/-! ### C43: tucker_reconstruct -/

/-- **C43.** For every core tensor `g` (any number of modes, any dimensions), all factor matrices `F m` of `M[m]` rows
and `g.dims[m]` columns, and any content of the fresh memory of the intermediates, `tucker_reconstruct` returns the
tensor of dimensions `M` with element `j = Σ_k g(k) Π_m F m (j_m, k_m)`. -/
theorem C43_tucker_reconstruct [CommSemiring R] (z0 z0' : Nat → R) (z : Nat → Nat → R) (g : Strided R) (hg : g.IsTensor)
    (h0 : g.dims ≠ []) (G : List Nat → R) (hG : g.Represents G) (M : List Nat) (hM : M.length = g.dims.length)
    (factors : List (Strided R)) (F : Nat → Nat → Nat → R)
    (hF : ∀ (m : Nat) d n, g.dims[m]? = some d → M[m]? = some n → ∃ f, factors[m]? = some f ∧ f.dims = [n, d] ∧
      f.Represents fun i => F m (i.getD 0 0) (i.getD 1 0)) :
    ∃ t, tuckerReconstruct z0 z0' z g factors = .ok t ∧ t.IsTensor ∧ t.dims = M ∧
      t.Represents (tuckerElem g.dims G F) :=
  tuckerReconstruct_eq z0 z0' z hg h0 hG hM hF

/-- A 1×2 core, a 2×1 and a 3×2 factor. -/
example : tuckerReconstruct (fun _ => (7 : Int)) (fun _ => 8) (fun _ _ => 9) ⟨[1, 10], 0, [1, 2], [2, 1]⟩
    [⟨[1, 2], 0, [2, 1], [1, 1]⟩, ⟨[1, 0, 0, 1, 1, 1], 0, [3, 2], [2, 1]⟩]
    = .ok ⟨[1, 10, 11, 2, 20, 22], 0, [2, 3], [3, 1]⟩ := by decide
example : tuckerElem [1, 2] (fun k => if k = [0, 0] then 1 else 10)
    (fun m i k => if m = 0 then ([[1], [2]].getD i []).getD k 0 else ([[1, 0], [0, 1], [1, 1]].getD i []).getD k 0) [1, 2] = (22 : Int) := by decide

/-! ### C67: the core of the Tucker decomposition -/

/-- **C67 (core).** The core that `tucker_ho_svd` computes from the factor matrices `F m` of `tensor.dims[m]` rows and
`ranks[m]` columns is the tensor multiplied along every axis by the transposed factor:
`core(k) = Σ_j tensor(j) Π_m F m (j_m, k_m)`. -/
theorem C67_core [CommSemiring R] (z0 z0' : Nat → R) (z : Nat → Nat → R) (t : Strided R) (ht : t.IsTensor)
    (h0 : t.dims ≠ []) (T : List Nat → R) (hT : t.Represents T) (ranks : List Nat) (hr : ranks.length = t.dims.length)
    (factors : List (Strided R)) (F : Nat → Nat → Nat → R)
    (hF : ∀ (m : Nat) d n, t.dims[m]? = some d → ranks[m]? = some n → ∃ f, factors[m]? = some f ∧ f.dims = [d, n] ∧
      f.Represents fun i => F m (i.getD 0 0) (i.getD 1 0)) :
    ∃ g, tuckerCore z0 z0' z t ranks factors = .ok g ∧ g.IsTensor ∧ g.dims = ranks ∧
      g.Represents fun k => ((box t.dims).map fun j =>
        T j * ((List.range t.dims.length).map fun m => F m (j.getD m 0) (k.getD m 0)).prod).sum :=
  tuckerCore_eq z0 z0' z ht h0 hT hr hF

/-- **C67 (the core of a reconstruction).** When the columns of every factor are orthonormal, taking the core of a
Tucker reconstruction gives back the original core. -/
theorem C67_core_of_reconstruction [CommSemiring R] (z0 z0' z1 z1' : Nat → R) (z z' : Nat → Nat → R) (g : Strided R)
    (hg : g.IsTensor) (h0 : g.dims ≠ []) (M : List Nat) (hM : M.length = g.dims.length)
    (factors : List (Strided R)) (F : Nat → Nat → Nat → R)
    (hF : ∀ (m : Nat) d n, g.dims[m]? = some d → M[m]? = some n → ∃ f, factors[m]? = some f ∧ f.dims = [n, d] ∧
      f.Represents fun i => F m (i.getD 0 0) (i.getD 1 0))
    (orth : ∀ (m : Nat) d n, g.dims[m]? = some d → M[m]? = some n → ∀ a b, a < d → b < d →
      sumTo n (fun x => F m x a * F m x b) = if a = b then 1 else 0) :
    ∃ t, tuckerReconstruct z0 z0' z g factors = .ok t ∧ tuckerCore z1 z1' z' t g.dims factors = .ok g := by
  by_cases hne : Nonempty R
  swap
  · exact absurd ⟨z0 0⟩ hne
  have : Inhabited R := ⟨z0 0⟩
  obtain ⟨G, hG⟩ := exists_represents hg.wf
  obtain ⟨t, h1, h2, h3, h4⟩ := tuckerReconstruct_eq z0 z0' z hg h0 hG hM hF
  have ht0 : t.dims ≠ [] := by
    intro e
    rw [h3] at e
    rw [e] at hM
    exact h0 (List.length_eq_zero_iff.1 hM.symm)
  obtain ⟨g', c1, c2, c3, c4⟩ := tuckerCore_eq z1 z1' z' h2 ht0 h4 (M := g.dims) (by rw [h3]; exact hM.symm)
    (factors := factors) (F := F) (by
      intro m d n hd hn
      rw [h3] at hd
      exact hF m n d hn hd)
  refine ⟨t, h1, ?_⟩
  rw [c1]
  congr 1
  apply c2.ext_of_represents hg c3 c4
  intro k hk
  rw [hG k hk]
  congr 1
  rw [h3, tuckerElem_comp hM]
  symm
  apply tuckerElem_delta G ?_ hk
  intro m a b hm ha hb
  have hmM : m < M.length := by omega
  have e := orth m g.dims[m] M[m] (List.getElem?_eq_getElem hm) (List.getElem?_eq_getElem hmM) a b
    (by simpa [List.getD_eq_getElem?_getD, hm] using ha) (by simpa [List.getD_eq_getElem?_getD, hm] using hb)
  rw [← e]
  simp [List.getD_eq_getElem?_getD, hmM]

/-- **C67 (the decomposition is exact where it can be).** If the tensor is *some* Tucker product of the factors, whose
columns are orthonormal, then reconstructing from the computed core gives back the tensor. -/
theorem C67_reconstruction_of_core [CommSemiring R] (z0 z0' z1 z1' : Nat → R) (z z' : Nat → Nat → R) (t : Strided R)
    (ht : t.IsTensor) (h0 : t.dims ≠ []) (ranks : List Nat) (hr : ranks.length = t.dims.length)
    (factors : List (Strided R)) (F : Nat → Nat → Nat → R) (G : List Nat → R) (hT : t.Represents (tuckerElem ranks G F))
    (hF : ∀ (m : Nat) d n, t.dims[m]? = some d → ranks[m]? = some n → ∃ f, factors[m]? = some f ∧ f.dims = [d, n] ∧
      f.Represents fun i => F m (i.getD 0 0) (i.getD 1 0))
    (orth : ∀ (m : Nat) d n, t.dims[m]? = some d → ranks[m]? = some n → ∀ a b, a < n → b < n →
      sumTo d (fun x => F m x a * F m x b) = if a = b then 1 else 0) :
    ∃ g, tuckerCore z0 z0' z t ranks factors = .ok g ∧ tuckerReconstruct z1 z1' z' g factors = .ok t := by
  have hr0 : ranks ≠ [] := by
    intro e
    rw [e] at hr
    exact h0 (List.length_eq_zero_iff.1 hr.symm)
  obtain ⟨g, c1, c2, c3, c4⟩ := tuckerCore_eq z0 z0' z ht h0 hT hr hF
  obtain ⟨t', h1, h2, h3, h4⟩ := tuckerReconstruct_eq z1 z1' z' c2 (by rw [c3]; exact hr0) c4 (M := t.dims)
    (by rw [c3]; exact hr.symm) (factors := factors) (F := F) (by
      intro m d n hd hn
      rw [c3] at hd
      exact hF m n d hn hd)
  refine ⟨g, c1, ?_⟩
  rw [h1]
  congr 1
  apply h2.ext_of_represents ht h3 h4
  intro j hj
  rw [hT j hj]
  congr 1
  rw [c3]
  symm
  apply tuckerElem_congr
  intro k hk
  rw [tuckerElem_comp hr.symm]
  apply tuckerElem_delta G ?_ hk
  intro m a b hm ha hb
  have hmt : m < t.dims.length := by omega
  have e := orth m t.dims[m] ranks[m] (List.getElem?_eq_getElem hmt) (List.getElem?_eq_getElem hm) a b
    (by simpa [List.getD_eq_getElem?_getD, hm] using ha) (by simpa [List.getD_eq_getElem?_getD, hm] using hb)
  rw [← e]
  simp [List.getD_eq_getElem?_getD, hmt]

/-- Orthonormal columns that are not square: (0,1) and ((0,0,1),(1,0,0)). -/
example : tuckerReconstruct (fun _ => (7 : Int)) (fun _ => 8) (fun _ _ => 9) ⟨[5, 6], 0, [1, 2], [2, 1]⟩
    [⟨[0, 1], 0, [2, 1], [1, 1]⟩, ⟨[0, 1, 0, 0, 1, 0], 0, [3, 2], [2, 1]⟩]
    = .ok ⟨[0, 0, 0, 6, 0, 5], 0, [2, 3], [3, 1]⟩ ∧
  tuckerCore (fun _ => (7 : Int)) (fun _ => 8) (fun _ _ => 9) ⟨[0, 0, 0, 6, 0, 5], 0, [2, 3], [3, 1]⟩ [1, 2]
    [⟨[0, 1], 0, [2, 1], [1, 1]⟩, ⟨[0, 1, 0, 0, 1, 0], 0, [3, 2], [2, 1]⟩] = .ok ⟨[5, 6], 0, [1, 2], [2, 1]⟩ := by decide
/-- ... and they are orthonormal. -/
example : ∀ a < 2, ∀ b < 2, sumTo 3 (fun x => (([[0, 1], [0, 0], [1, 0]] : List (List Int)).getD x []).getD a 0 *
    (([[0, 1], [0, 0], [1, 0]] : List (List Int)).getD x []).getD b 0) = if a = b then 1 else 0 := by decide

/-! ### C66: norm, rmsd, weight_tensor -/

/-- **C66 (norm, partial).** `norm` is the square root of the sum of the squared elements of every tensor or view; for
real elements that is the 2-norm.  Missing: complex elements, see `C66_norm_refuted`. -/
theorem C66_norm_partial [Semiring R] (sqrt : R → R) (t : Strided R) (f : List Nat → R) (hf : t.Represents f) :
    tensorNorm sqrt t = .ok (sqrt ((box t.dims).map fun i => f i ^ 2).sum) := by
  rw [tensorNorm_eq sqrt hf]
  simp only [pow_two]

/-- **C66 (norm, refuted for complex elements).** The vector (1, i), whose 2-norm is the root of 2: `norm` takes the root
of zero, the squares are not those of the absolute values. -/
theorem C66_norm_refuted (sqrt : GaussianInt → GaussianInt) :
    let t := tensorOf [2] fun i => if i = [0] then (1 : GaussianInt) else ⟨0, 1⟩
    tensorNorm sqrt t = .ok (sqrt 0) ∧
    ((box [2]).map fun i => (if i = [0] then (1 : GaussianInt) else ⟨0, 1⟩).norm).sum = 2 := by
  refine ⟨?_, by decide⟩
  rw [tensorNorm_eq sqrt (tensorOf_ok _ _).2.2]
  congr 2

/-- **C66 (rmsd).** For all tensors or views of the same dimensions, every distribution of the iterations over threads
and every order of the partial sums, `rmsd` is the root of the mean of the squared differences. -/
theorem C66_rmsd [Ring R] (sqrt : R → R) (divN : R → Nat → R) (t u : Strided R) (f g : List Nat → R)
    (hf : t.Represents f) (hg : u.Represents g) (hd : u.dims = t.dims) (parts : List (List (List Nat)))
    (hp : parts.flatten.Perm (box t.dims)) :
    rmsd sqrt divN t u parts
      = .ok (sqrt (divN ((box t.dims).map fun i => (f i - g i) ^ 2).sum (numel t.dims))) := by
  rw [rmsd_eq sqrt divN hf hg hd hp]
  simp only [pow_two]

example : rmsd id (fun (x : Int) (n : Nat) => x / n) (Strided.mk [1, 2, 9, 3, 4, 9] 0 [2, 2] [3, 1] : Strided Int)
    ⟨[0, 2, 3, 1], 0, [2, 2], [2, 1]⟩ [[[1, 1], [0, 0]], [], [[0, 1], [1, 0]]] = .ok 2 := by decide

/-- **C66 (weights).** For every tensor or view with at least one axis and every vector of weights of the length of the
first axis, `weight_tensor` returns the tensor with element `(i_0, ...) = w(i_0) t(i_0, ...)`; a vector of another length
ends the program with a message. -/
theorem C66_weight [Mul R] (z : Nat → R) (t w : Strided R) (f : List Nat → R) (g : Nat → R) (h0 : t.dims ≠ [])
    (hf : t.Represents f) (n : Nat) (hw : w.dims = [n]) (hg : w.Represents fun i => g (i.headD 0))
    (sched : List (List Nat)) (hs : sched.Perm (box t.dims)) :
    if n = t.dims.headD 0 then
      ∃ r, weightTensor z t w sched = .ok r ∧ r.IsTensor ∧ r.dims = t.dims ∧ r.Represents fun i => g (i.headD 0) * f i
    else ∃ m, weightTensor z t w sched = .error m := by
  by_cases e : n = t.dims.headD 0
  · rw [if_pos e]
    subst e
    exact weight_eq z h0 hf hw hg hs
  · rw [if_neg e]
    refine ⟨_, if_pos ?_⟩
    have : t.dim 0 = t.dims.headD 0 := by unfold Strided.dim; cases t.dims <;> rfl
    rw [this]
    simp only [Strided.dim, hw]
    exact fun h => e h.symm

example : weightTensor (fun _ => (0 : Int)) ⟨[1, 2, 3, 4], 0, [2, 2], [2, 1]⟩ ⟨[10, 100], 0, [2], [1]⟩
    [[1, 0], [0, 1], [0, 0], [1, 1]] = .ok ⟨[10, 20, 300, 400], 0, [2, 2], [2, 1]⟩ := by decide

end
end Einsums.Props
