import Mathlib.Analysis.Matrix.Spectrum
import Mathlib.Data.Fin.Tuple.Sort
import Verif.Proofs.GaussMoment
import Verif.Proofs.GaussLaguerre
/-
C179: Gauss–Laguerre quadrature.
-/
namespace Einsums.Props
open Polynomial Spec Model MeasureTheory Matrix

/-- **C179 (partial).** For 0 < n < 4096, `gauss_laguerre(n)` returns the n roots of the Laguerre polynomial of degree n in ascending
order, and positive weights, such that the weighted sum of the values at the roots is the integral with the weight exp(-t) over
the positive half line, for every polynomial of degree below 2n; whatever the environment chooses and whichever eigenvectors
LAPACK returns.  Missing: larger n, for which the companion matrix is wrong (`C70_companion_large_refuted`), and rounding. -/
theorem C179_quadrature_partial (fl : ℚ → ℚ) (hfl : NearestFloat fl) (syev : SyevFn ℝ) (g : GaussRun ℝ) (n : Nat) (hn : 0 < n)
    (hn12 : n < 4096) (hg : GaussAllowed n g) (lapack : ∀ f, IsSyev n f (syev true n f)) :
    ∃ x w, ∃ X W : List Nat → ℝ, gaussLaguerre fl syev g n = .ok (x, w) ∧
      x.IsTensor ∧ x.dims = [n] ∧ x.Represents X ∧ w.IsTensor ∧ w.dims = [n] ∧ w.Represents W ∧
      (∀ i j, i < j → j < n → X [i] < X [j]) ∧ (∀ t, (laguerre n).eval t = 0 ↔ ∃ i, i < n ∧ X [i] = t) ∧
      (∀ i, i < n → 0 < W [i]) ∧
      ∀ p : ℝ[X], p.natDegree < 2 * n →
        ∑ i ∈ Finset.range n, W [i] * p.eval (X [i]) = ∫ t in Set.Ioi 0, p.eval t * Real.exp (-t) := by
  obtain ⟨n, rfl⟩ : ∃ m, n = m + 1 := ⟨n - 1, by omega⟩
  obtain ⟨x, w, X, W, e, hx, hw, asc, root, weight⟩ := gaussLaguerre_eq hfl syev g (by omega) hg fun f _ => lapack f
  have hinj : Function.Injective fun k : Fin (n + 1) => X [k.1] := by
    intro k l h
    by_contra hne
    rcases Nat.lt_or_gt_of_ne (fun e => hne (Fin.ext e)) with hlt | hlt
    · exact absurd h (asc _ _ hlt l.2).ne
    · exact absurd h (asc _ _ hlt k.2).ne'
  have hroot : ∀ k : Fin (n + 1), (laguerre (n + 1)).eval (X [k.1]) = 0 := fun k => root k.1 k.2
  refine ⟨x, w, X, W, e, hx.tensor, hx.dims, hx.elems, hw.tensor, hw.dims, hw.elems, asc, fun t => ⟨fun ht => ?_, ?_⟩, ?_, ?_⟩
  · by_contra hno
    push Not at hno
    have hL : (laguerre (n + 1) : ℝ[X]) ≠ 0 := fun h => laguerre_top (K := ℝ) (n + 1) (by rw [h]; simp)
    have hsub : insert t (Finset.univ.image fun k : Fin (n + 1) => X [k.1]) ⊆ (laguerre (n + 1) : ℝ[X]).roots.toFinset := by
      intro s hs
      rw [Multiset.mem_toFinset, mem_roots hL, IsRoot.def]
      rcases Finset.mem_insert.mp hs with rfl | hs
      · exact ht
      · obtain ⟨k, -, rfl⟩ := Finset.mem_image.mp hs
        exact hroot k
    have hcard := Finset.card_le_card hsub
    rw [Finset.card_insert_of_notMem, Finset.card_image_of_injective _ hinj, Finset.card_univ, Fintype.card_fin] at hcard
    · have h1 := (laguerre (n + 1) : ℝ[X]).roots.toFinset_card_le
      have h2 := card_roots' (laguerre (n + 1) : ℝ[X])
      rw [degree_laguerre] at h2
      omega
    · intro hm
      obtain ⟨k, -, hk⟩ := Finset.mem_image.mp hm
      exact hno k.1 k.2 hk
  · rintro ⟨i, hi, rfl⟩
    exact root i hi
  · intro i hi
    rw [weight i hi]
    exact rootWeight_pos _ hinj hroot _
  · intro p hp
    rw [(moment_integral p).2, rootWeight_exact _ hinj hroot p hp, Finset.sum_range]
    exact Finset.sum_congr rfl fun i _ => by rw [weight i.1 i.2]

/-- C179, no nodes: degree 0 is refused. -/
theorem C179_degree_zero (fl : ℚ → ℚ) (syev : SyevFn ℝ) (g : GaussRun ℝ) : (gaussLaguerre fl syev g 0).isError = true := by
  obtain ⟨c, ec, hc⟩ := gauss_c g.z 0
  have := C70_companion_throws fl g.z c 1 hc.dims (by omega) g.comp
  unfold gaussLaguerre gaussNodes
  rw [ec, Outcome.ok_bind]
  revert this
  cases companion fl g.z g.comp c <;> intro h
  · cases h
  · rfl
  · cases h

/-- The polynomials whose integrals are well known: the weights sum to 1, and the k-th moment is k!. -/
theorem C179_moments_partial (fl : ℚ → ℚ) (hfl : NearestFloat fl) (syev : SyevFn ℝ) (g : GaussRun ℝ) (n : Nat) (hn : 0 < n)
    (hn12 : n < 4096) (hg : GaussAllowed n g) (lapack : ∀ f, IsSyev n f (syev true n f)) :
    ∃ x w, ∃ X W : List Nat → ℝ, gaussLaguerre fl syev g n = .ok (x, w) ∧ x.Represents X ∧ w.Represents W ∧
      ∀ k, k < 2 * n → ∑ i ∈ Finset.range n, W [i] * X [i] ^ k = k.factorial := by
  obtain ⟨x, w, X, W, e, -, -, hx, -, -, hw, -, -, -, hq⟩ := C179_quadrature_partial fl hfl syev g n hn hn12 hg lapack
  refine ⟨x, w, X, W, e, hx, hw, fun k hk => ?_⟩
  have := hq (Polynomial.X ^ k) (by simpa using hk)
  simp only [eval_pow, eval_X] at this
  rw [this]
  have h2 := (moment_integral (Polynomial.X ^ k)).2
  simp only [eval_pow, eval_X] at h2
  rw [h2]
  have := moment_CX (1 : ℝ) k
  simpa using this

/-- C179, the weight function: `weight(t)` is a new tensor of the same shape with the elements exp(-t). -/
theorem C179_weight (z z' : Nat → ℝ) (t : Strided ℝ) (ht : t.IsTensor) (h0 : t.dims ≠ []) (f : List Nat → ℝ) (hf : t.Represents f)
    (sched : List Nat) (hs : ∃ n, 0 < n ∧ Schedule (compoundThreads (numel t.dims) n) sched) :
    ∃ r, lagWeight Real.exp z z' t sched = .ok r ∧ r.IsTensor ∧ r.dims = t.dims ∧ r.Represents fun i => Real.exp (-f i) := by
  have h1 : (Strided.mk' z t.dims).IsTensor := isTensor_mk' z h0
  have : Inhabited ℝ := ⟨0⟩
  obtain ⟨f0, hf0⟩ := exists_represents h1.wf
  obtain ⟨r, e, hr⟩ := (⟨h1, rfl, hf0⟩ : Einsums.Holds _ t.dims f0).assign z' (⟨ht, rfl, hf⟩ : Einsums.Holds t t.dims f) rfl h0
  have h2 := hr.scalar (fun value _ => Real.exp (-value)) 0 hs
  refine ⟨_, ?_, h2.tensor, h2.dims, h2.elems⟩
  unfold lagWeight
  rw [e, Outcome.ok_bind]
  rfl

/-! ### The hypotheses are met -/

/-- Every real symmetric matrix has orthonormal eigenvectors, which can be put in the order of their eigenvalues. -/
theorem syev_real (n : Nat) (f : Nat → Nat → ℝ) : ∃ out, IsSyev n f out := by
  have hA : (mat n n (fromUpper f)).IsHermitian := by
    ext i j
    simp only [Matrix.conjTranspose_apply, mat, star_trivial, fromUpper]
    by_cases h1 : j.1 ≤ i.1
    · by_cases h2 : i.1 ≤ j.1
      · rw [show i.1 = j.1 by omega]
      · rw [if_pos h1, if_neg h2]
    · rw [if_neg h1, if_pos (by omega)]
  let σ := Tuple.sort hA.eigenvalues
  obtain ⟨V, hV⟩ := exists_mat (fun i j => (hA.eigenvectorUnitary : Matrix (Fin n) (Fin n) ℝ) i (σ j))
  have hV : ∀ i j, mat n n V i j = (hA.eigenvectorUnitary : Matrix (Fin n) (Fin n) ℝ) i (σ j) :=
    fun i j => (congrFun (congrFun hV i) j).symm
  let w : Nat → ℝ := fun k => if h : k < n then hA.eigenvalues (σ ⟨k, h⟩) else 0
  have hw : ∀ k : Fin n, w k = hA.eigenvalues (σ k) := fun k => by simp [w]
  refine ⟨(w, V), ?_, ?_, ?_⟩
  · show (mat n n V)ᵀ * mat n n V = 1
    have hU := (Matrix.mem_unitaryGroup_iff'.mp hA.eigenvectorUnitary.2)
    ext i j
    have := congrFun (congrFun hU (σ i)) (σ j)
    simp only [Matrix.mul_apply, Matrix.star_apply, star_trivial, Matrix.one_apply] at this
    simp only [Matrix.mul_apply, Matrix.transpose_apply, Matrix.one_apply, hV]
    rw [this]
    simp
  · show mat n n (fromUpper f) * mat n n V = mat n n V * Matrix.diagonal fun k : Fin n => w k
    ext i j
    have := congrFun (hA.mulVec_eigenvectorBasis (σ j)) i
    rw [Matrix.mul_diagonal, hw j, Matrix.mul_apply]
    simp only [Matrix.mulVec, dotProduct, Pi.smul_apply, smul_eq_mul] at this
    simp only [hV, Matrix.IsHermitian.eigenvectorUnitary_apply]
    rw [this, mul_comm]
  · intro i j hij hj
    show w i ≤ w j
    have := Tuple.monotone_sort hA.eigenvalues (show (⟨i, by omega⟩ : Fin n) ≤ ⟨j, hj⟩ from hij)
    simpa [w, hj, show i < n by omega, σ] using this

/-- `C179_weight`: a tensor of two elements, updated by one thread. -/
example : (⟨[1, 2], 0, [2], [1]⟩ : Strided ℝ).IsTensor ∧ ∃ n, 0 < n ∧ Schedule (compoundThreads (numel [2]) n) (List.range 2) :=
  ⟨⟨rfl, rfl, rfl⟩, schedule_one 2⟩

/-- The choices of one thread. -/
def serialGauss (n : Nat) : GaussRun ℝ where
  z _ := 7
  comp k := List.range (if k = 0 then n - 1 else n)
  value _ _ _ := List.range n
  der _ := List.range (n + 1)
  upd _ := List.range n
  ninf := -1
  maxThreads := 4
  maxTeam _ := 1
  mapTeam _ := 1
  mapOrder _ := List.range n
  parts := [List.range n]

/-- `C179_quadrature_partial`: ten nodes; an eigensolver and the choices of one thread meet its hypotheses. -/
example : ∃ syev : SyevFn ℝ, GaussAllowed 10 (serialGauss 10) ∧ ∀ f, IsSyev 10 f (syev true 10 f) := by
  refine ⟨fun _ n f => (syev_real n f).choose, ?_, fun f => (syev_real 10 f).choose_spec⟩
  exact
    { comp0 := schedule_one 9
      comp1 := schedule_one 10
      comp2 := schedule_one 10
      value := fun _ _ _ => schedule_one 10
      der := schedule_one 11
      upd := fun _ => schedule_one 10
      maxTeam := fun _ => by simp [serialGauss]
      mapTeam := fun _ => by simp [serialGauss]
      mapOrder := fun _ => by
        show Schedule ((List.range 1).map (countersOf 10 1)) (List.range 10)
        have e : (List.range 1).map (countersOf 10 1) = [List.range 10] := by decide
        rw [e]
        generalize List.range 10 = l
        induction l with
        | nil => exact .done (by simp)
        | cons a l ih => exact .step (i := 0) (x := a) (xs := l) rfl ih
      parts := by simp [serialGauss] }

end Einsums.Props
