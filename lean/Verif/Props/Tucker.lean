import Verif.Proofs.TuckerError
import Verif.Props.Lapack
import Verif.Props.Decomposition
import Mathlib.Tactic.IntervalCases
/-
C153 the Tucker decompositions.
-/
namespace Einsums.Props
open Spec Model Matrix

/-- What LAPACK computes from the unfolding of `T` along axis `m`. -/
def unfoldingSvd {R : Type} [Zero R] (gesdd : GesddFn R) (dims : List Nat) (T : List Nat → R) (m : Nat) : SvdResult R :=
  gesdd .all (dims.getD m 0) (numel (dims.eraseIdx m)) (crop (dims.getD m 0) (numel (dims.eraseIdx m)) (unfolding dims T m))

/-- LAPACK returns a singular value decomposition of every unfolding. -/
def UnfoldingSvds {R : Type} [CommRing R] (gesdd : GesddFn R) (dims : List Nat) (T : List Nat → R) : Prop :=
  ∀ m, m < dims.length → IsSvd (dims.getD m 0) (numel (dims.eraseIdx m)) (unfolding dims T m) (unfoldingSvd gesdd dims T m).s
    (unfoldingSvd gesdd dims T m).u (unfoldingSvd gesdd dims T m).vt

section
variable {R : Type} [CommRing R] (gesdd : GesddFn R) (z : Nat → R) (t : Strided R) (ht : t.IsTensor) (h2 : 2 ≤ t.dims.length)
  (T : List Nat → R) (hT : t.Represents T) (ranks : List Nat) (hl : ranks.length = t.dims.length)
  (hr : ∀ (m : Nat) d r, t.dims[m]? = some d → ranks[m]? = some r → r ≤ d) (sched : Nat → List (List Nat × List Nat × Nat))
  (hs : ∀ n, n < t.dims.length → (sched n).Perm (unfoldIterations (unfoldRanges n t).1 (unfoldRanges n t).2))

include ht h2 hT hl hr hs

theorem hoSvd_base : ∃ g fs, tuckerHoSvd gesdd z t ranks [] sched = .ok (g, fs) ∧
    TuckerFactors t.dims ranks fs (hoSvdVectors (svdLeft gesdd) t.dims T) ∧ g.IsTensor ∧ g.dims = ranks ∧
    g.Represents (tuckerElem t.dims T fun m a b => hoSvdVectors (svdLeft gesdd) t.dims T m b a) := by
  obtain ⟨us, u1, u2⟩ := unfoldAll_ok z h2 hT hs
  have h0 : t.dims ≠ [] := by intro e; rw [e] at h2; simp at h2
  exact tuckerHoSvd_ok gesdd z ht h0 hT hl hr (folds := []) (us := us) (sched := sched) u1 (foldsHold_of_unfolded u2)

/-- **C153 (higher-order SVD).** For every tensor of at least two modes and all ranks up to its dimensions, given that LAPACK decomposes the
unfoldings: `tucker_ho_svd` returns, whatever the order of the parallel loops and the content of fresh memory, one factor per mode of
dimensions `dims[m]`×`ranks[m]` with orthonormal columns, the leading left singular vectors of the unfolding, and the core, which is the
tensor multiplied along every axis by the transposed factor; and if the singular values left out are zero, `tucker_reconstruct` gives back
exactly the tensor. -/
theorem C153_ho_svd (lapack : UnfoldingSvds gesdd t.dims T) :
    ∃ g fs F, tuckerHoSvd gesdd z t ranks [] sched = .ok (g, fs) ∧ TuckerFactors t.dims ranks fs F ∧
      OrthonormalColumns t.dims ranks F ∧ (∀ m, F m = (unfoldingSvd gesdd t.dims T m).u) ∧ g.IsTensor ∧ g.dims = ranks ∧
      g.Represents (tuckerElem t.dims T fun m a b => F m b a) ∧
      ((∀ m, m < t.dims.length → ∀ x, ranks.getD m 0 ≤ x → x < t.dims.getD m 0 → x < numel (t.dims.eraseIdx m) →
          (unfoldingSvd gesdd t.dims T m).s x = 0) →
        ∀ z0 z0' z', tuckerReconstruct z0 z0' z' g fs = .ok t) := by
  obtain ⟨g, fs, e1, e2, e3, e4, e5⟩ := hoSvd_base gesdd z t ht h2 T hT ranks hl hr sched hs
  have ho : OrthonormalColumns t.dims ranks (hoSvdVectors (svdLeft gesdd) t.dims T) := by
    refine leftVectors_orthonormal gesdd (K := fun m => numel (t.dims.eraseIdx m)) (A := unfolding t.dims T) hr ?_
    intro m d hd
    have := (lapack m (List.getElem?_eq_some_iff.1 hd).1).left
    unfold unfoldingSvd at this
    rwa [getElem?_getD hd] at this
  refine ⟨g, fs, _, e1, e2, ho, fun m => rfl, e3, e4, e5, ?_⟩
  intro hz z0 z0' z'
  have h0 : g.dims ≠ [] := by rw [e4]; intro e; rw [e] at hl; simp at hl; omega
  obtain ⟨t', r1, r2, r3, r4⟩ := tuckerReconstruct_eq z0 z0' z' e3 h0 e5 (M := t.dims) (by rw [e4, hl]) (factors := fs)
    (F := hoSvdVectors (svdLeft gesdd) t.dims T) (by
      intro n d m hd hm
      rw [e4] at hd
      obtain ⟨f, f1, _, f2, f3⟩ := e2.2 n m d hm hd
      exact ⟨f, f1, f2, f3⟩)
  rw [r1]
  congr 1
  refine Strided.IsTensor.ext_of_represents r2 ht r3 r4 (fun i hi => ?_)
  rw [hT i hi, e4]
  congr 1
  symm
  refine tucker_exact hl T _ ?_ hi
  intro m d r hd hr' a c ha hc
  have hm := (List.getElem?_eq_some_iff.1 hd).1
  have := lapack m hm
  have hz := hz m hm
  rw [getElem?_getD hd] at this hz
  rw [getElem?_getD hr'] at hz
  exact svd_projection this (hr m d r hd hr') hz ha hc

/-- **C153 (higher-order orthogonal iteration).** For every tensor of at least two modes, all ranks up to its dimensions, every limit on the
iterations and whatever the convergence test decides: `tucker_ho_oi` returns factors with orthonormal columns and the core of the tensor for
these factors.  The factors are those of the higher-order SVD, improved by as many steps as the limit allows or as the test lets pass; each
step takes for every axis the left singular vectors of the unfolding of the tensor projected on the other factors of the step before.  If the
ranks are the dimensions, `tucker_reconstruct` gives back exactly the tensor. -/
theorem C153_ho_oi (lapack : ∀ m n A, (mat m m (gesdd .all m n A).u)ᵀ * mat m m (gesdd .all m n A).u = 1) (nIterMax : Int)
    (sched' : Nat → List (List Nat × List Nat × Nat))
    (hs' : ∀ (i : Nat) (hi : i < t.dims.length), (sched' i).Perm (unfoldIterations
      (unfoldRanges i (Strided.mk' z (ranks.set i t.dims[i]))).1 (unfoldRanges i (Strided.mk' z (ranks.set i t.dims[i]))).2))
    (stop : Nat → Bool) :
    ∃ g fs F k, tuckerHoOi gesdd z t ranks nIterMax sched sched' stop = .ok (g, fs) ∧ TuckerFactors t.dims ranks fs F ∧
      OrthonormalColumns t.dims ranks F ∧ g.IsTensor ∧ g.dims = ranks ∧ g.Represents (tuckerElem t.dims T fun m a b => F m b a) ∧
      F = (hoOiVectors (svdLeft gesdd) t.dims ranks T)^[k] (hoSvdVectors (svdLeft gesdd) t.dims T) ∧
      (k : Int) ≤ max 0 nIterMax ∧ (∀ j, j + 1 < k → stop j = false) ∧ ((k : Int) < nIterMax → 0 < k ∧ stop (k - 1) = true) ∧
      (ranks = t.dims → ∀ z0 z0' z', tuckerReconstruct z0 z0' z' g fs = .ok t) := by
  obtain ⟨g, fs, e1, e2, e3, e4, e5⟩ := hoSvd_base gesdd z t ht h2 T hT ranks hl hr sched hs
  obtain ⟨g', fs', k, k1, k2, k3, k4, k5, k6, k7, k8⟩ := hoOiLoop_ok gesdd z ht h2 hT hl hr sched' hs' stop nIterMax.toNat 0 e2 e3 e4 e5
  obtain ⟨K, A, hKA⟩ : ∃ K A, (hoOiVectors (svdLeft gesdd) t.dims ranks T)^[k] (hoSvdVectors (svdLeft gesdd) t.dims T)
      = leftVectors gesdd t.dims K A := by
    match k with
    | 0 => exact ⟨_, _, rfl⟩
    | k + 1 => rw [Function.iterate_succ_apply']; exact ⟨_, _, rfl⟩
  have ho : OrthonormalColumns t.dims ranks (leftVectors gesdd t.dims K A) :=
    leftVectors_orthonormal gesdd hr fun m d _ => lapack _ _ _
  refine ⟨g', fs', _, k, ?_, k2, by rw [hKA]; exact ho, k3, k4, k5, rfl, by omega, by simpa using k7, ?_, ?_⟩
  · unfold tuckerHoOi
    rw [e1]
    exact k1
  · intro h
    simpa using k8 (by omega)
  · intro hrd z0 z0' z'
    have h0 : g'.dims ≠ [] := by rw [k4]; intro e; rw [e] at hl; simp at hl; omega
    obtain ⟨t', r1, r2, r3, r4⟩ := tuckerReconstruct_eq z0 z0' z' k3 h0 k5 (M := t.dims) (by rw [k4, hl]) (factors := fs')
      (F := (hoOiVectors (svdLeft gesdd) t.dims ranks T)^[k] (hoSvdVectors (svdLeft gesdd) t.dims T)) (by
        intro n d m hd hm
        rw [k4] at hd
        obtain ⟨f, f1, _, f2, f3⟩ := k2.2 n m d hm hd
        exact ⟨f, f1, f2, f3⟩)
    rw [r1]
    congr 1
    refine Strided.IsTensor.ext_of_represents r2 ht r3 r4 (fun i hi => ?_)
    rw [hT i hi, k4, hKA, tuckerElem_comp hl]
    congr 1
    symm
    refine tuckerElem_delta T ?_ hi
    intro m a b hm ha hb
    have e := mul_eq_one_comm.1 (lapack (t.dims.getD m 0) (K m) (crop (t.dims.getD m 0) (K m) (A m)))
    have := congrFun (congrFun e ⟨a, ha⟩) ⟨b, hb⟩
    rw [Matrix.mul_apply, Matrix.one_apply] at this
    rw [hrd, sumTo_fin]
    simpa [Matrix.transpose_apply, mat, leftVectors] using this

end

/-- **C153 (the error).** Over any ordered ring, the sum of the squared differences between the tensor and what `tucker_reconstruct` makes of
the result of `tucker_ho_svd` is at most the sum, over all modes, of the squares of the singular values left out. -/
theorem C153_ho_svd_error {S : Type} [CommRing S] [LinearOrder S] [IsStrictOrderedRing S] (gesdd : GesddFn S) (z : Nat → S) (t : Strided S)
    (ht : t.IsTensor) (h2 : 2 ≤ t.dims.length) (T : List Nat → S) (hT : t.Represents T) (ranks : List Nat)
    (hl : ranks.length = t.dims.length) (hr : ∀ (m : Nat) d r, t.dims[m]? = some d → ranks[m]? = some r → r ≤ d)
    (sched : Nat → List (List Nat × List Nat × Nat))
    (hs : ∀ n, n < t.dims.length → (sched n).Perm (unfoldIterations (unfoldRanges n t).1 (unfoldRanges n t).2))
    (lapack : UnfoldingSvds gesdd t.dims T) (z0 z0' : Nat → S) (z' : Nat → Nat → S) :
    ∃ g fs t' T', tuckerHoSvd gesdd z t ranks [] sched = .ok (g, fs) ∧ tuckerReconstruct z0 z0' z' g fs = .ok t' ∧
      t'.dims = t.dims ∧ t'.Represents T' ∧
      squaredError t.dims T T' ≤ sumTo t.dims.length fun m => sumTo (min (t.dims.getD m 0) (numel (t.dims.eraseIdx m))) fun x =>
        if ranks.getD m 0 ≤ x then (unfoldingSvd gesdd t.dims T m).s x ^ 2 else 0 := by
  obtain ⟨g, fs, e1, e2, e3, e4, e5⟩ := hoSvd_base gesdd z t ht h2 T hT ranks hl hr sched hs
  have h0 : g.dims ≠ [] := by rw [e4]; intro e; rw [e] at hl; simp at hl; omega
  obtain ⟨t', r1, r2, r3, r4⟩ := tuckerReconstruct_eq z0 z0' z' e3 h0 e5 (M := t.dims) (by rw [e4, hl]) (factors := fs)
    (F := hoSvdVectors (svdLeft gesdd) t.dims T) (by
      intro n d m hd hm
      rw [e4] at hd
      obtain ⟨f, f1, _, f2, f3⟩ := e2.2 n m d hm hd
      exact ⟨f, f1, f2, f3⟩)
  refine ⟨g, fs, t', _, e1, r1, r3, r4, ?_⟩
  rw [e4]
  unfold squaredError
  have hd : ∀ m (hm : m < t.dims.length), t.dims.getD m 0 = t.dims[m] := fun m hm => getElem?_getD (List.getElem?_eq_getElem hm)
  have hrk : ∀ m, m < t.dims.length → ranks.getD m 0 ≤ t.dims.getD m 0 := by
    intro m hm
    have e1 := List.getElem?_eq_getElem hm
    have e2 := List.getElem?_eq_getElem (show m < ranks.length by omega)
    rw [getElem?_getD e1, getElem?_getD e2]
    exact hr m _ _ e1 e2
  have := tuckerElem_error T (D := t.dims)
    (P := fun m a b => sumTo (ranks.getD m 0) fun x => hoSvdVectors (svdLeft gesdd) t.dims T m a x * hoSvdVectors (svdLeft gesdd) t.dims T m b x)
    (fun m hm => leadingProj_symm _) (fun m hm => leadingProj_idem (by rw [← hd m hm]; exact hrk m hm) (by
      have := (lapack m hm).left
      rw [← hd m hm]
      exact this))
  simp only [tuckerElem_comp hl]
  refine le_trans this (le_of_eq ?_)
  apply sumTo_congr
  intro m hm
  have l := lapack m hm
  have hk := hrk m hm
  rw [hd m hm] at l hk ⊢
  exact modeMul_svd_error hm T l hk

/-- **C153 (outside: one mode).** `tucker_ho_oi` of a tensor of one mode dereferences a pointer that was never set, unless the limit on the
iterations is zero. -/
theorem C153_one_mode_undefined {R : Type} [Add R] [Mul R] [Zero R] (gesdd : GesddFn R) (z : Nat → R) (t : Strided R) (h1 : t.dims.length = 1)
    (ranks : List Nat) (sched sched' : Nat → List (List Nat × List Nat × Nat)) (stop : Nat → Bool) (nIterMax : Int) (hn : 0 < nIterMax)
    (r : Strided R × List (Strided R)) (h : tuckerHoSvd gesdd z t ranks [] sched = .ok r) :
    (tuckerHoOi gesdd z t ranks nIterMax sched sched' stop).isUb = true := by
  obtain ⟨k, hk⟩ : ∃ k, nIterMax.toNat = k + 1 := ⟨nIterMax.toNat - 1, by omega⟩
  unfold tuckerHoOi
  rw [h, hk]
  simp only [Outcome.ok_bind, hoOiLoop, hoOiFolds, h1, List.range_one, List.foldlM_cons, hoOiFold]
  rfl

/-! ### Concrete cases -/

/-- The matrix ((0, 3), (2, 0)). -/
def tuckerEx : Strided Int := ⟨[0, 3, 2, 0], 0, [2, 2], [2, 1]⟩

/-- The identity, or for `swap` the exchange of the first two unit vectors. -/
def permEx (swap : Bool) (i j : Nat) : Int :=
  if (if swap then (if i = 0 then 1 else if i = 1 then 0 else i) else i) = j then 1 else 0

/-- Singular values 3 and 2; for the transposed matrix the left vectors are exchanged, for the matrix itself the right ones. -/
def gesddEx : GesddFn Int := fun _ d k A =>
  ⟨fun x => if x = 0 then 3 else 2, permEx (decide (d = 2 ∧ A 1 0 = 3)), permEx (decide (k = 2 ∧ A 0 1 = 3))⟩

def tuckerExT (i : List Nat) : Int := if i = [0, 1] then 3 else if i = [1, 0] then 2 else 0

def tuckerExSched (dims : Nat → List Nat) : Nat → List (List Nat × List Nat × Nat) := fun n =>
  unfoldIterations (unfoldRanges n (Strided.mk' (fun _ => (0 : Int)) (dims n))).1 (unfoldRanges n (Strided.mk' (fun _ => (0 : Int)) (dims n))).2

theorem tuckerEx_represents : tuckerEx.Represents tuckerExT := by
  intro i hi
  obtain ⟨a, b, rfl, ha, hb⟩ := inBox2_cases (show InBox i [2, 2] from hi)
  interval_cases a <;> interval_cases b <;> decide +kernel

theorem tuckerEx_svds : UnfoldingSvds gesddEx tuckerEx.dims tuckerExT := by
  intro m hm
  have hm : m < 2 := hm
  interval_cases m <;> constructor <;> decide +kernel

theorem permEx_orth (d : Nat) (b : Bool) (h : b = true → d = 2) : (mat d d (permEx b))ᵀ * mat d d (permEx b) = 1 := by
  cases b with
  | false =>
    have : mat d d (permEx false) = 1 := by
      ext i j
      simp [mat, permEx, Matrix.one_apply, Fin.ext_iff]
    rw [this]
    simp
  | true =>
    obtain rfl := h rfl
    decide +kernel

theorem gesddEx_orth (m n : Nat) (A : Mat Int) : (mat m m (gesddEx .all m n A).u)ᵀ * mat m m (gesddEx .all m n A).u = 1 := by
  apply permEx_orth
  intro h
  exact (of_decide_eq_true h).1

theorem tuckerEx_ranks (r1 r2 : Nat) (h1 : r1 ≤ 2) (h2 : r2 ≤ 2) (m d r : Nat) (hd : tuckerEx.dims[m]? = some d) (hr : [r1, r2][m]? = some r) :
    r ≤ d := by
  have hm : m < 2 := (List.getElem?_eq_some_iff.1 hd).1
  interval_cases m <;> simp [tuckerEx] at hd hr <;> omega

example := C153_ho_svd gesddEx (fun _ => 9) tuckerEx ⟨rfl, rfl, rfl⟩ (by decide) tuckerExT tuckerEx_represents [2, 2] rfl
  (tuckerEx_ranks 2 2 (by decide) (by decide)) (tuckerExSched fun _ => [2, 2]) (fun _ _ => List.Perm.refl _) tuckerEx_svds

example := C153_ho_svd_error gesddEx (fun _ => 9) tuckerEx ⟨rfl, rfl, rfl⟩ (by decide) tuckerExT tuckerEx_represents [1, 1] rfl
  (tuckerEx_ranks 1 1 (by decide) (by decide)) (tuckerExSched fun _ => [2, 2]) (fun _ _ => List.Perm.refl _) tuckerEx_svds

example := C153_ho_oi gesddEx (fun _ => 0) tuckerEx ⟨rfl, rfl, rfl⟩ (by decide) tuckerExT tuckerEx_represents [1, 1] rfl
  (tuckerEx_ranks 1 1 (by decide) (by decide)) (tuckerExSched fun _ => [2, 2]) (fun _ _ => List.Perm.refl _) gesddEx_orth 2
  (tuckerExSched fun i => [1, 1].set i 2) (fun i hi => by
    have hi : i < 2 := hi
    interval_cases i <;> exact List.Perm.refl _) (fun _ => false)

/-- One singular value of each unfolding: the element 3 remains. -/
example : (do
    let r ← tuckerHoSvd gesddEx (fun _ => 9) tuckerEx [1, 1] [] (tuckerExSched fun _ => [2, 2])
    tuckerReconstruct (fun _ => 9) (fun _ => 9) (fun _ _ => 9) r.1 r.2) = .ok ⟨[0, 3, 0, 0], 0, [2, 2], [2, 1]⟩ := by decide +kernel

example : ∃ r, tuckerHoOi gesddEx (fun _ => 9) tuckerEx [1, 1] 2 (tuckerExSched fun _ => [2, 2]) (tuckerExSched fun i => [1, 1].set i 2)
    (fun _ => false) = .ok r ∧ r.1 = ⟨[3], 0, [1, 1], [1, 1]⟩ := by
  refine ⟨_, rfl, ?_⟩
  decide +kernel

/-- **C153 (outside: ranks).** A rank larger than the dimension, or a rank missing, is not reported: memory past the end of U, or past the end
of `ranks`, is read. -/
theorem C153_ranks_undefined :
    (tuckerHoSvd gesddEx (fun _ => 9) tuckerEx [3, 2] [] (tuckerExSched fun _ => [2, 2])).isUb = true ∧
    (tuckerHoSvd gesddEx (fun _ => 9) tuckerEx [2] [] (tuckerExSched fun _ => [2, 2])).isUb = true := by
  constructor <;> decide +kernel

/-- A vector. -/
example : (tuckerHoOi gesddEx (fun _ => 9) ⟨[5], 0, [1], [1]⟩ [1] 1 (tuckerExSched fun _ => [1]) (tuckerExSched fun _ => [1])
    (fun _ => false)).isUb = true :=
  C153_one_mode_undefined gesddEx (fun _ => 9) ⟨[5], 0, [1], [1]⟩ rfl [1] _ _ _ 1 (by decide) _ rfl

end Einsums.Props
