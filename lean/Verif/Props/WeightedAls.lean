import Verif.Proofs.WeightedAls
import Verif.Props.Als
/-
C152: `weighted_parafac`.
-/
namespace Einsums.Props
open Spec Model

section
variable {S : Type} [CommRing S] [LinearOrder S] [IsStrictOrderedRing S] [BEq S] [LawfulBEq S] [Div S]

/-- **C152 (one update).** Over any ordered ring, for every tensor or view of at least two non-empty modes, every vector or view of
weights as long as the first mode (of any sign, and zero), every CP rank > 0, and every LAPACK that meets its contract: updating factor
`n` changes only that factor, and if LAPACK reports success then no other choice of factor `n` has a smaller weighted sum of squared
differences from the tensor. -/
theorem C152_update_is_weighted_least_squares (solve : GesvFn S) (hsolve : GesvContract solve) (z z' : Nat → S) (check : Bool)
    (t : Strided S) (T : List Nat → S) (hT : t.Represents T) (hp : ∀ d ∈ t.dims, d ≠ 0)
    (h2 : 2 ≤ t.dims.length) (w : Operand S) (g : Nat → S) (hw : w.t.dims = [t.dims.headD 0])
    (hg : w.t.Represents fun i => g (i.headD 0)) (rank : Nat) (hr : rank ≠ 0) (factors : List (Strided S))
    (F : Nat → Nat → Nat → S) (hF : FactorsOk t.dims rank factors F) (sched sched' : Nat → List (List Nat × List Nat × Nat))
    (hs : ∀ n, n < t.dims.length → (sched n).Perm (unfoldIterations (unfoldRanges n t).1 (unfoldRanges n t).2))
    (hs' : ∀ n (u : Strided S), u.dims = t.dims → n < t.dims.length →
      (sched' n).Perm (unfoldIterations (unfoldRanges n u).1 (unfoldRanges n u).2))
    (tsched wsched : List (List Nat)) (ht : tsched.Perm (box t.dims)) (hws : wsched.Perm (box [t.dims.headD 0, rank]))
    (n : Nat) (hn : n < t.dims.length) :
    ∃ us us' fs ok X, unfoldAll z t sched = .ok us ∧ reweight z check t w sched' tsched us = .ok us' ∧
      weightedUpdate solve z' check rank w.t wsched us' factors n = .ok (fs, ok) ∧
      FactorsOk t.dims rank fs (withFactor F n X) ∧
      (ok = true → ∀ Y, weightedError t.dims rank g T (withFactor F n X) ≤ weightedError t.dims rank g T (withFactor F n Y)) := by
  obtain ⟨us, u1, u2⟩ := unfoldAll_ok z h2 hT hs
  have hl : t.dims.length ≤ us.length := by
    obtain ⟨U, e, _⟩ := u2 (t.dims.length - 1) (by omega)
    obtain ⟨h, _⟩ := List.getElem?_eq_some_iff.1 e
    omega
  obtain ⟨us', v1, v2⟩ := reweight_ok z check h2 hT ⟨hw, hg⟩ hs' ht hl u2
  obtain ⟨fs, b, X, a1, a2, a3⟩ := weightedUpdate_min hsolve z' check hp hr h2 hF ⟨hw, hg⟩ hws v2 hn
  exact ⟨us, us', fs, b, X, u1, v1, a1, a2, a3⟩

/-- **C152 (weighted_parafac).** Over any ordered ring, for every tensor or view of at least two non-empty modes, all weights, every CP
rank > 0, all starting factors, every limit on the iterations and whatever the convergence test decides: `weighted_parafac` returns
factors of the right shapes, and if LAPACK reported success in every solve, their weighted sum of squared differences from the tensor is
at most that of the starting factors. -/
theorem C152_weighted_parafac_monotone (solve : GesvFn S) (hsolve : GesvContract solve) (z : Nat → S) (check : Bool)
    (t : Strided S) (T : List Nat → S) (hT : t.Represents T) (hp : ∀ d ∈ t.dims, d ≠ 0)
    (h2 : 2 ≤ t.dims.length) (w : Operand S) (g : Nat → S) (hw : w.t.dims = [t.dims.headD 0])
    (hg : w.t.Represents fun i => g (i.headD 0)) (rank : Nat) (hr : rank ≠ 0) (nIterMax : Int) (start : List (Strided S))
    (F : Nat → Nat → Nat → S) (hF : FactorsOk t.dims rank start F) (sched sched' : Nat → List (List Nat × List Nat × Nat))
    (hs : ∀ n, n < t.dims.length → (sched n).Perm (unfoldIterations (unfoldRanges n t).1 (unfoldRanges n t).2))
    (hs' : ∀ n (u : Strided S), u.dims = t.dims → n < t.dims.length →
      (sched' n).Perm (unfoldIterations (unfoldRanges n u).1 (unfoldRanges n u).2))
    (tsched wsched : List (List Nat)) (ht : tsched.Perm (box t.dims)) (hws : wsched.Perm (box [t.dims.headD 0, rank]))
    (stop : Nat → Bool) :
    ∃ fs ok F', weightedParafac solve z check t w rank nIterMax start sched sched' tsched wsched stop = .ok (fs, ok) ∧
      FactorsOk t.dims rank fs F' ∧ (ok = true → weightedError t.dims rank g T F' ≤ weightedError t.dims rank g T F) := by
  obtain ⟨us, u1, u2⟩ := unfoldAll_ok z h2 hT hs
  have hl : t.dims.length ≤ us.length := by
    obtain ⟨U, e, _⟩ := u2 (t.dims.length - 1) (by omega)
    obtain ⟨h, _⟩ := List.getElem?_eq_some_iff.1 e
    omega
  obtain ⟨us', v1, v2⟩ := reweight_ok z check h2 hT ⟨hw, hg⟩ hs' ht hl u2
  obtain ⟨st, F', a1, a2, a3⟩ := weightedLoop_ok hsolve z check hp hr h2 ⟨hw, hg⟩ hws v2 stop nIterMax.toNat 0 (st := (start, true)) hF
  refine ⟨st.1, st.2, F', ?_, a2, fun h => (a3 h).2⟩
  unfold weightedParafac
  rw [u1]
  simp only [Outcome.ok_bind, v1]
  exact a1

omit [LinearOrder S] [IsStrictOrderedRing S] in
/-- **C152 (wrong length).** Weights of another length end the program with a message. -/
theorem C152_length (solve : GesvFn S) (z : Nat → S) (check : Bool) (t : Strided S) (T : List Nat → S) (hT : t.Represents T)
    (h2 : 2 ≤ t.dims.length) (w : Operand S) (g : Nat → S) (d : Nat) (hw : w.t.dims = [d]) (hd : d ≠ t.dims.headD 0)
    (hg : w.t.Represents fun i => g (i.headD 0)) (rank : Nat) (nIterMax : Int) (start : List (Strided S))
    (sched sched' : Nat → List (List Nat × List Nat × Nat))
    (hs : ∀ n, n < t.dims.length → (sched n).Perm (unfoldIterations (unfoldRanges n t).1 (unfoldRanges n t).2))
    (tsched wsched : List (List Nat)) (stop : Nat → Bool) :
    ∃ m, weightedParafac solve z check t w rank nIterMax start sched sched' tsched wsched stop = .error m := by
  obtain ⟨us, u1, u2⟩ := unfoldAll_ok z h2 hT hs
  obtain ⟨sq, q1, q2, q3⟩ := squareWeights_ok z check hw hg
  refine ⟨"The first dimension of the tensor and the dimension of the weight DO NOT match", ?_⟩
  unfold weightedParafac reweight
  rw [u1]
  simp only [Outcome.ok_bind, q1]
  unfold weightTensor
  rw [if_pos]
  · rfl
  · have : t.dim 0 = t.dims.headD 0 := by unfold Strided.dim; cases t.dims <;> rfl
    rw [this]
    rw [show sq.dim 0 = d by simp [Strided.dim, q2]]
    exact fun h => hd h.symm

end

/-- The matrix ((2,4),(1,2)) with weights (1,2) and CP rank 1, from (5,5) and (1,0): the solves succeed and the result is exact. -/
example : weightedParafac intSolve (fun _ => 9) true ⟨[2, 4, 1, 2], 0, [2, 2], [2, 1]⟩ ⟨⟨[1, 2], 0, [2], [1]⟩, false, true⟩ 1 1
    [⟨[5, 5], 0, [2, 1], [1, 1]⟩, ⟨[1, 0], 0, [2, 1], [1, 1]⟩]
    (fun n => unfoldIterations (unfoldRanges n (⟨[2, 4, 1, 2], 0, [2, 2], [2, 1]⟩ : Strided Int)).1
      (unfoldRanges n (⟨[2, 4, 1, 2], 0, [2, 2], [2, 1]⟩ : Strided Int)).2)
    (fun n => unfoldIterations (unfoldRanges n (⟨[2, 4, 1, 2], 0, [2, 2], [2, 1]⟩ : Strided Int)).1
      (unfoldRanges n (⟨[2, 4, 1, 2], 0, [2, 2], [2, 1]⟩ : Strided Int)).2) (box [2, 2]) (box [2, 1]) (fun _ => false)
    = .ok ([⟨[2, 1], 0, [2, 1], [1, 1]⟩, ⟨[1, 2], 0, [2, 1], [1, 1]⟩], true) := by decide +kernel

end Einsums.Props
