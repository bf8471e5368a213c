import Verif.Proofs.Als
import Verif.Props.Decomposition
/-
C44 the orders used by ALS agree; C68 the ALS iteration never increases the error.
-/
namespace Einsums.Props
open Spec Model

section
variable {R : Type} [CommSemiring R] [BEq R] [LawfulBEq R] [Div R]

/-! ### C44: unfolding and Khatri-Rao product -/

/-- **C44.** For at least two modes of non-zero dimensions, every CP rank > 0, all factors, every mode `n`, every order
of the parallel loops and every content of fresh memory: `parafac` forms, from the other factors in increasing mode
order, a matrix `KR` such that the mode-`n` unfolding of the CP reconstruction is `factors[n]` times the transpose of
`KR`: `U(a,c) = Σ_r F n (a,r) K(c,r)`; and `KR` is their Khatri-Rao product, the row being the row-major position of the
multi-index of the other modes. -/
theorem C44_orders (z z' z'' : Nat → R) (check : Bool) (dims : List Nat) (rank : Nat) (hp : ∀ d ∈ dims, d ≠ 0)
    (hr : rank ≠ 0) (h2 : 2 ≤ dims.length) (factors : List (Strided R)) (F : Nat → Nat → Nat → R)
    (hF : FactorsOk dims rank factors F) (sched : List (List Nat)) (hs : sched.Perm (box dims)) (n : Nat)
    (hn : n < dims.length) :
    ∃ (t V KR : Strided R) (K : Nat → Nat → R), parafacReconstruct z dims.length factors sched = .ok t ∧
      (List.range dims.length).foldlM (alsInner z' check rank factors n) none = .ok (some (V, KR)) ∧
      KR.dims = [numel (dims.eraseIdx n), rank] ∧ (KR.Represents fun i => K (i.getD 0 0) (i.getD 1 0)) ∧
      (∀ j r, InBox j (dims.eraseIdx n) → r < rank →
        K (rowMajor j (dims.eraseIdx n)) r = krElem F (otherModes dims.length n) j r) ∧
      ∀ sched', sched'.Perm (unfoldIterations (unfoldRanges n t).1 (unfoldRanges n t).2) →
        ∃ U, unfold z'' n t sched' = .ok U ∧ U.dims = [dims[n], numel (dims.eraseIdx n)] ∧
          U.Represents fun i => sumTo rank fun r => F n (i.getD 0 0) r * K (i.getD 1 0) r := by
  have h0 : dims ≠ [] := by intro e; rw [e] at h2; simp at h2
  have : Inhabited R := ⟨0⟩
  obtain ⟨t, t1, t2, t3, t4⟩ := parafac_eq z h0 hF.1 (fun m f d a b => (hF.2 m f d a b).2) hs
  obtain ⟨st, s1, s2⟩ := alsInner_loop z' check hp hr hF n dims.length (Nat.le_refl _)
  have hone : otherModes dims.length n ≠ [] := by
    intro e
    have := congrArg List.length e
    rw [otherModes_eq hn, List.length_eraseIdx_of_lt (by simpa using hn)] at this
    simp at this
    omega
  match st, s2 with
  | none, s2 => exact absurd s2 hone
  | some (V, KR), ⟨_, _, _, _, k1, k2, k3⟩ =>
    rw [otherModes_dims hn] at k2 k3
    obtain ⟨fK, hfK⟩ := exists_represents k1.wf
    have hK : ∀ j r, InBox j (dims.eraseIdx n) → r < rank →
        fK [rowMajor j (dims.eraseIdx n), r] = krElem F (otherModes dims.length n) j r := by
      intro j r hj hr'
      have e := k3 j r hj hr'
      rw [hfK _ (by rw [k2]; exact ⟨rowMajor_lt hj, hr', trivial⟩)] at e
      simpa using e
    refine ⟨t, V, KR, fun c r => fK [c, r], t1, s1, k2, ?_, hK, ?_⟩
    · intro i hi
      rw [hfK i hi]
      rw [k2] at hi
      match i, hi with
      | [a, b], _ => rfl
    · intro sched' hs'
      subst t3
      obtain ⟨U, u1, u2, u3, u4⟩ := unfold_insert z'' hn h2 t4 hs'
      refine ⟨U, u1, u3, ?_⟩
      intro i hi
      rw [u3] at hi
      match i, hi with
      | [a, c], hi =>
        obtain ⟨j, hj, hjc⟩ : ∃ j, InBox j (t.dims.eraseIdx n) ∧ rowMajor j (t.dims.eraseIdx n) = c := by
          have hc : c ∈ (box (t.dims.eraseIdx n)).map fun i => rowMajor i (t.dims.eraseIdx n) := by
            rw [map_rowMajor_box]; exact List.mem_range.2 hi.2.1
          obtain ⟨j, hj, e⟩ := List.mem_map.1 hc
          exact ⟨j, mem_box.1 hj, e⟩
        rw [← hjc, u4 a j hi.1 hj]
        congr 1
        have := cpElem_insert hn rank F (j := j) (by rw [hj.length, List.length_eraseIdx_of_lt hn]) a
        unfold cpElem at this
        rw [this]
        apply sumTo_congr
        intro r hr'
        rw [← hK j r hj hr']
        rfl

/-- Three modes (2, 1 and 2 rows), rank 2, mode 1. -/
example : (List.range 3).foldlM (alsInner (fun _ => (9 : Int)) true 2
      [⟨[1, 2, 3, 4], 0, [2, 2], [2, 1]⟩, ⟨[7, 7], 0, [1, 2], [2, 1]⟩, ⟨[5, 6, 10, 100], 0, [2, 2], [2, 1]⟩] 1) none
    = .ok (some (⟨[10 * 125, 14 * 1030, 14 * 1030, 20 * 10036], 0, [2, 2], [2, 1]⟩,
        ⟨[5, 12, 10, 200, 15, 24, 30, 400], 0, [4, 2], [2, 1]⟩)) := by decide +kernel

end

/-! ### C68: alternating least squares -/

section
variable {S : Type} [CommRing S] [LinearOrder S] [IsStrictOrderedRing S] [BEq S] [LawfulBEq S] [Div S]

/-- **C68 (one update).** Over any ordered ring, for at least two modes of non-zero dimensions, every CP rank > 0 and
every LAPACK that meets its contract: updating factor `n` does not fail, changes only that factor, and if LAPACK reports
success then no other choice of factor `n` has a smaller sum of squared differences from the tensor. -/
theorem C68_update_is_least_squares (solve : GesvFn S) (hsolve : GesvContract solve) (z z' : Nat → S) (check : Bool)
    (t : Strided S) (T : List Nat → S) (hT : t.Represents T) (hp : ∀ d ∈ t.dims, d ≠ 0)
    (h2 : 2 ≤ t.dims.length) (rank : Nat) (hr : rank ≠ 0) (factors : List (Strided S)) (F : Nat → Nat → Nat → S)
    (hF : FactorsOk t.dims rank factors F) (sched : Nat → List (List Nat × List Nat × Nat))
    (hs : ∀ n, n < t.dims.length → (sched n).Perm (unfoldIterations (unfoldRanges n t).1 (unfoldRanges n t).2))
    (n : Nat) (hn : n < t.dims.length) :
    ∃ us fs ok X, unfoldAll z t sched = .ok us ∧ alsUpdate solve z' check rank us factors n = .ok (fs, ok) ∧
      FactorsOk t.dims rank fs (withFactor F n X) ∧
      (ok = true → ∀ Y, cpError t.dims rank T (withFactor F n X) ≤ cpError t.dims rank T (withFactor F n Y)) := by
  obtain ⟨us, u1, u2⟩ := unfoldAll_ok z h2 hT hs
  obtain ⟨fs, b, X, a1, a2, a3⟩ := alsUpdate_min hsolve z' check hp hr h2 hF u2 hn
  exact ⟨us, fs, b, X, u1, a1, a2, a3⟩

/-- **C68 (parafac).** Over any ordered ring, for every tensor or view of at least two non-empty modes, every CP rank
> 0, all starting factors, every limit on the iterations and whatever the convergence test decides: `parafac` returns
factors of the right shapes, and if LAPACK reported success in every solve, their sum of squared differences from the
tensor is at most that of the starting factors. -/
theorem C68_parafac_monotone (solve : GesvFn S) (hsolve : GesvContract solve) (z : Nat → S) (check : Bool)
    (t : Strided S) (T : List Nat → S) (hT : t.Represents T) (hp : ∀ d ∈ t.dims, d ≠ 0)
    (h2 : 2 ≤ t.dims.length) (rank : Nat) (hr : rank ≠ 0) (nIterMax : Int) (start : List (Strided S))
    (F : Nat → Nat → Nat → S) (hF : FactorsOk t.dims rank start F) (sched : Nat → List (List Nat × List Nat × Nat))
    (hs : ∀ n, n < t.dims.length → (sched n).Perm (unfoldIterations (unfoldRanges n t).1 (unfoldRanges n t).2))
    (stop : Nat → Bool) :
    ∃ fs ok F', parafac solve z check t rank nIterMax start sched stop = .ok (fs, ok) ∧ FactorsOk t.dims rank fs F' ∧
      (ok = true → cpError t.dims rank T F' ≤ cpError t.dims rank T F) := by
  obtain ⟨us, u1, u2⟩ := unfoldAll_ok z h2 hT hs
  obtain ⟨st, F', a1, a2, a3⟩ := alsLoop_ok hsolve z check hp hr h2 u2 stop nIterMax.toNat 0 (st := (start, true)) hF
  refine ⟨st.1, st.2, F', ?_, a2, fun h => (a3 h).2⟩
  unfold parafac
  rw [u1]
  exact a1

end

/-- A solver for 1×1 integer systems with integer solutions. -/
def intSolve : GesvFn Int := fun n _ A lda B ldb =>
  if n = 1 ∧ lda = 1 ∧ ldb = 1 ∧ (∀ b ∈ B, A.getD 0 0 ∣ b) then (B.map (· / A.getD 0 0), true) else (B, false)

theorem intSolve_contract : GesvContract intSolve := by
  intro n nrhs A lda B ldb _ _ _ h4
  unfold intSolve
  split
  · rename_i h
    obtain ⟨rfl, rfl, rfl, h⟩ := h
    refine ⟨by simp, fun _ c i hc hi => ?_⟩
    obtain rfl : i = 0 := by omega
    have hcB : c < B.length := by omega
    have := h B[c] (List.getElem_mem hcB)
    rw [List.getD_eq_getElem?_getD] at this
    simp only [sumTo, List.range_one, List.map_cons, List.map_nil, List.sum_cons, List.sum_nil, add_zero,
      Nat.mul_one, List.getD_eq_getElem?_getD, List.getElem?_map, List.getElem?_eq_getElem hcB,
      Option.map_some, Option.getD_some]
    exact Int.mul_ediv_cancel' this
  · exact ⟨rfl, fun h => absurd h (by simp)⟩

/-- Two iterations on the matrix ((2,4),(0,0)) with CP rank 1, from (5,5) and (1,0): every solve succeeds and the result
is exact. -/
example : parafac intSolve (fun _ => 9) true ⟨[2, 4, 0, 0], 0, [2, 2], [2, 1]⟩ 1 1
    [⟨[5, 5], 0, [2, 1], [1, 1]⟩, ⟨[1, 0], 0, [2, 1], [1, 1]⟩]
    (fun n => unfoldIterations (unfoldRanges n (⟨[2, 4, 0, 0], 0, [2, 2], [2, 1]⟩ : Strided Int)).1
      (unfoldRanges n (⟨[2, 4, 0, 0], 0, [2, 2], [2, 1]⟩ : Strided Int)).2) (fun _ => false)
    = .ok ([⟨[2, 0], 0, [2, 1], [1, 1]⟩, ⟨[1, 2], 0, [2, 1], [1, 1]⟩], true) := by decide +kernel

end Einsums.Props
