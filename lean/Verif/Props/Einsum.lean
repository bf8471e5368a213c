import Verif.Proofs.EinsumPar
import Mathlib.Algebra.Ring.Int.Defs
import Mathlib.Algebra.Ring.Nat
/-
C15–C18: the generic einsum algorithm.

Labels are any type; `δ l` is the dimension belonging to label `l`; `fA`, `fB`, `fC` are the elements
of the tensors as functions of the multi-index; `ls` lists the contracted labels once each.
-/
namespace Einsums.Props
open Spec Model

variable {L : Type} [DecidableEq L]

/-- **C15.** Over any commutative (semi)ring, for any ranks and label patterns in which every label of
`A` and `B` is in `C` or shared, and in which no contracted label is repeated in `A`: the generic
einsum terminates normally (no access is out of range), and for every assignment `ρ` of in-range values
to the labels, the element of the result at the `C` labels is
`cp * old + ab * Σ_{contracted labels} A * B`.  Elements of `C` that are not of this form (off-diagonal
elements when `C` repeats a label) keep their value, and nothing outside `C`'s own region changes. -/
theorem C15_contraction {R : Type} [CommSemiring R] [BEq R] [LawfulBEq R]
    (δ : L → Nat) (Al Bl Cl ls : List L) (A B C : Strided R) (fA fB fC : List Nat → R) (cp ab : R)
    (dA : A.dims = Al.map δ) (dB : B.dims = Bl.map δ) (dC : C.dims = Cl.map δ)
    (hA : A.Represents fA) (hB : B.Represents fB) (hC : C.Represents fC) (w : C.WF)
    (coverA : ∀ l ∈ Al, l ∈ Cl ∨ l ∈ Bl) (coverB : ∀ l ∈ Bl, l ∈ Cl ∨ l ∈ Al)
    (once : ∀ l ∈ ls, Al.count l = 1) (hls : Contracted Al Bl Cl ls) :
    ∃ C', einsumGeneric cp Cl C ab Al A Bl B = .ok C' ∧ C.Frame C' ∧
      (∀ ρ, InRange δ Cl ρ → C'.read (toIdx (Cl.map ρ))
        = .ok (cp * fC (Cl.map ρ) + ab * contraction δ ls Al Bl fA fB ρ)) ∧
      (∀ i, InBox i C.dims → (∀ ρ, InRange δ Cl ρ → i ≠ Cl.map ρ) → C'.read (toIdx i) = .ok (fC i)) := by
  have hc : Compat δ Al Bl Cl A B C :=
    ⟨dA, dB, dC, coverA, coverB, fun l h1 h2 h3 => once l ((hls.2 l).2 ⟨h1, h2, h3⟩)⟩
  obtain ⟨C', f', h1, fr, r, k1, k2⟩ := einsumGeneric_lawfree hc hA hB w hC cp ab
  refine ⟨C', h1, fr, ?_, ?_⟩
  · intro ρ hρ
    rw [r _ (by rw [fr.dims, dC]; exact inBox_map hρ), k1 ρ hρ, updateTarget_eq,
      targetValue_eq ab δ hls]
  · intro i hi hne
    rw [r _ (by rw [fr.dims]; exact hi), k2 i hne]

/-- **C15 (scalar result).** The same with a scalar `C` and at least one contracted label. -/
theorem C15_contraction_scalar {R : Type} [CommSemiring R] [BEq R] [LawfulBEq R]
    (δ : L → Nat) (Al Bl ls : List L) (A B : Strided R) (fA fB : List Nat → R) (cp c ab : R)
    (dA : A.dims = Al.map δ) (dB : B.dims = Bl.map δ)
    (hA : A.Represents fA) (hB : B.Represents fB)
    (coverA : ∀ l ∈ Al, l ∈ Bl) (coverB : ∀ l ∈ Bl, l ∈ Al) (hne : Al ≠ [])
    (once : ∀ l ∈ ls, Al.count l = 1) (hls : Contracted Al Bl [] ls) :
    einsumGenericScalar cp c ab Al A Bl B
      = .ok (cp * c + ab * contraction δ ls Al Bl fA fB fun _ => 0) := by
  have hc : Compat δ Al Bl [] A B (⟨[], 0, [], []⟩ : Strided R) :=
    ⟨dA, dB, rfl, fun l h => .inr (coverA l h), fun l h => .inr (coverB l h),
      fun l h1 h2 h3 => once l ((hls.2 l).2 ⟨h1, h2, h3⟩)⟩
  have hok : labelsOk [] (unique (links Al Bl [])) Al Bl = true := by
    simp only [labelsOk, List.all_eq_true, List.mem_append, Bool.or_eq_true, decide_eq_true_eq,
      mem_unique, mem_links]
    intro l hl
    right
    rcases hl with hl | hl
    · exact ⟨hl, coverA l hl, by simp⟩
    · exact ⟨coverB l hl, hl, by simp⟩
  have hs := targetSum_eq hc hA hB ab (tc := []) trivial (fun _ => 0)
  obtain ⟨l0, hl0⟩ := List.exists_mem_of_ne_nil Al hne
  have hlu : l0 ∈ unique (links Al Bl ([] : List L)) := by
    rw [mem_unique, mem_links]; exact ⟨hl0, coverA l0 hl0, by simp⟩
  have hlen : (dimsFor A.dims (findTypeWithPosition (unique (links Al Bl [])) Al)).length ≠ 0 := by
    rw [dA, dimsFor_find_once]
    · simp only [List.length_map, ne_eq, List.length_eq_zero_iff]
      intro h; rw [h] at hlu; simp at hlu
    · intro l hl
      rw [mem_unique, mem_links] at hl
      exact once l ((hls.2 l).2 hl)
  unfold targetSum at hs
  rw [if_pos hlen] at hs
  unfold einsumGenericScalar
  simp only [hok, Bool.true_eq_false, if_false]
  rw [show unique ([] : List L) = [] from rfl] at hs
  rw [hs]
  simp only [Outcome.ok_bind, updateTarget_eq]
  rw [targetValue_eq ab δ hls]
  rfl

/-! #### A concrete case of C15 -/

/-- 2×3 matrix `A`, 3×2 matrix `B`, 2×2 matrix `C`. -/
def exA : Strided Int := { data := [1, 2, 3, 4, 5, 6], off := 0, dims := [2, 3], strides := [3, 1] }
def exB : Strided Int := { data := [1, 0, 2, 1, 0, 1], off := 0, dims := [3, 2], strides := [2, 1] }
def exC : Strided Int := { data := [10, 20, 30, 40], off := 0, dims := [2, 2], strides := [2, 1] }
def exδ : Nat → Nat := fun l => if l = 2 then 3 else 2

example : ∃ C', einsumGeneric 2 [0, 1] exC 3 [0, 2] exA [2, 1] exB = .ok C' ∧
    C'.read [1, 0] = .ok (2 * 30 + 3 * (4 * 1 + 5 * 2 + 6 * 0)) := by
  have tA : exA.IsTensor := ⟨rfl, by decide, by decide⟩
  have tB : exB.IsTensor := ⟨rfl, by decide, by decide⟩
  have tC : exC.IsTensor := ⟨rfl, by decide, by decide⟩
  obtain ⟨C', h1, _, h2, _⟩ := C15_contraction exδ [0, 2] [2, 1] [0, 1] [2] exA exB exC
    (fun i => exA.data.getD (rowMajor i [2, 3]) 0) (fun i => exB.data.getD (rowMajor i [3, 2]) 0)
    (fun i => exC.data.getD (rowMajor i [2, 2]) 0) 2 3 (by decide) (by decide) (by decide)
    (tA.represents_iff.2 (by decide)) (tB.represents_iff.2 (by decide)) (tC.represents_iff.2 (by decide))
    tC.wf (by decide) (by decide) (by decide) ⟨by decide, by intro l; simp; omega⟩
  exact ⟨C', h1, h2 (fun l => if l = 0 then 1 else 0) (by unfold InRange exδ; decide)⟩

/-- A pattern where `C` repeats a label: only the diagonal is updated. -/
example : einsumGeneric 1 [0, 0] exC 1 [0] (⟨[5, 7], 0, [2], [1]⟩ : Strided Int) [0] ⟨[1, 2], 0, [2], [1]⟩
    = .ok ⟨[15, 20, 30, 54], 0, [2, 2], [2, 1]⟩ := by decide

/-- A label repeated in `B` only is summed along the diagonal of `B`. -/
example : ∃ C', einsumGenericScalar 1 (0 : Int) 1 [0] ⟨[1, 1], 0, [2], [1]⟩ [0, 0] exC = .ok C' ∧ C' = 50 :=
  ⟨_, rfl, by decide⟩

/-! ### C16 -/

/-- **C16 (refuted, exact).** For every dimension `n` and all contents, the generic einsum of
`C() = A(i,i) B(i)` adds `n` times the diagonal sum: the loop runs over both occurrences of the label. -/
theorem C16_overcount {R : Type} [CommSemiring R] [BEq R] [LawfulBEq R] (l : L) (n : Nat)
    (A B : Strided R) (fA fB : List Nat → R) (cp c ab : R) (dA : A.dims = [n, n]) (dB : B.dims = [n])
    (hA : A.Represents fA) (hB : B.Represents fB) :
    einsumGenericScalar cp c ab [l, l] A [l] B
      = .ok (cp * c + n • (ab * ((List.range n).map fun x => fA [x, x] * fB [x]).sum)) := by
  have hlinks : unique (links [l, l] [l] []) = [l] := by simp [links, intersect, difference, unique, uniqueAux]
  unfold einsumGenericScalar
  rw [hlinks]
  have hok : labelsOk ([] : List L) [l] [l, l] [l] = true := by simp [labelsOk]
  simp only [hok, Bool.true_eq_false, if_false]
  have hld : dimsFor A.dims (findTypeWithPosition [l] [l, l]) = [n, n] := by
    simp [dA, dimsFor, findTypeWithPosition, positionsOf]
  rw [hld, cartesian_eq_box, linkLoop_eq (v := fun lc => ab * fA [lc.getD 0 0, lc.getD 0 0] * fB [lc.getD 0 0])]
  · simp only [Outcome.ok_bind, updateTarget_eq]
    rw [foldl_add_eq, zero_add]
    congr 2
    simp only [box, List.map_flatMap]
    rw [List.flatMap_def, List.sum_flatten]
    simp only [List.map_map, List.map_cons, List.map_nil]
    rw [← List.sum_map_mul_left, nsmul_eq_mul, ← List.sum_map_mul_left]
    congr 1
    apply List.map_congr_left
    intro x _
    simp [mul_assoc, ← List.map_eq_flatMap]
  · intro lc hlc
    have hlc := mem_box.1 hlc
    match lc, hlc with
    | [x, y], ⟨hx, hy, _⟩ =>
      refine ⟨[x, x], [x], fA [x, x], fB [x], ?_, ?_, hA _ ?_, hB _ ?_, rfl⟩
      · simp [constructIndices, constructIndex, findPosition]
      · simp [constructIndices, constructIndex, findPosition]
      · rw [dA]; exact ⟨hx, hx, trivial⟩
      · rw [dB]; exact ⟨hx, trivial⟩

/-- **C16 (refuted, witness).** With `A = [[1,2],[3,4]]` and `B = [1,1]`, the diagonal sum is 5 and the
code returns 10. -/
theorem C16_refuted : ∃ A B : Strided Int, A.read [0, 0] = .ok 1 ∧ A.read [1, 1] = .ok 4 ∧
    B.read [0] = .ok 1 ∧ B.read [1] = .ok 1 ∧
    einsumGenericScalar 0 0 1 ["i", "i"] A ["i"] B = .ok 10 :=
  ⟨⟨[1, 2, 3, 4], 0, [2, 2], [2, 1]⟩, ⟨[1, 1], 0, [2], [1]⟩, by decide, by decide, by decide, by decide,
    by decide⟩

/-- **C16 (refuted, memory safety).** With a second contracted label of smaller dimension, the extra
loop variable is used as the value of that label and indexes out of range. -/
theorem C16_refuted_out_of_range : ∃ A B : Strided Int, A.IsTensor ∧ B.IsTensor ∧
    A.dims = [2, 2, 1] ∧ B.dims = [2, 1] ∧
    (einsumGenericScalar 0 0 1 ["i", "i", "k"] A ["i", "k"] B).isUb = true :=
  ⟨⟨[1, 2, 3, 4], 0, [2, 2, 1], [2, 1, 1]⟩, ⟨[1, 1], 0, [2, 1], [1, 1]⟩,
    ⟨rfl, by decide, by decide⟩, ⟨rfl, by decide, by decide⟩, rfl, rfl, by decide⟩

/-- **C16 (partial).** A contracted label that is repeated in `B` only is summed over its range once:
`C() = A(i) B(i,i)` is `Σ_i A(i) B(i,i)`.  Missing: labels repeated in `A`, where the code is wrong. -/
theorem C16_diagonal_of_B_partial {R : Type} [CommSemiring R] [BEq R] [LawfulBEq R] (l : L) (n : Nat)
    (A B : Strided R) (fA fB : List Nat → R) (cp c ab : R) (dA : A.dims = [n]) (dB : B.dims = [n, n])
    (hA : A.Represents fA) (hB : B.Represents fB) :
    einsumGenericScalar cp c ab [l] A [l, l] B
      = .ok (cp * c + ab * ((List.range n).map fun x => fA [x] * fB [x, x]).sum) := by
  rw [C15_contraction_scalar (fun _ => n) [l] [l, l] [l] A B fA fB cp c ab (by simp [dA]) (by simp [dB])
    hA hB (by simp) (by simp) (by simp) (by simp) ⟨by simp, by simp⟩]
  simp [contraction, sumOver, update]

/-! ### C17 -/

/-- **C17 (generic algorithm).** No algebraic law is assumed.  If `cp == 0` holds and einsum succeeds on
`C₁`, then it succeeds on every `C₂` of the same shape with any contents, and the two results agree on
every element that einsum computes. -/
theorem C17_generic {R : Type} [Add R] [Mul R] [Zero R] [BEq R] (δ : L → Nat) (Al Bl Cl : List L)
    (A B C₁ C₂ C₁' : Strided R) (cp ab : R) (h0 : (cp == 0) = true)
    (d1 : C₁.dims = Cl.map δ) (d2 : C₂.dims = Cl.map δ) (w1 : C₁.WF) (w2 : C₂.WF)
    (h1 : einsumGeneric cp Cl C₁ ab Al A Bl B = .ok C₁') :
    ∃ C₂', einsumGeneric cp Cl C₂ ab Al A Bl B = .ok C₂' ∧
      ∀ ρ, InRange δ Cl ρ → C₁'.read (toIdx (Cl.map ρ)) = C₂'.read (toIdx (Cl.map ρ)) := by
  have : Inhabited R := ⟨0⟩
  obtain ⟨f1, hf1⟩ := exists_represents w1
  obtain ⟨f2, hf2⟩ := exists_represents w2
  obtain ⟨hok, sum, hsum⟩ := einsumGeneric_of_ok d1 h1
  obtain ⟨D1, g1, e1, fr1, r1, k1, _⟩ := einsumGeneric_of_sums (cp := cp) w1 hf1 d1 hok sum hsum
  obtain ⟨D2, g2, e2, fr2, r2, k2, _⟩ := einsumGeneric_of_sums (cp := cp) w2 hf2 d2 hok sum hsum
  have : D1 = C₁' := by rw [h1] at e1; injection e1 with e; exact e.symm
  subst this
  refine ⟨D2, e2, ?_⟩
  intro ρ hρ
  have hb : InBox (Cl.map ρ) (Cl.map δ) := inBox_map hρ
  rw [r1 _ (by rw [fr1.dims, d1]; exact hb), r2 _ (by rw [fr2.dims, d2]; exact hb)]
  have htc : (unique Cl).map ρ ∈ box ((unique Cl).map δ) :=
    mem_box.2 (inBox_map fun l hl => hρ l (mem_unique.1 hl))
  have hkey : targetKey Cl ((unique Cl).map ρ) = Cl.map ρ := by
    apply List.map_congr_left
    intro l hl
    rw [bindEnv_map, if_pos (mem_unique.2 hl)]
  have a1 := k1 _ htc
  have a2 := k2 _ htc
  rw [hkey] at a1 a2
  rw [a1, a2]
  simp [updateTarget, h0]

/-- **C17 (generic algorithm, scalar result).** -/
theorem C17_generic_scalar {R : Type} [Add R] [Mul R] [Zero R] [BEq R] (Al Bl : List L)
    (A B : Strided R) (cp c₁ c₂ ab : R) (h0 : (cp == 0) = true) :
    einsumGenericScalar cp c₁ ab Al A Bl B = einsumGenericScalar cp c₂ ab Al A Bl B := by
  simp [einsumGenericScalar, updateTarget, h0]

/-- Integers with a not-a-number: arithmetic with it gives it, and it equals nothing. -/
inductive NanInt
  | nan
  | num (i : Int)
  deriving DecidableEq, Repr

namespace NanInt
instance : Add NanInt := ⟨fun | num a, num b => num (a + b) | _, _ => nan⟩
instance : Mul NanInt := ⟨fun | num a, num b => num (a * b) | _, _ => nan⟩
instance : Zero NanInt := ⟨num 0⟩
instance : BEq NanInt := ⟨fun | num a, num b => a == b | _, _ => false⟩
end NanInt

/-- A concrete case: `C` full of not-a-numbers is overwritten. -/
example : einsumGeneric (NanInt.num 0) [0] ⟨[.nan, .nan], 0, [2], [1]⟩ (.num 1) [0, 1]
    ⟨[.num 1, .num 2, .num 3, .num 4], 0, [2, 2], [2, 1]⟩ [1] ⟨[.num 1, .num 1], 0, [2], [1]⟩
    = .ok ⟨[.num 3, .num 7], 0, [2], [1]⟩ := by decide

/-! ### C18 -/

/-- **C18.** If the sequential einsum succeeds with result `C'`, then however the iterations of the
target loop are distributed over threads (`d` lists, per thread, its iterations in order; every
iteration is given to exactly one thread), and however the threads' single loads and stores of `C`
interleave (`s`), the result is `C'`.  No algebraic law is assumed. -/
theorem C18_deterministic {R : Type} [Add R] [Mul R] [Zero R] [BEq R] (δ : L → Nat) (Al Bl Cl : List L)
    (A B C C' : Strided R) (cp ab : R) (w : C.WF) (dC : C.dims = Cl.map δ)
    (hseq : einsumGeneric cp Cl C ab Al A Bl B = .ok C')
    (d : List (List (List Nat))) (hd : d.flatten.Perm (targetCombinations Cl C))
    (s : List (List Nat × MicroOp)) (hs : Schedule (d.map (·.flatMap iterationOps)) s) :
    einsumGenericPar cp Cl C ab Al A Bl B s = .ok C' :=
  einsumGenericPar_eq w dC hseq hd hs

/-- **C18 (corollary).** Any two executions agree. -/
theorem C18_any_two {R : Type} [Add R] [Mul R] [Zero R] [BEq R] (δ : L → Nat) (Al Bl Cl : List L)
    (A B C C' : Strided R) (cp ab : R) (w : C.WF) (dC : C.dims = Cl.map δ)
    (hseq : einsumGeneric cp Cl C ab Al A Bl B = .ok C')
    (d₁ d₂ : List (List (List Nat))) (hd₁ : d₁.flatten.Perm (targetCombinations Cl C))
    (hd₂ : d₂.flatten.Perm (targetCombinations Cl C)) (s₁ s₂ : List (List Nat × MicroOp))
    (hs₁ : Schedule (d₁.map (·.flatMap iterationOps)) s₁)
    (hs₂ : Schedule (d₂.map (·.flatMap iterationOps)) s₂) :
    einsumGenericPar cp Cl C ab Al A Bl B s₁ = einsumGenericPar cp Cl C ab Al A Bl B s₂ := by
  rw [C18_deterministic δ Al Bl Cl A B C C' cp ab w dC hseq d₁ hd₁ s₁ hs₁,
    C18_deterministic δ Al Bl Cl A B C C' cp ab w dC hseq d₂ hd₂ s₂ hs₂]

/-- Two threads, the second running first and interleaved with the first. -/
example : ∃ s, Schedule ([[[0], [2]], [[1]]].map (·.flatMap iterationOps)) s ∧
    s.take 3 = [([1], .zeroStore), ([0], .zeroStore), ([1], .load)] ∧
    [[[0], [2]], [[1]]].flatten.Perm (targetCombinations [7] (⟨[1, 1, 1], 0, [3], [1]⟩ : Strided Int)) := by
  refine ⟨([1], .zeroStore) :: ([0], .zeroStore) :: ([1], .load) ::
    (List.flatten [(iterationOps [0]).drop 1 ++ iterationOps [2], (iterationOps [1]).drop 2]), ?_, rfl, by decide⟩
  exact .step (i := 1) rfl (.step (i := 0) rfl (.step (i := 1) rfl (Schedule.sequential _)))

end Einsums.Props
