import Verif.Model.BlockSort
import Verif.Proofs.BlockAlgebra
import Verif.Proofs.BlockSpectral
import Verif.Props.TensorAlgebra
/-
C125: `sort` of block tensors.
-/
namespace Einsums.Props
open Spec Model

variable {L : Type} [DecidableEq L] {R : Type} [CommSemiring R] [BEq R] [LawfulBEq R]

/-- **C125 (partial).** For block tensors with the same block sizes, `sort(cp, C_indices, &C, ap, A_indices, A)` gives every
element of the whole tensor (also outside the blocks, where it is zero) the value `cp * C(..) + ap * A(..)` with the indices of
`A` permuted as the labels say, whatever the order of the blocks and of the loops inside them.  Missing: other blocks, see
`C125_blocks_refuted`, `C125_fewer_refuted`. -/
theorem C125_sort_partial (Al Cl : List L) (useHptt : Bool) (A C : Block R) (as cs : Blocks R) (cp ap : R) (hA : Al.Nodup)
    (h0 : Al ≠ []) (hp : Cl.Perm Al) (mA : A.Models Al.length as) (mC : C.Models Cl.length cs) (hs : as.sizes = cs.sizes)
    (fill inner : Nat → List (List Nat)) (sched : List Nat)
    (hf : ∀ i, i < cs.length → (fill i).Perm (box (List.replicate Cl.length (cs.sizes.getD i 0))))
    (hi : ∀ i, i < cs.length → (inner i).Perm (box (List.replicate Cl.length (cs.sizes.getD i 0))))
    (hsched : sched.Perm (List.range cs.length)) :
    ∃ C' cs', blockSort useHptt cp Cl C ap Al A fill inner sched = .ok C' ∧ C'.Models Cl.length cs' ∧ cs'.sizes = cs.sizes ∧
      ∀ ρ, InRange (fun _ => cs.sizes.sum) Cl ρ →
        cs'.elem (Cl.map ρ) = cp * cs.elem (Cl.map ρ) + ap * as.elem (Al.map ρ) := by
  have : Inhabited R := ⟨0⟩
  have hC0 : Cl ≠ [] := fun e => h0 (by subst e; exact (hp.symm.eq_nil))
  have hCn : Cl.Nodup := hp.nodup_iff.2 hA
  have hlen : as.length = cs.length := by simpa [Blocks.sizes] using congrArg List.length hs
  have hr : 0 < Cl.length := List.length_pos_iff.2 hC0
  have hrl : Al.length = Cl.length := hp.length_eq.symm
  obtain ⟨C', cs', h1, h2, h3, h4⟩ := blockLoop_rel (step := blockSortStep useHptt cp Cl ap Al A fill inner) mC
    (V := fun i q => ∀ p a, cs[i]? = some p → as[i]? = some a → q.1 = p.1 ∧ ∀ ρ, InRange (fun _ => p.1) Cl ρ →
      q.2 (Cl.map ρ) = cp * p.2 (Cl.map ρ) + ap * a.2 (Al.map ρ))
    (by
      intro U cur i hi' hU hcur
      have ea := List.getElem?_eq_getElem (show i < as.length by omega)
      have ec := List.getElem?_eq_getElem hi'
      obtain ⟨a, _, a2, a3⟩ := mA.at ea
      obtain ⟨c, _, c2, c3⟩ := hU.at hcur
      have na : as[i].1 = cs[i].1 := by rw [← getD_sizes ea, ← getD_sizes ec, hs]
      have hdim : (tensorOperand c).t.dims = List.replicate Cl.length (cs.sizes.getD i 0) := by
        rw [getD_sizes ec]; exact c3.2.1
      obtain ⟨c', g1, g2, g3⟩ := C27_sort_partial (fun _ => cs[i].1) Al Cl useHptt (tensorOperand a) (tensorOperand c) as[i].2 cs[i].2
        cp ap hA h0 hp (by rw [List.map_const', ← na]; exact a3.2.1) (by rw [List.map_const']; exact c3.2.1) a3.1.operand c3.1.operand
        a3.2.2 c3.2.2 (fun _ => ⟨rfl, rfl⟩) (fill i) (inner i) (by rw [hdim]; exact hf i hi') (by rw [hdim]; exact hi i hi')
      have ht : c'.IsTensor := g2.isTensor c3.1
      obtain ⟨g, hg⟩ := exists_represents ht.wf
      have hd : c'.dims = List.replicate Cl.length cs[i].1 := g2.dims.trans c3.2.1
      refine ⟨_, (cs[i].1, g), ?_, hU.setBlock (n := cs[i].1) (f := cs[i].2) hcur ⟨ht, hd, hg⟩, ?_⟩
      · unfold blockSortStep
        rw [c2, Outcome.ok_bind, a2, Outcome.ok_bind, g1, Outcome.ok_bind]
        rfl
      · intro p q hp' hq
        rw [ec] at hp'
        rw [ea] at hq
        cases hp'
        cases hq
        refine ⟨rfl, fun ρ hρ => ?_⟩
        have := g3 ρ hρ
        rw [hg _ (by rw [hd, ← List.map_const']; exact inBox_map hρ)] at this
        exact Outcome.ok.inj this) hsched
  have hsz : cs'.sizes = cs.sizes := by
    unfold Blocks.sizes
    apply List.ext_getElem?
    intro i
    by_cases c : i < cs.length
    · obtain ⟨q, e, hq⟩ := h4 i c
      have := (hq _ _ (List.getElem?_eq_getElem c) (List.getElem?_eq_getElem (show i < as.length by omega))).1
      rw [List.getElem?_map, List.getElem?_map, e, List.getElem?_eq_getElem c]
      simp [this]
    · rw [List.getElem?_eq_none (by simp; omega), List.getElem?_eq_none (by simp; omega)]
  refine ⟨C', cs', h1, h2, hsz, ?_⟩
  intro ρ hρ
  have hj : InBox (Cl.map ρ) (List.replicate Cl.length cs.sizes.sum) := by
    rw [← List.map_const']; exact inBox_map hρ
  have hjA : InBox (Al.map ρ) (List.replicate Al.length cs.sizes.sum) := by
    rw [← List.map_const']; exact inBox_map fun l hl => hρ l (hp.mem_iff.2 hl)
  rcases elem_cases cs hr hj with ⟨b, hb, l, k1, k2, k3⟩ | ⟨k1, k2⟩
  · have ec := List.getElem?_eq_getElem hb
    have ea := List.getElem?_eq_getElem (show b < as.length by omega)
    have hin : ∀ m ∈ Cl, InInterval cs.sizes b (ρ m) := by
      intro m hm
      have hm' : ρ m ∈ Cl.map ρ := List.mem_map_of_mem hm
      rw [k2] at hm'
      obtain ⟨y, hy, e⟩ := List.mem_map.1 hm'
      have := (inBox_replicate.1 k1).2 y hy
      exact ⟨by omega, by omega⟩
    have hl : l = Cl.map fun m => ρ m - tileStart cs.sizes b := by
      have : (Cl.map ρ).map (· - tileStart cs.sizes b) = (l.map (tileStart cs.sizes b + ·)).map (· - tileStart cs.sizes b) := by
        rw [k2]
      simp only [List.map_map] at this
      rw [show l = l.map ((· - tileStart cs.sizes b) ∘ (tileStart cs.sizes b + ·)) by
        conv_lhs => rw [← List.map_id l]
        apply List.map_congr_left
        intro y _
        simp, ← this]
      rfl
    have hAe : as.elem (Al.map ρ) = as[b].2 (Al.map fun m => ρ m - tileStart cs.sizes b) := by
      have e : Al.map ρ = (Al.map fun m => ρ m - tileStart cs.sizes b).map (tileStart as.sizes b + ·) := by
        rw [List.map_map, hs]
        apply List.map_congr_left
        intro m hm
        have := (hin m (hp.mem_iff.2 hm)).1
        simp only [Function.comp]
        omega
      rw [e]
      apply elem_shift (r := Al.length) (by omega) (by omega)
      rw [hs]
      rw [← List.map_const']
      apply inBox_map
      intro m hm
      have := hin m (hp.mem_iff.2 hm)
      unfold InInterval at this
      omega
    obtain ⟨q, e, hq⟩ := h4 b hb
    have hq' := (hq _ _ ec ea).2 (fun m => ρ m - tileStart cs.sizes b) (by
      intro m hm
      have := hin m hm
      unfold InInterval at this
      rw [getD_sizes ec] at this
      show ρ m - tileStart cs.sizes b < cs[b].1
      omega)
    have hb' : b < cs'.length := by omega
    have e' : cs'[b] = q := by
      rw [List.getElem?_eq_getElem hb'] at e
      exact Option.some.inj e
    rw [k3 _ hsz hb', k3 _ rfl hb, e', hAe, hl]
    exact hq'
  · rw [k2 _ hsz, k2 _ rfl]
    have : as.elem (Al.map ρ) = 0 := by
      by_contra hne
      obtain ⟨b, hb⟩ := elem_ne hne
      apply k1 b
      intro x hx
      obtain ⟨m, hm, rfl⟩ := List.mem_map.1 hx
      rw [← hs]
      exact hb _ (List.mem_map_of_mem (hp.mem_iff.1 hm))
    rw [this, mul_zero, mul_zero, add_zero]

omit [LawfulBEq R] in
/-- **C125 (more blocks in `A`).** If `A` has more blocks than `C` the call does not return normally. -/
theorem C125_more_rejects (Al Cl : List L) (useHptt : Bool) (A C : Block R) (cp ap : R)
    (h : C.blocks.length < A.blocks.length) (fill inner : Nat → List (List Nat)) (sched : List Nat)
    (hsched : sched.Perm (List.range A.blocks.length)) :
    (blockSort useHptt cp Cl C ap Al A fill inner sched).isOk = false := by
  have key : ∀ (s : List Nat) (U : Block R), U.blocks.length = C.blocks.length → C.blocks.length ∈ s →
      (s.foldlM (blockSortStep useHptt cp Cl ap Al A fill inner) U).isOk = false := by
    intro s
    induction s with
    | nil => intro U _ h; simp at h
    | cons i s ih =>
      intro U hU hmem
      rw [List.foldlM_cons]
      cases e : blockSortStep useHptt cp Cl ap Al A fill inner U i with
      | error m => rfl
      | ub m => rfl
      | ok U' =>
        rw [Outcome.ok_bind]
        unfold blockSortStep at e
        cases ec : U.at i with
        | error m => rw [ec] at e; simp [Outcome.error_bind] at e
        | ub m => rw [ec] at e; simp [Outcome.ub_bind] at e
        | ok c =>
          rw [ec, Outcome.ok_bind] at e
          cases ea : A.at i with
          | error m => rw [ea] at e; simp [Outcome.error_bind] at e
          | ub m => rw [ea] at e; simp [Outcome.ub_bind] at e
          | ok a =>
            rw [ea, Outcome.ok_bind] at e
            cases es : sort useHptt cp Cl (tensorOperand c) ap Al (tensorOperand a) (fill i) (inner i) with
            | error m => rw [es] at e; simp [Outcome.error_bind] at e
            | ub m => rw [es] at e; simp [Outcome.ub_bind] at e
            | ok c' =>
              rw [es, Outcome.ok_bind] at e
              have e' : U' = { U with blocks := U.blocks.set i c' } := (Outcome.ok.inj e).symm
              refine ih U' (by rw [e']; simpa using hU) ?_
              rcases List.mem_cons.1 hmem with h | h
              · unfold Block.at at ec
                rw [List.getElem?_eq_none (by omega)] at ec
                simp at ec
              · exact h
  exact key sched C rfl (hsched.mem_iff.2 (by simpa using h))

/-- Block tensors of rank 2: blocks of sizes 1 and 2, and others. -/
def sortA : Block Int := (Block.mk' (fun n k => (10 * n + k : Int)) 2 [1, 2])
def sortC : Block Int := (Block.mk' (fun _ k => (k : Int)) 2 [1, 2])
def sortBig : Block Int := (Block.mk' (fun n k => (10 * n + k : Int)) 2 [2])
def sortOnes : Block Int := (Block.mk' (fun _ _ => (5 : Int)) 2 [1, 1])
def sortOne : Block Int := (Block.mk' (fun _ _ => (7 : Int)) 2 [1])

/-- **C125 (refuted: other blocks).** The block structures are not compared: with one 2×2 block in `A` and two 1×1 blocks in
`C`, tensors of the same shape, the permutation writes past the end of the first block of `C`. -/
theorem C125_blocks_refuted : sortBig.dim = sortOnes.dim ∧
    (blockSort true 0 ["i", "j"] sortOnes 1 ["j", "i"] sortBig (fun _ => [[0, 0]]) (fun _ => [[0, 0]]) [0]).isUb = true := by
  decide

/-- **C125 (refuted: fewer blocks).** With one block in `A` and two in `C` the call returns normally, and the second block
is not multiplied by the prefactor. -/
theorem C125_fewer_refuted : ∃ C', blockSort true 0 ["i", "j"] sortOnes 1 ["j", "i"] sortOne (fun _ => [[0, 0]])
    (fun _ => [[0, 0]]) [0] = .ok C' ∧ C'.blocks.map (·.data) = [[7], [5]] := by
  refine ⟨{ sortOnes with blocks := [⟨[7], 0, [1, 1], [1, 1]⟩, ⟨[5], 0, [1, 1], [1, 1]⟩] }, ?_, rfl⟩
  decide

/-- The hypotheses are met: `C = 2 C + 3 Aᵀ`, the second block first. -/
example : ∃ C' cs', blockSort false (2 : Int) ["i", "j"] sortC 3 ["j", "i"] sortA (fun i => box [i + 1, i + 1])
    (fun i => (box [i + 1, i + 1]).reverse) [1, 0] = .ok C' ∧ C'.Models 2 cs' ∧ cs'.sizes = [1, 2] ∧ cs'.elem [1, 2] = 2 * 1 + 3 * 22 := by
  have mA : sortA.Models 2 [(1, fun _ => 10), (2, fun i => 20 + 2 * i.headD 0 + i.getD 1 0)] := by
    refine ⟨rfl, ?_, rfl, rfl, rfl⟩
    refine .cons ⟨⟨rfl, rfl, rfl⟩, rfl, ?_⟩ (.cons ⟨⟨rfl, rfl, rfl⟩, rfl, ?_⟩ .nil)
    · refine (Strided.IsTensor.represents_iff ⟨rfl, rfl, rfl⟩).2 (by decide)
    · refine (Strided.IsTensor.represents_iff ⟨rfl, rfl, rfl⟩).2 (by decide)
  have mC : sortC.Models 2 [(1, fun _ => 0), (2, fun i => 2 * i.headD 0 + i.getD 1 0)] := by
    refine ⟨rfl, ?_, rfl, rfl, rfl⟩
    refine .cons ⟨⟨rfl, rfl, rfl⟩, rfl, ?_⟩ (.cons ⟨⟨rfl, rfl, rfl⟩, rfl, ?_⟩ .nil)
    · refine (Strided.IsTensor.represents_iff ⟨rfl, rfl, rfl⟩).2 (by decide)
    · refine (Strided.IsTensor.represents_iff ⟨rfl, rfl, rfl⟩).2 (by decide)
  obtain ⟨C', cs', h1, h2, h3, h4⟩ := C125_sort_partial ["j", "i"] ["i", "j"] false sortA sortC _ _ 2 3 (by decide) (by decide)
    (by decide) mA mC rfl (fun i => box [i + 1, i + 1]) (fun i => (box [i + 1, i + 1]).reverse) [1, 0]
    (by intro i hi
        have hi : i < 2 := hi
        match i, hi with
        | 0, _ => decide
        | 1, _ => decide)
    (by intro i hi
        have hi : i < 2 := hi
        match i, hi with
        | 0, _ => decide
        | 1, _ => decide) (by decide)
  refine ⟨C', cs', h1, h2, h3, ?_⟩
  have := h4 (fun l => if l = "i" then 1 else 2) (by
    intro l hl
    simp only [List.mem_cons, List.not_mem_nil, or_false] at hl
    rcases hl with rfl | rfl <;> decide)
  exact this.trans (by decide)

end Einsums.Props
