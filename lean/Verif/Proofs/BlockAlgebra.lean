import Mathlib.Algebra.BigOperators.Group.Finset.Basic
import Verif.Proofs.TileAlgebra
import Verif.Proofs.BlockDot
import Verif.Model.BlockAlgebra
/-
Contraction of block tensors: sums over label assignments reduce to the diagonal blocks.
-/
namespace Einsums
open Spec Model

variable {L : Type} [DecidableEq L] {R : Type}

/-! ### Sums over the diagonal -/

/-- A sum over a grid of terms that vanish off the diagonal. -/
theorem sum_box_diag [AddCommMonoid R] {r n : Nat} (hr : 0 < r) (g : List Nat → R)
    (h : ∀ k, InBox k (List.replicate r n) → (∀ b, k ≠ List.replicate r b) → g k = 0) :
    ((box (List.replicate r n)).map g).sum = ((List.range n).map fun b => g (List.replicate r b)).sum := by
  classical
  have inj : Function.Injective fun b : Nat => List.replicate r b := by
    intro a b e
    obtain ⟨m, rfl⟩ : ∃ m, r = m + 1 := ⟨r - 1, by omega⟩
    simp only [List.replicate_succ, List.cons.injEq] at e
    exact e.1
  have hn : ((List.range n).map fun b => List.replicate r b).Nodup := List.nodup_range.map inj
  have e : ((List.range n).map fun b => g (List.replicate r b)) = ((List.range n).map fun b => List.replicate r b).map g := by
    rw [List.map_map]; rfl
  rw [e, ← List.sum_toFinset g (nodup_box _), ← List.sum_toFinset g hn]
  symm
  apply Finset.sum_subset
  · intro k hk
    rw [List.mem_toFinset] at hk ⊢
    obtain ⟨b, hb, rfl⟩ := List.mem_map.1 hk
    rw [mem_box, inBox_replicate]
    refine ⟨by simp, ?_⟩
    intro x hx
    rw [List.eq_of_mem_replicate hx]
    exact List.mem_range.1 hb
  · intro k hk hk'
    rw [List.mem_toFinset, mem_box] at hk
    rw [List.mem_toFinset] at hk'
    apply h k hk
    rintro b rfl
    apply hk'
    refine List.mem_map.2 ⟨b, ?_, rfl⟩
    rw [List.mem_range]
    exact (inBox_replicate.1 hk).2 b (by simp; omega)

omit [DecidableEq L] in
theorem tileGlobal_const (ss : List Nat) (b : Nat) {Xl : List L} {x : List Nat} (h : x.length = Xl.length) :
    tileGlobal (Xl.map fun _ => ss) (Xl.map fun _ => b) x = x.map (tileStart ss b + ·) := by
  induction Xl generalizing x with
  | nil => cases x with
    | nil => rfl
    | cons _ _ => simp at h
  | cons c Xl ih => cases x with
    | nil => simp at h
    | cons y x => simp only [List.map_cons, tileGlobal, ih (x := x) (by simpa using h)]

section
variable [CommSemiring R]

/-- When a term of the contraction vanishes unless all labels lie in one block, the contraction is the sum over the blocks
that contain the free labels. -/
theorem contraction_blocks (ss : List Nat) {Cl Al Bl ls : List L} {fA fB : List Nat → R} {ρ : L → Nat}
    (hU : ∃ l, l ∈ Cl ∨ l ∈ Al ∨ l ∈ Bl)
    (coverA : ∀ l ∈ Al, l ∈ Cl ∨ l ∈ Bl) (coverB : ∀ l ∈ Bl, l ∈ Cl ∨ l ∈ Al) (hls : Contracted Al Bl Cl ls)
    (hρ : InRange (fun _ => ss.sum) Cl ρ)
    (hv : ∀ σ : L → Nat, fA (Al.map σ) * fB (Bl.map σ) ≠ 0 →
      ∃ b, ∀ l, l ∈ Cl ∨ l ∈ Al ∨ l ∈ Bl → InInterval ss b (σ l)) :
    contraction (fun _ => ss.sum) ls Al Bl fA fB ρ =
      ((List.range ss.length).map fun b => if ∀ l ∈ Cl, InInterval ss b (ρ l) then
        contraction (fun _ => ss.getD b 0) ls Al Bl (fun x => fA (x.map (tileStart ss b + ·)))
          (fun x => fB (x.map (tileStart ss b + ·))) (fun l => ρ l - tileStart ss b) else 0).sum := by
  rw [← sum_tileParts (fun _ => ss) coverA coverB hls hρ]
  have hlen : 0 < (uniqueLabels Cl Al Bl).length := by
    obtain ⟨l, hl⟩ := hU
    exact List.length_pos_of_mem (mem_uniqueLabels.2 hl)
  have er : ((uniqueLabels Cl Al Bl).map fun _ => ss.length) = List.replicate (uniqueLabels Cl Al Bl).length ss.length := by
    rw [List.map_const']
  rw [er, sum_box_diag hlen]
  · congr 1
    apply List.map_congr_left
    intro b hb
    have ek : List.replicate (uniqueLabels Cl Al Bl).length b = (uniqueLabels Cl Al Bl).map fun _ => b := by
      rw [List.map_const']
    rw [ek]
    by_cases c : ∀ l ∈ Cl, InInterval ss b (ρ l)
    · rw [if_pos c, tilePart_eq (fun _ => ss) coverA coverB hls (fun _ => b) c]
      unfold contraction
      apply sumOver_congr
      intro σ _ _
      simp only
      rw [tileGlobal_const ss b (by simp), tileGlobal_const ss b (by simp)]
    · rw [if_neg c, tilePart_zero]
      intro lam hlam hco
      exfalso
      apply c
      intro l hl
      rw [← hco l hl]
      exact interval_start (hlam l (mem_uniqueLabels.2 (.inl hl)))
  · intro k hk hne
    have hkl : k.length = (uniqueLabels Cl Al Bl).length := (inBox_replicate.1 hk).1
    obtain ⟨τ, hτ⟩ : ∃ τ : L → Nat, k = (uniqueLabels Cl Al Bl).map τ :=
      ⟨bindEnv (uniqueLabels Cl Al Bl) k fun _ => 0, (map_bindEnv (nodup_unique _) hkl _).symm⟩
    subst hτ
    rw [tilePart_zero]
    intro lam hlam _
    by_contra hc
    rw [tileGlobal_labels, tileGlobal_labels] at hc
    obtain ⟨b, hb⟩ := hv _ hc
    apply hne b
    rw [List.eq_replicate_iff]
    refine ⟨hkl, ?_⟩
    intro x hx
    obtain ⟨l, hl, rfl⟩ := List.mem_map.1 hx
    exact interval_unique (interval_start (hlam l hl)) (hb l (mem_uniqueLabels.1 hl))

omit [CommSemiring R] in
/-- An element that is not zero lies in a block. -/
theorem elem_ne [Zero R] {bs : Blocks R} {j : List Nat} (h : bs.elem j ≠ 0) : ∃ b, InBlock bs.sizes b j := by
  by_contra hc
  apply h
  unfold Blocks.elem
  cases e : bs.find j with
  | none => rfl
  | some b => exact absurd ⟨b, (find_some e).2⟩ hc

omit [DecidableEq L] in
/-- Two block tensors with a common label. -/
theorem vanish_blocks {as bs : Blocks R} {ss : List Nat} (sA : as.sizes = ss) (sB : bs.sizes = ss) {Cl Al Bl : List L}
    (coverC : ∀ l ∈ Cl, l ∈ Al ∨ l ∈ Bl) (share : ∃ l, l ∈ Al ∧ l ∈ Bl) (σ : L → Nat)
    (h : as.elem (Al.map σ) * bs.elem (Bl.map σ) ≠ 0) :
    ∃ b, ∀ l, l ∈ Cl ∨ l ∈ Al ∨ l ∈ Bl → InInterval ss b (σ l) := by
  obtain ⟨a, ha⟩ := elem_ne (left_ne_zero_of_mul h)
  obtain ⟨b, hb⟩ := elem_ne (right_ne_zero_of_mul h)
  rw [sA] at ha
  rw [sB] at hb
  have hA : ∀ l ∈ Al, InInterval ss a (σ l) := fun l hl => ha _ (List.mem_map_of_mem hl)
  have hB : ∀ l ∈ Bl, InInterval ss b (σ l) := fun l hl => hb _ (List.mem_map_of_mem hl)
  obtain ⟨m, m1, m2⟩ := share
  have e := interval_unique (hA m m1) (hB m m2)
  subst e
  refine ⟨a, ?_⟩
  rintro l (hl | hl | hl)
  · exact (coverC l hl).elim (hA l) (hB l)
  · exact hA l hl
  · exact hB l hl

/-- The value in block `b`. -/
theorem contraction_in_block (ss : List Nat) {Cl Al Bl ls : List L} {fA fB : List Nat → R} {ρ : L → Nat} (hC0 : Cl ≠ [])
    (coverA : ∀ l ∈ Al, l ∈ Cl ∨ l ∈ Bl) (coverB : ∀ l ∈ Bl, l ∈ Cl ∨ l ∈ Al) (hls : Contracted Al Bl Cl ls)
    (hρ : InRange (fun _ => ss.sum) Cl ρ)
    (hv : ∀ σ : L → Nat, fA (Al.map σ) * fB (Bl.map σ) ≠ 0 →
      ∃ b, ∀ l, l ∈ Cl ∨ l ∈ Al ∨ l ∈ Bl → InInterval ss b (σ l)) {b : Nat} (hb : ∀ l ∈ Cl, InInterval ss b (ρ l)) :
    contraction (fun _ => ss.sum) ls Al Bl fA fB ρ =
      contraction (fun _ => ss.getD b 0) ls Al Bl (fun x => fA (x.map (tileStart ss b + ·)))
          (fun x => fB (x.map (tileStart ss b + ·))) (fun l => ρ l - tileStart ss b) := by
  obtain ⟨c, hc⟩ := List.exists_mem_of_ne_nil Cl hC0
  rw [contraction_blocks ss ⟨c, .inl hc⟩ coverA coverB hls hρ hv]
  have e : ∀ b', (∀ l ∈ Cl, InInterval ss b' (ρ l)) ↔ b' = b := by
    intro b'
    constructor
    · intro h; exact interval_unique (h c hc) (hb c hc)
    · rintro rfl; exact hb
  simp only [e]
  have e2 : ∀ (F : Nat → R) b', (if b' = b then F b' else 0) = if b' = b then F b else 0 := by
    intro F b'
    split
    · rename_i h; rw [h]
    · rfl
  exact Eq.trans (congrArg List.sum (List.map_congr_left fun b' _ => e2 (fun b =>
      contraction (fun _ => ss.getD b 0) ls Al Bl (fun x => fA (x.map (tileStart ss b + ·)))
        (fun x => fB (x.map (tileStart ss b + ·))) (fun l => ρ l - tileStart ss b)) b'))
    (sum_range_single (interval_lt (hb c hc)) _)

/-- The value outside the blocks. -/
theorem contraction_off_block (ss : List Nat) {Cl Al Bl ls : List L} {fA fB : List Nat → R} {ρ : L → Nat} (hC0 : Cl ≠ [])
    (coverA : ∀ l ∈ Al, l ∈ Cl ∨ l ∈ Bl) (coverB : ∀ l ∈ Bl, l ∈ Cl ∨ l ∈ Al) (hls : Contracted Al Bl Cl ls)
    (hρ : InRange (fun _ => ss.sum) Cl ρ)
    (hv : ∀ σ : L → Nat, fA (Al.map σ) * fB (Bl.map σ) ≠ 0 →
      ∃ b, ∀ l, l ∈ Cl ∨ l ∈ Al ∨ l ∈ Bl → InInterval ss b (σ l)) (hb : ∀ b, ¬ ∀ l ∈ Cl, InInterval ss b (ρ l)) :
    contraction (fun _ => ss.sum) ls Al Bl fA fB ρ = 0 := by
  obtain ⟨c, hc⟩ := List.exists_mem_of_ne_nil Cl hC0
  rw [contraction_blocks ss ⟨c, .inl hc⟩ coverA coverB hls hρ hv]
  apply List.sum_eq_zero
  intro x hx
  obtain ⟨b, _, rfl⟩ := List.mem_map.1 hx
  rw [if_neg (hb b)]

end

/-! ### Loops over the blocks -/

/-- A loop over the blocks, in any order, each iteration changing its own block. -/
theorem blockLoop_rel {T : Block R} {r : Nat} {bs : Blocks R} (h : T.Models r bs) {V : Nat → Nat × (List Nat → R) → Prop}
    {step : Block R → Nat → Outcome (Block R)}
    (hstep : ∀ (U : Block R) (cur : Blocks R) (i : Nat) (hi : i < bs.length), U.Models r cur → cur[i]? = some bs[i] →
      ∃ U' p, step U i = .ok U' ∧ U'.Models r (cur.set i p) ∧ V i p)
    {sched : List Nat} (hp : sched.Perm (List.range bs.length)) :
    ∃ T' bs', sched.foldlM step T = .ok T' ∧ T'.Models r bs' ∧ bs'.length = bs.length ∧
      ∀ i, i < bs.length → ∃ p, bs'[i]? = some p ∧ V i p := by
  have key : ∀ (s done : List Nat) (U : Block R) (cur : Blocks R), U.Models r cur → (done ++ s).Nodup →
      (∀ i ∈ s, i < bs.length) → cur.length = bs.length →
      (∀ i < bs.length, if i ∈ done then ∃ p, cur[i]? = some p ∧ V i p else cur[i]? = bs[i]?) →
      ∃ U' cur', s.foldlM step U = .ok U' ∧ U'.Models r cur' ∧ cur'.length = bs.length ∧
        ∀ i < bs.length, if i ∈ done ++ s then ∃ p, cur'[i]? = some p ∧ V i p else cur'[i]? = bs[i]? := by
    intro s
    induction s with
    | nil => intro done U cur hU _ _ hlen hc; exact ⟨U, cur, rfl, hU, hlen, by simpa using hc⟩
    | cons a s ih =>
      intro done U cur hU hnd hs hlen hc
      have ha := hs a (by simp)
      have hna : a ∉ done := by
        rw [List.nodup_append] at hnd
        intro hx
        exact hnd.2.2 a hx a (by simp) rfl
      have e := hc a ha
      rw [if_neg hna, List.getElem?_eq_getElem ha] at e
      obtain ⟨U1, p, h1, h2, hv⟩ := hstep U cur a ha hU e
      obtain ⟨U', cur', h3, h4, h5, h6⟩ := ih (done ++ [a]) U1 _ h2 (by simpa using hnd)
        (fun i hi => hs i (by simp [hi])) (by simpa using hlen) (by
          intro i hi
          rw [List.getElem?_set]
          by_cases c : a = i
          · subst c
            rw [if_pos (by simp), if_pos rfl, if_pos (by omega)]
            exact ⟨p, rfl, hv⟩
          · rw [if_neg c]
            have : i ∈ done ++ [a] ↔ i ∈ done := by simp [Ne.symm c]
            simp only [this]
            exact hc i hi)
      refine ⟨U', cur', ?_, h4, h5, ?_⟩
      · rw [List.foldlM_cons, h1, Outcome.ok_bind]; exact h3
      · intro i hi
        have := h6 i hi
        rw [List.append_assoc] at this
        exact this
  obtain ⟨U', cur', h1, h2, h3, h4⟩ := key sched [] T bs h (by simpa using hp.nodup_iff.2 List.nodup_range)
    (fun i hi => by simpa using hp.mem_iff.1 hi) rfl (by simp)
  refine ⟨U', cur', h1, h2, h3, ?_⟩
  intro i hi
  have := h4 i hi
  rwa [if_pos (by simpa using hp.mem_iff.2 (by simpa using hi))] at this

/-- A block holds the elements of its part of the whole tensor. -/
theorem HoldsBlock.shift [Zero R] {r : Nat} (hr : 0 < r) {bs : Blocks R} {b : Nat} (hb : b < bs.length) {t : Strided R}
    (h : HoldsBlock r t bs[b]) : t.Represents fun x => bs.elem (x.map (tileStart bs.sizes b + ·)) := by
  intro x hx
  rw [h.2.2 x hx]
  rw [h.2.1] at hx
  beta_reduce
  rw [elem_shift hr hb]
  rw [getD_sizes (List.getElem?_eq_getElem hb)]
  exact hx

section
variable [CommSemiring R]

/-- Blocks with the right elements make a tensor with the right elements. -/
theorem blocks_assemble {cs cs' : Blocks R} {ss : List Nat} (sC : cs.sizes = ss) (sC' : cs'.sizes = ss)
    {Cl Al Bl ls : List L} {fA fB : List Nat → R} {cp ab : R} (hC0 : Cl ≠ [])
    (coverA : ∀ l ∈ Al, l ∈ Cl ∨ l ∈ Bl) (coverB : ∀ l ∈ Bl, l ∈ Cl ∨ l ∈ Al) (hls : Contracted Al Bl Cl ls)
    (hv : ∀ σ : L → Nat, fA (Al.map σ) * fB (Bl.map σ) ≠ 0 →
      ∃ b, ∀ l, l ∈ Cl ∨ l ∈ Al ∨ l ∈ Bl → InInterval ss b (σ l))
    (hval : ∀ b p q, cs[b]? = some p → cs'[b]? = some q → ∀ ρ, InRange (fun _ => p.1) Cl ρ →
      q.2 (Cl.map ρ) = cp * p.2 (Cl.map ρ) + ab * contraction (fun _ => p.1) ls Al Bl
        (fun x => fA (x.map (tileStart ss b + ·))) (fun x => fB (x.map (tileStart ss b + ·))) ρ)
    {ρ : L → Nat} (hρ : InRange (fun _ => ss.sum) Cl ρ) :
    cs'.elem (Cl.map ρ) = cp * cs.elem (Cl.map ρ) + ab * contraction (fun _ => ss.sum) ls Al Bl fA fB ρ := by
  have hr : 0 < Cl.length := List.length_pos_iff.2 hC0
  have hlen : cs'.length = cs.length := by simpa [Blocks.sizes] using congrArg List.length (sC'.trans sC.symm)
  have hj : InBox (Cl.map ρ) (List.replicate Cl.length cs.sizes.sum) := by
    rw [sC, ← List.map_const']
    exact inBox_map hρ
  rcases elem_cases cs hr hj with ⟨b, hb, l, h1, h2, h3⟩ | ⟨h1, h2⟩
  · rw [sC] at h1 h2
    rw [h3 _ (sC'.trans sC.symm) (by omega), h3 _ rfl hb]
    have hin : ∀ m ∈ Cl, InInterval ss b (ρ m) := by
      intro m hm
      have := inBlock_shift h1
      rw [← h2] at this
      exact this _ (List.mem_map_of_mem hm)
    have el : l = Cl.map fun m => ρ m - tileStart ss b := by
      have := congrArg (List.map (· - tileStart ss b)) h2
      rw [List.map_map, List.map_map] at this
      rw [show (fun m => ρ m - tileStart ss b) = (· - tileStart ss b) ∘ ρ from rfl, this]
      conv_lhs => rw [← List.map_id l]
      apply List.map_congr_left
      intro y _
      simp [Function.comp]
    have e1 := List.getElem?_eq_getElem hb
    have e2 := List.getElem?_eq_getElem (show b < cs'.length by omega)
    have hsz : cs[b].1 = ss.getD b 0 := by rw [← sC, getD_sizes e1]
    have := hval b _ _ e1 e2 (fun m => ρ m - tileStart ss b) (by
      intro m hm
      have := hin m hm
      unfold InInterval at this
      simp only
      omega)
    rw [contraction_in_block ss hC0 coverA coverB hls hρ hv hin, el, this, hsz]
  · rw [h2 _ (sC'.trans sC.symm), h2 _ rfl, contraction_off_block ss hC0 coverA coverB hls hρ hv]
    · simp
    · intro b hb
      apply h1 b
      rw [sC]
      intro x hx
      obtain ⟨m, hm, rfl⟩ := List.mem_map.1 hx
      exact hb m hm

variable [BEq R] [LawfulBEq R] [Div R]

/-- `einsum` on the blocks. -/
theorem einsum_block {Al Bl Cl ls : List L} {og check : Bool} {n : Nat} {A B : Operand R} {c : Strided R} {fA fB f : List Nat → R}
    {cp ab : R} (hAn : Al.Nodup) (hA0 : Al ≠ []) (hB0 : Bl ≠ []) (hC0 : Cl ≠ [])
    (coverA : ∀ l ∈ Al, l ∈ Cl ∨ l ∈ Bl) (coverB : ∀ l ∈ Bl, l ∈ Cl ∨ l ∈ Al) (coverC : ∀ l ∈ Cl, l ∈ Al ∨ l ∈ Bl)
    (noTriple : choosePath og Al Bl Cl = .gemm → ∀ l ∈ Cl, ¬(l ∈ Al ∧ l ∈ Bl))
    (order : choosePath og Al Bl Cl = .outer → Cl = Al ++ Bl ∨ Cl = Bl ++ Al)
    (hls : Contracted Al Bl Cl ls) (vA : A.Valid) (vB : B.Valid) (hA : A.t.Represents fA) (hB : B.t.Represents fB)
    (dA : A.t.dims = List.replicate Al.length n) (dB : B.t.dims = List.replicate Bl.length n)
    (hc : HoldsBlock Cl.length c (n, f)) :
    ∃ c' g, einsum og check cp Cl (tensorOperand c) ab Al A Bl B = .ok c' ∧ HoldsBlock Cl.length c' (n, g) ∧
      ∀ ρ, InRange (fun _ => n) Cl ρ → g (Cl.map ρ) = cp * f (Cl.map ρ) + ab * contraction (fun _ => n) ls Al Bl fA fB ρ := by
  obtain ⟨c', g1, g2, g3⟩ := Props.C15_einsum (fun _ => n) Al Bl Cl ls og check A B (tensorOperand c) fA fB f cp ab hAn hA0 hB0
    hC0 (by rw [dA, List.map_const']) (by rw [dB, List.map_const']) (by rw [List.map_const']; exact hc.2.1) vA vB hc.1.operand
    rfl hA hB hc.2.2 coverA coverB coverC noTriple order hls (by
      by_cases e : n = 0
      · obtain ⟨l, hl⟩ := List.exists_mem_of_ne_nil Cl hC0
        exact .inr ⟨l, hl, e⟩
      · exact .inl fun _ _ => e)
  have : Inhabited R := ⟨0⟩
  have ht : c'.IsTensor := g2.isTensor hc.1
  obtain ⟨g, hg⟩ := exists_represents ht.wf
  have hd : c'.dims = List.replicate Cl.length n := g2.dims.trans hc.2.1
  refine ⟨c', g, g1, ⟨ht, hd, hg⟩, ?_⟩
  intro ρ hρ
  have := g3 ρ hρ
  rw [hg _ (by rw [hd, ← List.map_const']; exact inBox_map hρ)] at this
  exact Outcome.ok.inj this

omit [LawfulBEq R] [Div R] [BEq R] [CommSemiring R] in
theorem blocksDiffer3_ok {A B C : Block R} {ra rb rc : Nat} (h1 : 0 < ra) (h2 : 0 < rb) (h3 : 0 < rc) {as bs cs : Blocks R}
    (hA : A.Models ra as) (hB : B.Models rb bs) (hC : C.Models rc cs) (sA : as.sizes = cs.sizes) (sB : bs.sizes = cs.sizes) :
    blocksDiffer3 A B C = .ok () := by
  have la : as.length = cs.length := by simpa [Blocks.sizes] using congrArg List.length sA
  have lb : bs.length = cs.length := by simpa [Blocks.sizes] using congrArg List.length sB
  unfold blocksDiffer3
  rw [if_neg (by rw [hA.length, hB.length, hC.length]; omega), if_neg]
  simp only [Bool.not_eq_true, List.any_eq_false]
  intro p hp
  obtain ⟨i, hi, e⟩ := List.mem_iff_getElem.1 hp
  subst e
  simp only [List.length_zip, hA.length, hB.length, hC.length] at hi
  have ha := List.getElem?_eq_getElem (show i < as.length by omega)
  have hb := List.getElem?_eq_getElem (show i < bs.length by omega)
  have hc := List.getElem?_eq_getElem (show i < cs.length by omega)
  obtain ⟨a, a1, _, a3⟩ := hA.at ha
  obtain ⟨b, b1, _, b3⟩ := hB.at hb
  obtain ⟨c, c1, _, c3⟩ := hC.at hc
  have ea := (List.getElem?_eq_some_iff.1 a1).2
  have eb := (List.getElem?_eq_some_iff.1 b1).2
  have ec := (List.getElem?_eq_some_iff.1 c1).2
  simp only [List.getElem_zip, ea, eb, ec, a3.dim h1, b3.dim h2, c3.dim h3]
  rw [← getD_sizes ha, ← getD_sizes hb, ← getD_sizes hc, sA, sB]
  simp

/-- `einsum` on three block tensors. -/
theorem blockEinsum_ok {Al Bl Cl ls : List L} {og check : Bool} {A B C : Block R} {as bs cs : Blocks R}
    {cp ab : R} (hA : A.Models Al.length as) (hB : B.Models Bl.length bs) (hC : C.Models Cl.length cs)
    (sA : as.sizes = cs.sizes) (sB : bs.sizes = cs.sizes)
    (hAn : Al.Nodup) (hA0 : Al ≠ []) (hB0 : Bl ≠ []) (hC0 : Cl ≠ [])
    (coverA : ∀ l ∈ Al, l ∈ Cl ∨ l ∈ Bl) (coverB : ∀ l ∈ Bl, l ∈ Cl ∨ l ∈ Al) (coverC : ∀ l ∈ Cl, l ∈ Al ∨ l ∈ Bl)
    (share : ∃ l, l ∈ Al ∧ l ∈ Bl) (noTriple : choosePath og Al Bl Cl = .gemm → ∀ l ∈ Cl, ¬(l ∈ Al ∧ l ∈ Bl))
    (order : choosePath og Al Bl Cl = .outer → Cl = Al ++ Bl ∨ Cl = Bl ++ Al)
    (hls : Contracted Al Bl Cl ls) {sched : List Nat} (hs : sched.Perm (List.range cs.length)) :
    ∃ C' cs', blockEinsum og check cp Cl C ab Al A Bl B sched = .ok C' ∧ C'.Models Cl.length cs' ∧ cs'.sizes = cs.sizes ∧
      ∀ ρ, InRange (fun _ => cs.sizes.sum) Cl ρ → cs'.elem (Cl.map ρ)
        = cp * cs.elem (Cl.map ρ) + ab * contraction (fun _ => cs.sizes.sum) ls Al Bl as.elem bs.elem ρ := by
  have la : as.length = cs.length := by simpa [Blocks.sizes] using congrArg List.length sA
  have lb : bs.length = cs.length := by simpa [Blocks.sizes] using congrArg List.length sB
  have rA : 0 < Al.length := List.length_pos_iff.2 hA0
  have rB : 0 < Bl.length := List.length_pos_iff.2 hB0
  have rC : 0 < Cl.length := List.length_pos_iff.2 hC0
  unfold blockEinsum
  rw [if_neg (by
    intro h
    obtain ⟨l, h1, h2⟩ := share
    have : l ∈ intersect Al Bl := by simp [intersect, h1, h2]
    rw [h] at this
    simp at this), blocksDiffer3_ok rA rB rC hA hB hC sA sB, Outcome.ok_bind]
  obtain ⟨C', cs', h1, h2, h3, h4⟩ := blockLoop_rel (step := blockEinsumStep og check cp Cl ab Al A Bl B) hC
    (V := fun i q => ∀ p, cs[i]? = some p → q.1 = p.1 ∧ ∀ ρ, InRange (fun _ => p.1) Cl ρ →
      q.2 (Cl.map ρ) = cp * p.2 (Cl.map ρ) + ab * contraction (fun _ => p.1) ls Al Bl
        (fun x => as.elem (x.map (tileStart cs.sizes i + ·))) (fun x => bs.elem (x.map (tileStart cs.sizes i + ·))) ρ)
    (by
      intro U cur i hi hU hcur
      have ea := List.getElem?_eq_getElem (show i < as.length by omega)
      have eb := List.getElem?_eq_getElem (show i < bs.length by omega)
      have ec := List.getElem?_eq_getElem hi
      obtain ⟨a, _, a2, a3⟩ := hA.at ea
      obtain ⟨b, _, b2, b3⟩ := hB.at eb
      obtain ⟨c, _, c2, c3⟩ := hU.at hcur
      have ha := a3.shift rA
      have hb := b3.shift rB
      rw [sA] at ha
      rw [sB] at hb
      have na : as[i].1 = cs[i].1 := by rw [← getD_sizes ea, ← getD_sizes ec, sA]
      have nb : bs[i].1 = cs[i].1 := by rw [← getD_sizes eb, ← getD_sizes ec, sB]
      obtain ⟨c', g, g1, g2, g3⟩ := einsum_block (og := og) (check := check) (cp := cp) (ab := ab) (n := cs[i].1) (f := cs[i].2)
        hAn hA0 hB0 hC0 coverA coverB coverC noTriple order hls a3.1.operand b3.1.operand ha hb
        (a3.2.1.trans (by rw [na])) (b3.2.1.trans (by rw [nb])) c3
      refine ⟨_, (cs[i].1, g), ?_, hU.setBlock (n := cs[i].1) (f := cs[i].2) hcur g2, ?_⟩
      · unfold blockEinsumStep
        rw [c2, Outcome.ok_bind, a2, Outcome.ok_bind, b2, Outcome.ok_bind, g1, Outcome.ok_bind]
        rfl
      · intro p hp
        rw [ec] at hp
        cases hp
        exact ⟨rfl, g3⟩) hs
  have hsz : cs'.sizes = cs.sizes := by
    unfold Blocks.sizes
    apply List.ext_getElem?
    intro i
    by_cases c : i < cs.length
    · obtain ⟨q, e, hq⟩ := h4 i c
      have := (hq _ (List.getElem?_eq_getElem c)).1
      rw [List.getElem?_map, List.getElem?_map, e, List.getElem?_eq_getElem c]
      simp [this]
    · rw [List.getElem?_eq_none (by simp; omega), List.getElem?_eq_none (by simp; omega)]
  refine ⟨C', cs', h1, h2, hsz, ?_⟩
  intro ρ hρ
  refine blocks_assemble rfl hsz hC0 coverA coverB hls (fun σ h => vanish_blocks sA sB coverC share σ h) ?_ hρ
  intro b p q hp hq
  obtain ⟨q', e, hq'⟩ := h4 b (by have := List.getElem?_eq_some_iff.1 hp; exact this.1)
  rw [hq] at e
  cases e
  exact (hq' p hp).2

/-! ### A scalar result -/

omit [BEq R] [LawfulBEq R] [Div R] [CommSemiring R] in
theorem blocksDiffer_ok {A B : Block R} {ra rb : Nat} (h1 : 0 < ra) (h2 : 0 < rb) {as bs : Blocks R}
    (hA : A.Models ra as) (hB : B.Models rb bs) (sB : as.sizes = bs.sizes) : blocksDiffer A B = .ok () := by
  have lb : as.length = bs.length := by simpa [Blocks.sizes] using congrArg List.length sB
  unfold blocksDiffer
  rw [if_neg (by rw [hA.length, hB.length]; omega), if_neg]
  simp only [Bool.not_eq_true, List.any_eq_false]
  intro p hp
  obtain ⟨i, hi, e⟩ := List.mem_iff_getElem.1 hp
  subst e
  simp only [List.length_zip, hA.length, hB.length] at hi
  have ha := List.getElem?_eq_getElem (show i < as.length by omega)
  have hb := List.getElem?_eq_getElem (show i < bs.length by omega)
  obtain ⟨a, a1, _, a3⟩ := hA.at ha
  obtain ⟨b, b1, _, b3⟩ := hB.at hb
  have ea := (List.getElem?_eq_some_iff.1 a1).2
  have eb := (List.getElem?_eq_some_iff.1 b1).2
  simp only [List.getElem_zip, ea, eb, a3.dim h1, b3.dim h2]
  rw [← getD_sizes ha, ← getD_sizes hb, sB]
  simp

omit [BEq R] [LawfulBEq R] [Div R] in
/-- The sum of the contributions of the blocks to a scalar, as the code accumulates it. -/
theorem scalar_blocks (ss : List Nat) {Al Bl ls : List L} {fA fB : List Nat → R} {ab c : R} (hA0 : Al ≠ [])
    (coverA : ∀ l ∈ Al, l ∈ Bl) (coverB : ∀ l ∈ Bl, l ∈ Al) (hls : Contracted Al Bl [] ls)
    (hv : ∀ σ : L → Nat, fA (Al.map σ) * fB (Bl.map σ) ≠ 0 → ∃ b, ∀ l, l ∈ Al ∨ l ∈ Bl → InInterval ss b (σ l))
    {term : Nat → Outcome R} (ht : ∀ b, b < ss.length → term b = .ok (ab * contraction (fun _ => ss.getD b 0) ls Al Bl
        (fun x => fA (x.map (tileStart ss b + ·))) (fun x => fB (x.map (tileStart ss b + ·))) fun _ => 0))
    {sched : List Nat} (hs : sched.Perm (List.range ss.length)) :
    sumLoop term sched c = .ok (c + ab * contraction (fun _ => ss.sum) ls Al Bl fA fB fun _ => 0) := by
  obtain ⟨x, hx⟩ := List.exists_mem_of_ne_nil Al hA0
  rw [contraction_blocks ss ⟨x, .inr (.inl hx)⟩ (fun l hl => .inr (coverA l hl)) (fun l hl => .inr (coverB l hl)) hls
    (by simp [InRange]) (fun σ h => by
      obtain ⟨b, hb⟩ := hv σ h
      exact ⟨b, fun l hl => hb l (by simpa using hl)⟩)]
  rw [sumLoop_eq _ (fun l hl => ht l (List.mem_range.1 (hs.mem_iff.1 hl))), foldl_add_sum, (hs.map _).sum_eq,
    ← List.sum_map_mul_left]
  simp

omit [BEq R] [LawfulBEq R] [Div R] in
/-- A contraction over nothing. -/
theorem contraction_zero {ls Al Bl : List L} {fA fB : List Nat → R} {ρ : L → Nat} (h : ls ≠ []) (hn : ls.Nodup) :
    contraction (fun _ => 0) ls Al Bl fA fB ρ = 0 := by
  unfold contraction
  rw [sumOver_eq _ ls hn]
  have : box (ls.map fun _ => 0) = [] := by
    cases ls with
    | nil => simp at h
    | cons l ls => simp [box]
  rw [this]
  rfl

omit [Div R] in
/-- `einsum` of two block tensors into a scalar: what the loop computes. -/
theorem blockEinsumScalar_ok {Al Bl ls : List L} {check : Bool} {A B : Block R} {as bs : Blocks R}
    {cp c ab : R} (hA : A.Models Al.length as) (hB : B.Models Bl.length bs) (sB : bs.sizes = as.sizes)
    (hAn : Al.Nodup) (hA0 : Al ≠ []) (coverA : ∀ l ∈ Al, l ∈ Bl) (coverB : ∀ l ∈ Bl, l ∈ Al)
    (hls : Contracted Al Bl [] ls) {sched : List Nat} (hs : sched.Perm (List.range as.length)) :
    blockEinsumScalar check cp c ab Al A Bl B sched
      = .ok (cp * c + (cp * c + ab * contraction (fun _ => as.sizes.sum) ls Al Bl as.elem bs.elem fun _ => 0)) := by
  have rA : 0 < Al.length := List.length_pos_iff.2 hA0
  obtain ⟨x, hx⟩ := List.exists_mem_of_ne_nil Al hA0
  have rB : 0 < Bl.length := List.length_pos_of_mem (coverA x hx)
  have lb : bs.length = as.length := by simpa [Blocks.sizes] using congrArg List.length sB
  have hl0 : ls ≠ [] := List.ne_nil_of_mem ((hls.2 x).2 ⟨hx, coverA x hx, by simp⟩)
  have hc : (if cp == 0 then 0 else c * cp) = cp * c := by
    by_cases z : cp == 0
    · have : cp = 0 := by simpa using z
      rw [if_pos z, this, zero_mul]
    · rw [if_neg z, mul_comm]
  unfold blockEinsumScalar
  rw [blocksDiffer_ok rA rB hA hB sB.symm, Outcome.ok_bind]
  simp only [hc]
  rw [scalar_blocks as.sizes (ab := ab) hA0 coverA coverB hls (fun σ h => by
      obtain ⟨b, hb⟩ := vanish_blocks (Cl := []) rfl sB (by simp) ⟨x, hx, coverA x hx⟩ σ h
      exact ⟨b, fun l hl => hb l (.inr hl)⟩) ?_ (by simpa [Blocks.sizes] using hs), Outcome.ok_bind]
  · rfl
  intro i hi
  have hi : i < as.length := by simpa [Blocks.sizes] using hi
  have ea := List.getElem?_eq_getElem hi
  have eb := List.getElem?_eq_getElem (show i < bs.length by omega)
  obtain ⟨a, _, a2, a3⟩ := hA.at ea
  obtain ⟨b, _, b2, b3⟩ := hB.at eb
  have ha := a3.shift rA
  have hb := b3.shift rB
  rw [sB] at hb
  have nb : bs[i].1 = as[i].1 := by rw [← getD_sizes eb, ← getD_sizes ea, sB]
  unfold blockScalarTerm
  rw [a2, Outcome.ok_bind, a3.dim rA, getD_sizes ea]
  split
  · rename_i h0
    rw [h0, contraction_zero hl0 hls.1, mul_zero]
    rfl
  · rw [b2, Outcome.ok_bind, einsumScalar_ok (fun _ => as[i].1) Al Bl ls check (tensorOperand a) (tensorOperand b) _ _ 0 (cp * c) ab
      hAn hA0 (by rw [List.map_const']; exact a3.2.1) (by rw [List.map_const']; exact b3.2.1.trans (by rw [nb])) a3.1.operand
      b3.1.operand ha hb coverA coverB hls, zero_mul, zero_add]

/-! ### A vector and a block tensor -/

omit [BEq R] [LawfulBEq R] [Div R] [CommSemiring R] in
/-- The part of the vector that belongs to a block. -/
theorem vecPart_ok {V : Strided R} {B : Block R} {r : Nat} {bs : Blocks R} {fV : List Nat → R} (hB : B.Models r bs)
    (wV : V.WF) (dV : V.dims = [bs.sizes.sum]) (hV : V.Represents fV) {i : Nat} (hi : i < bs.length)
    (h0 : bs.sizes.getD i 0 ≠ 0) :
    ∃ X, vecPart V B i = .ok X ∧ X.Valid ∧ X.t.dims = List.replicate 1 (bs.sizes.getD i 0) ∧
      X.t.Represents fun y => fV (y.map (tileStart bs.sizes i + ·)) := by
  have hls : bs.sizes.length = bs.length := by simp [Blocks.sizes]
  have hend := tileStart_end (ss := bs.sizes) (t := i) (by omega)
  have hB' : BoxIn V.dims (List.replicate 1 (tileStart bs.sizes i, tileStart bs.sizes i + bs.sizes.getD i 0)) := by
    rw [dV]; exact boxIn_replicate (r := 1) (by omega) (by omega) hend
  have hN : Denotes V.dims (List.replicate 1 (((tileStart bs.sizes i : Nat) : Int),
      ((tileStart bs.sizes i + bs.sizes.getD i 0 : Nat) : Int)))
      (List.replicate 1 (tileStart bs.sizes i, tileStart bs.sizes i + bs.sizes.getD i 0)) := by
    rw [dV]; exact denotes_replicate (r := 1)
  obtain ⟨v, v1, v2, v3⟩ := boxView wV hB'
  have dv : v.dims = List.replicate 1 (bs.sizes.getD i 0) := by
    rw [v2]
    simp
  refine ⟨⟨v, true, false⟩, ?_, ⟨v3.wf wV, by simp, by simp⟩, dv, ?_⟩
  · have e := (ranges_eq hN hB').trans v1
    unfold vecPart
    rw [hB.range hi]
    simp only [List.replicate_one] at e
    simp only [e, Outcome.ok_bind]
  · intro j hj
    change v.read (toIdx j) = _
    rw [v3.read wV hj, hV _ (v3.addr j hj).1]
    beta_reduce
    rw [List.map_replicate, shift_replicate]
    have := hj.length
    change j.length = v.dims.length at this
    rw [dv] at this
    simpa using this

omit [DecidableEq L] [BEq R] [LawfulBEq R] [Div R] in
/-- A vector times a block tensor with the vector's label. -/
theorem vanish_vec {bs : Blocks R} {Bl : List L} (σ : L → Nat) (h : bs.elem (Bl.map σ) ≠ 0) :
    ∃ b, ∀ l, l ∈ Bl → InInterval bs.sizes b (σ l) := by
  obtain ⟨b, hb⟩ := elem_ne h
  exact ⟨b, fun l hl => hb _ (List.mem_map_of_mem hl)⟩

/-- `einsum` of a vector and a block tensor. -/
theorem vecBlockEinsum_ok {x : L} {Bl Cl ls : List L} {og check first : Bool} {V : Strided R} {B C : Block R} {bs cs : Blocks R}
    {fV : List Nat → R} {cp ab : R} (hV : V.Represents fV) (wV : V.WF) (dV : V.dims = [bs.sizes.sum])
    (hB : B.Models Bl.length bs) (hC : C.Models Cl.length cs) (sB : bs.sizes = cs.sizes) (hBn : first = false → Bl.Nodup)
    (hx : x ∈ Bl) (hC0 : Cl ≠ []) (coverB : ∀ l ∈ Bl, l = x ∨ l ∈ Cl) (coverC : ∀ l ∈ Cl, l ∈ Bl)
    (noTriple : choosePath og (if first then [x] else Bl) (if first then Bl else [x]) Cl = .gemm → x ∉ Cl)
    (order : choosePath og (if first then [x] else Bl) (if first then Bl else [x]) Cl = .outer →
      Cl = x :: Bl ∨ Cl = Bl ++ [x])
    (hls : Contracted [x] Bl Cl ls) {sched : List Nat} (hs : sched.Perm (List.range cs.length)) :
    ∃ C' cs', vecBlockEinsum og check first cp Cl C ab x V Bl B sched = .ok C' ∧ C'.Models Cl.length cs' ∧
      cs'.sizes = cs.sizes ∧
      ∀ ρ, InRange (fun _ => cs.sizes.sum) Cl ρ → cs'.elem (Cl.map ρ)
        = cp * cs.elem (Cl.map ρ) + ab * contraction (fun _ => cs.sizes.sum) ls [x] Bl fV bs.elem ρ := by
  have lb : bs.length = cs.length := by simpa [Blocks.sizes] using congrArg List.length sB
  have rB : 0 < Bl.length := List.length_pos_of_mem hx
  have rC : 0 < Cl.length := List.length_pos_iff.2 hC0
  have hB0 : Bl ≠ [] := List.ne_nil_of_mem hx
  have hls' : Contracted Bl [x] Cl ls := ⟨hls.1, fun l => by rw [hls.2 l]; tauto⟩
  unfold vecBlockEinsum
  rw [blocksDiffer_ok rB rC hB hC sB, Outcome.ok_bind]
  obtain ⟨C', cs', h1, h2, h3, h4⟩ := blockLoop_rel (step := vecBlockStep og check first cp Cl ab x V Bl B) hC
    (V := fun i q => ∀ p, cs[i]? = some p → q.1 = p.1 ∧ ∀ ρ, InRange (fun _ => p.1) Cl ρ →
      q.2 (Cl.map ρ) = cp * p.2 (Cl.map ρ) + ab * contraction (fun _ => p.1) ls [x] Bl
        (fun y => fV (y.map (tileStart cs.sizes i + ·))) (fun y => bs.elem (y.map (tileStart cs.sizes i + ·))) ρ)
    (by
      intro U cur i hi hU hcur
      have eb := List.getElem?_eq_getElem (show i < bs.length by omega)
      have ec := List.getElem?_eq_getElem hi
      obtain ⟨b, _, b2, b3⟩ := hB.at eb
      obtain ⟨c, c1, c2, c3⟩ := hU.at hcur
      have hb := b3.shift rB
      rw [sB] at hb
      have nb : bs[i].1 = cs[i].1 := by rw [← getD_sizes eb, ← getD_sizes ec, sB]
      unfold vecBlockStep
      rw [b2, Outcome.ok_bind, b3.dim rB]
      by_cases h0 : bs[i].1 = 0
      · rw [if_pos h0]
        refine ⟨U, cs[i], rfl, ?_, ?_⟩
        · rw [show cur.set i cs[i] = cur from by
            obtain ⟨w, e⟩ := List.getElem?_eq_some_iff.1 hcur
            rw [← e]; exact List.set_getElem_self w]
          exact hU
        · intro p hp
          rw [ec] at hp
          cases hp
          refine ⟨rfl, ?_⟩
          intro ρ hρ
          obtain ⟨l, hl⟩ := List.exists_mem_of_ne_nil Cl hC0
          have : ρ l < cs[i].1 := hρ l hl
          omega
      · rw [if_neg h0]
        obtain ⟨X, x1, x2, x3, x4⟩ := vecPart_ok hB wV dV hV (show i < bs.length by omega) (by rw [getD_sizes eb]; exact h0)
        rw [getD_sizes eb, nb] at x3
        rw [sB] at x4
        rw [x1, Outcome.ok_bind, c2, Outcome.ok_bind]
        have key : ∃ c' g, (if first then einsum og check cp Cl (tensorOperand c) ab [x] X Bl (tensorOperand b)
              else einsum og check cp Cl (tensorOperand c) ab Bl (tensorOperand b) [x] X) = .ok c' ∧
            HoldsBlock Cl.length c' (cs[i].1, g) ∧ ∀ ρ, InRange (fun _ => cs[i].1) Cl ρ →
              g (Cl.map ρ) = cp * cs[i].2 (Cl.map ρ) + ab * contraction (fun _ => cs[i].1) ls [x] Bl
                (fun y => fV (y.map (tileStart cs.sizes i + ·))) (fun y => bs.elem (y.map (tileStart cs.sizes i + ·))) ρ := by
          cases first with
          | true =>
            exact einsum_block (n := cs[i].1) (f := cs[i].2) (by simp) (by simp) hB0 hC0 (by simp [hx])
              (fun l hl => by rcases coverB l hl with h | h <;> simp [h]) (fun l hl => .inr (coverC l hl))
              (fun h l hl hh => by
                have e : l = x := by simpa using hh.1
                exact noTriple h (e ▸ hl)) (fun h => by simpa using order h) hls x2 b3.1.operand x4 hb x3 (b3.2.1.trans (by rw [nb])) c3
          | false =>
            obtain ⟨c', g, g1, g2, g3⟩ := einsum_block (n := cs[i].1) (f := cs[i].2) (og := og) (check := check) (cp := cp) (ab := ab)
              (A := tensorOperand b) (B := X) (Al := Bl) (Bl := [x]) (hBn rfl) hB0 (by simp) hC0
              (fun l hl => by rcases coverB l hl with h | h <;> simp [h]) (by simp [hx]) (fun l hl => .inl (coverC l hl))
              (fun h l hl hh => by
                have e : l = x := by simpa using hh.2
                exact noTriple h (e ▸ hl)) (fun h => (order h).symm) hls' b3.1.operand x2 hb x4 (b3.2.1.trans (by rw [nb])) x3 c3
            refine ⟨c', g, g1, g2, fun ρ hρ => ?_⟩
            rw [g3 ρ hρ]
            congr 2
            unfold contraction
            congr 1
            funext σ
            exact mul_comm _ _
        obtain ⟨c', g, g1, g2, g3⟩ := key
        refine ⟨{ U with blocks := U.blocks.set i c' }, (cs[i].1, g), ?_, hU.setBlock (n := cs[i].1) (f := cs[i].2) hcur g2, ?_⟩
        · cases first <;> (simp only [if_true, Bool.false_eq_true, if_false] at g1 ⊢; rw [g1, Outcome.ok_bind]; rfl)
        · intro p hp
          rw [ec] at hp
          cases hp
          exact ⟨rfl, g3⟩) hs
  have hsz : cs'.sizes = cs.sizes := by
    unfold Blocks.sizes
    apply List.ext_getElem?
    intro i
    by_cases c : i < cs.length
    · obtain ⟨q, e, hq⟩ := h4 i c
      have := (hq _ (List.getElem?_eq_getElem c)).1
      rw [List.getElem?_map, List.getElem?_map, e, List.getElem?_eq_getElem c]
      simp [this]
    · rw [List.getElem?_eq_none (by simp; omega), List.getElem?_eq_none (by simp; omega)]
  refine ⟨C', cs', h1, h2, hsz, ?_⟩
  intro ρ hρ
  refine blocks_assemble rfl hsz hC0 (by simp [hx]) (fun l hl => by rcases coverB l hl with h | h <;> simp [h]) hls
    (fun σ h => ?_) ?_ hρ
  · obtain ⟨b, hb⟩ := vanish_vec σ (right_ne_zero_of_mul h)
    rw [sB] at hb
    refine ⟨b, fun l hl => hb l ?_⟩
    rcases hl with h | h | h
    · exact coverC l h
    · have : l = x := by simpa using h
      exact this ▸ hx
    · exact h
  · intro b p q hp hq
    obtain ⟨q', e, hq'⟩ := h4 b (by have := List.getElem?_eq_some_iff.1 hp; exact this.1)
    rw [hq] at e
    cases e
    exact (hq' p hp).2

omit [Div R] in
/-- `einsum` of a vector and the diagonal of a block tensor, into a scalar. -/
theorem vecBlockEinsumScalar_ok {x : L} {Bl : List L} {check : Bool} {V : Strided R} {B : Block R} {bs : Blocks R}
    {fV : List Nat → R} {cp c ab : R} (hV : V.Represents fV) (wV : V.WF) (dV : V.dims = [bs.sizes.sum])
    (hB : B.Models Bl.length bs) (hx : x ∈ Bl) (coverB : ∀ l ∈ Bl, l = x)
    {sched : List Nat} (hs : sched.Perm (List.range bs.length)) :
    vecBlockEinsumScalar check true cp c ab x V Bl B sched
      = .ok (cp * c + (cp * c + ab * contraction (fun _ => bs.sizes.sum) [x] [x] Bl fV bs.elem fun _ => 0)) := by
  have rB : 0 < Bl.length := List.length_pos_of_mem hx
  have hls : Contracted [x] Bl [] [x] := ⟨by simp, fun l => by
    simp only [List.mem_singleton, List.not_mem_nil, not_false_eq_true, and_true]
    exact ⟨fun h => ⟨h, h ▸ hx⟩, fun h => h.1⟩⟩
  have hc : (if cp == 0 then 0 else c * cp) = cp * c := by
    by_cases z : cp == 0
    · have : cp = 0 := by simpa using z
      rw [if_pos z, this, zero_mul]
    · rw [if_neg z, mul_comm]
  unfold vecBlockEinsumScalar
  simp only [hc]
  rw [scalar_blocks bs.sizes (ab := ab) (Al := [x]) (Bl := Bl) (ls := [x]) (fA := fV) (fB := bs.elem) (by simp) (by simp [hx])
    (by simpa using coverB) hls (fun σ h => by
      obtain ⟨b, hb⟩ := vanish_vec σ (right_ne_zero_of_mul h)
      refine ⟨b, fun l hl => hb l ?_⟩
      rcases hl with h | h
      · have : l = x := by simpa using h
        exact this ▸ hx
      · exact h) ?_ (by simpa [Blocks.sizes] using hs), Outcome.ok_bind]
  · rfl
  intro i hi
  have hi : i < bs.length := by simpa [Blocks.sizes] using hi
  have eb := List.getElem?_eq_getElem hi
  obtain ⟨b, _, b2, b3⟩ := hB.at eb
  have hb := b3.shift rB
  unfold vecBlockScalarTerm
  rw [b2, Outcome.ok_bind, b3.dim rB, getD_sizes eb]
  split
  · rename_i h0
    rw [h0, contraction_zero (by simp) (by simp), mul_zero]
    rfl
  · rename_i h0
    obtain ⟨X, x1, x2, x3, x4⟩ := vecPart_ok hB wV dV hV hi (by rw [getD_sizes eb]; exact h0)
    rw [getD_sizes eb] at x3
    rw [x1, Outcome.ok_bind]
    simp only [if_true]
    rw [einsumScalar_ok (fun _ => bs[i].1) [x] Bl [x] check X (tensorOperand b) _ _ 0 (cp * c) ab (by simp) (by simp) x3
      (by rw [List.map_const']; exact b3.2.1) x2 b3.1.operand x4 hb (by simp [hx]) (by simpa using coverB) hls, zero_mul, zero_add]

end

end Einsums
