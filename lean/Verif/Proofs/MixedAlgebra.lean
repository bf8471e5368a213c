import Verif.Spec.Mixed
import Verif.Proofs.BlockAlgebra
import Verif.Props.Tiled
/-
`einsum` on block and tiled tensors together.
-/
namespace Einsums
open Spec Model

variable {L : Type} [DecidableEq L] {R : Type}

omit [DecidableEq L] in
theorem inBox_labels {Xl : List L} {τ δ : L → Nat} (h : InBox (Xl.map τ) (Xl.map δ)) : ∀ l ∈ Xl, τ l < δ l := by
  induction Xl with
  | nil => simp
  | cons c Xl ih =>
    intro l hl
    rcases List.mem_cons.1 hl with e | e
    · rw [e]; exact h.1
    · exact ih h.2 l e

omit [DecidableEq L] in
theorem inBox_labels_zero {Xl : List L} {δ : L → Nat} {y : List Nat} (h : InBox y (Xl.map δ)) {l : L} (hl : l ∈ Xl) : δ l ≠ 0 := by
  induction Xl generalizing y with
  | nil => simp at hl
  | cons c Xl ih =>
    cases y with
    | nil => exact absurd h (by simp)
    | cons x y =>
      rcases List.mem_cons.1 hl with e | e
      · rw [e]; have := h.1; omega
      · exact ih h.2 e

omit [DecidableEq L] in
/-- All labels on one block number. -/
theorem diag_labels {T : Block R} {Xl : List L} {τ : L → Nat} (h : (GridTensor.block T).offDiagonal (Xl.map τ) = false) :
    ∀ l ∈ Xl, τ l = (Xl.map τ).headD 0 := by
  unfold GridTensor.offDiagonal at h
  simp only [List.any_eq_false, bne_iff_ne, ne_eq, not_not] at h
  intro l hl
  exact h _ (List.mem_map_of_mem hl)

section
variable [CommSemiring R]

omit [DecidableEq L] in
/-- What an operand contributes to an iteration: nothing, or a tensor with the elements of its block or tile. -/
theorem source_cases {X : GridTensor R} {Xl : List L} {P : L → List Nat} {f : List Nat → R} (h : X.Elements Xl P f)
    (h0 : Xl ≠ []) {τ : L → Nat} (hk : InBox (Xl.map τ) (gridDims (Xl.map P))) :
    ((X.offDiagonal (Xl.map τ) = true ∨ X.offDiagonal (Xl.map τ) = false ∧ X.source (Xl.map τ) = .ok none) ∧
      ∀ y, InBox y (tileDims (Xl.map P) (Xl.map τ)) → f (tileGlobal (Xl.map P) (Xl.map τ) y) = 0) ∨
    (X.offDiagonal (Xl.map τ) = false ∧ ∃ t, X.source (Xl.map τ) = .ok (some t) ∧ t.IsTensor ∧
      t.dims = tileDims (Xl.map P) (Xl.map τ) ∧ t.Represents (fun y => f (tileGlobal (Xl.map P) (Xl.map τ) y)) ∧
      ∀ l ∈ Xl, (P l).getD (τ l) 0 ≠ 0) := by
  cases X with
  | tiled T =>
    obtain ⟨w, s, hr⟩ := h
    have hh := (Props.represents_holds w).1 hr
    have hk' : InBox (Xl.map τ) (gridDims T.sizes) := by rw [s]; exact hk
    simp only [GridTensor.offDiagonal, GridTensor.source]
    rw [hasTileContainer_eq hk']
    by_cases skip : (!(T.tiles.lookup (Xl.map τ)).isSome || T.hasZeroSize (Xl.map τ)) = true
    · left
      rw [if_pos skip]
      refine ⟨.inr ⟨trivial, rfl⟩, ?_⟩
      intro y hy
      simp only [Bool.or_eq_true, Bool.not_eq_true'] at skip
      rw [hasZeroSize_labels s hk] at skip
      rcases skip with h | ⟨l, hl, h⟩
      · have := (hh _ hk').2 (by simpa using h) y (by rw [s]; exact hy)
        rwa [s] at this
      · exfalso
        rw [tileDims_labels] at hy
        exact inBox_labels_zero hy hl h
    · right
      rw [if_neg skip]
      simp only [Bool.or_eq_true, Bool.not_eq_true', not_or] at skip
      obtain ⟨s1, s2⟩ := skip
      obtain ⟨α, hα⟩ : ∃ α, T.tiles.lookup (Xl.map τ) = some α := Option.isSome_iff_exists.1 (Bool.not_eq_false _ ▸ s1)
      have eα : T.at (Xl.map τ) = .ok α := by unfold Tiled.at; rw [hα]
      obtain ⟨_, tα, dα⟩ := w.tiles _ _ hα
      have rα := (hh _ hk').1 _ hα
      rw [s] at dα rα
      refine ⟨trivial, α, by rw [tileConst_eq hk', eα, Outcome.ok_bind], tα, dα, rα, ?_⟩
      intro l hl h
      rw [hasZeroSize_labels s hk] at s2
      exact s2 ⟨l, hl, h⟩
  | block T =>
    obtain ⟨bs, hm, hP, hf⟩ := h
    have hr : 0 < Xl.length := List.length_pos_iff.2 h0
    have eP : Xl.map P = Xl.map fun _ => bs.sizes := List.map_congr_left fun l hl => hP l hl
    have hbox : ∀ y, InBox y (tileDims (Xl.map P) (Xl.map τ)) →
        InBox (tileGlobal (Xl.map P) (Xl.map τ) y) (List.replicate Xl.length bs.sizes.sum) := by
      intro y hy
      have e : fullDims (Xl.map P) = List.replicate Xl.length bs.sizes.sum := by
        rw [eP, fullDims_labels, List.map_const']
      rw [← e]
      exact inTile_full (inTile_global hk hy)
    by_cases hd : (GridTensor.block T).offDiagonal (Xl.map τ) = true
    · left
      refine ⟨.inl hd, ?_⟩
      intro y hy
      rw [hf _ (hbox y hy)]
      by_contra hne
      obtain ⟨b, hb⟩ := elem_ne hne
      have hint := inTile_global hk hy
      have key : ∀ (Yl : List L) (z : List Nat), (∀ l ∈ Yl, P l = bs.sizes) → InTile (Yl.map P) (Yl.map τ) z →
          InBlock bs.sizes b z → ∀ l ∈ Yl, τ l = b := by
        intro Yl
        induction Yl with
        | nil => intro z _ _ _; simp
        | cons c Yl ih =>
          intro z hP' hz hbz l hl
          cases z with
          | nil => exact absurd hz (by simp [InTile])
          | cons x z =>
            obtain ⟨⟨w, h1, h2, h3⟩, h4⟩ := hz
            rcases List.mem_cons.1 hl with e | e
            · subst e
              rw [hP' l (by simp)] at h1 h2 h3
              refine interval_unique (ss := bs.sizes) (x := x) ⟨h2, ?_⟩ (hbz x (by simp))
              simp only [List.getD_eq_getElem?_getD, h1, Option.getD_some]
              exact h3
            · exact ih z (fun m hm => hP' m (by simp [hm])) h4 (fun x hx => hbz x (by simp [hx])) l e
      have hall := key Xl _ hP hint hb
      unfold GridTensor.offDiagonal at hd
      simp only [List.any_eq_true, bne_iff_ne, ne_eq] at hd
      obtain ⟨x, hx, hxne⟩ := hd
      obtain ⟨l, hl, rfl⟩ := List.mem_map.1 hx
      apply hxne
      rw [hall l hl]
      cases Xl with
      | nil => simp at h0
      | cons c Xl => simp [hall c (by simp)]
    · have hd : (GridTensor.block T).offDiagonal (Xl.map τ) = false := by simpa using hd
      have hall := diag_labels hd
      obtain ⟨b, hbdef⟩ : ∃ b, b = (Xl.map τ).headD 0 := ⟨_, rfl⟩
      rw [← hbdef] at hall
      have eτ : Xl.map τ = Xl.map fun _ => b := List.map_congr_left fun l hl => hall l hl
      have hb : b < bs.length := by
        obtain ⟨l, hl⟩ := List.exists_mem_of_ne_nil Xl h0
        rw [gridDims_labels] at hk
        have := inBox_labels hk l hl
        rw [hall l hl, hP l hl] at this
        simpa [Blocks.sizes] using this
      have eb := List.getElem?_eq_getElem hb
      obtain ⟨t, _, t2, t3⟩ := hm.at eb
      have hdim : tileDims (Xl.map P) (Xl.map τ) = List.replicate Xl.length bs[b].1 := by
        rw [tileDims_labels, ← List.map_const']
        apply List.map_congr_left
        intro l hl
        rw [hP l hl, hall l hl, getD_sizes eb]
      have hgl : ∀ y, InBox y (tileDims (Xl.map P) (Xl.map τ)) →
          f (tileGlobal (Xl.map P) (Xl.map τ) y) = bs[b].2 y := by
        intro y hy
        rw [hf _ (hbox y hy), eP, eτ]
        rw [hdim] at hy
        rw [tileGlobal_const _ _ (by simpa using hy.length), elem_shift hr hb (by rw [getD_sizes eb]; exact hy)]
      have hsrc : (GridTensor.block T).source (Xl.map τ) = .ok (if bs[b].1 = 0 then none else some t) := by
        simp only [GridTensor.source]
        rw [← hbdef, t2, Outcome.ok_bind, t3.dim hr]
        rfl
      by_cases hz : bs[b].1 = 0
      · left
        rw [if_pos hz] at hsrc
        refine ⟨.inr ⟨hd, hsrc⟩, ?_⟩
        intro y hy
        exfalso
        rw [hdim, hz] at hy
        obtain ⟨e1, e2⟩ := inBox_replicate.1 hy
        cases y with
        | nil => simp at e1; omega
        | cons x y => have := e2 x (by simp); omega
      · right
        rw [if_neg hz] at hsrc
        refine ⟨hd, t, hsrc, t3.1, t3.2.1.trans hdim.symm, ?_, ?_⟩
        · intro y hy
          rw [t3.2.2 y hy]
          exact congrArg _ (hgl y (by rw [hdim, ← t3.2.1]; exact hy)).symm
        · intro l hl
          rw [hP l hl, hall l hl, getD_sizes eb]
          exact hz

omit [DecidableEq L] in
theorem InInterval.tile {ss : List Nat} {b x : Nat} : InInterval ss b x ↔ tileStart ss b ≤ x ∧ x < tileStart ss b + ss.getD b 0 :=
  Iff.rfl

/-- A tile of `C` that does not contain the element contributes nothing to it. -/
theorem tilePart_out (P : L → List Nat) {Cl Al Bl : List L} {fA fB : List Nat → R} {ρ τ : L → Nat}
    (h : ¬ ∀ l ∈ Cl, InInterval (P l) (τ l) (ρ l)) :
    tilePart P (uniqueLabels Cl Al Bl) Cl Al Bl fA fB ρ ((uniqueLabels Cl Al Bl).map τ) = 0 := by
  apply tilePart_zero
  intro lam hlam hco
  exfalso
  apply h
  intro l hl
  have h1 := hlam l (mem_uniqueLabels.2 (.inl hl))
  have h2 := hco l hl
  unfold InInterval
  omega

variable [BEq R] [LawfulBEq R] [Div R]

/-- `einsum` on one block or tile of each tensor. -/
theorem einsum_tile {P : L → List Nat} {τ : L → Nat} {Al Bl Cl ls : List L} {og check : Bool} {α β γ : Strided R}
    {fA fB f : List Nat → R} {ab : R} (hAn : Al.Nodup) (hA0 : Al ≠ []) (hB0 : Bl ≠ []) (hC0 : Cl ≠ [])
    (coverA : ∀ l ∈ Al, l ∈ Cl ∨ l ∈ Bl) (coverB : ∀ l ∈ Bl, l ∈ Cl ∨ l ∈ Al) (coverC : ∀ l ∈ Cl, l ∈ Al ∨ l ∈ Bl)
    (noTriple : choosePath og Al Bl Cl = .gemm → ∀ l ∈ Cl, ¬(l ∈ Al ∧ l ∈ Bl))
    (order : choosePath og Al Bl Cl = .outer → Cl = Al ++ Bl ∨ Cl = Bl ++ Al)
    (hls : Contracted Al Bl Cl ls) (tα : α.IsTensor) (tβ : β.IsTensor) (tγ : γ.IsTensor)
    (dα : α.dims = tileDims (Al.map P) (Al.map τ)) (dβ : β.dims = tileDims (Bl.map P) (Bl.map τ))
    (dγ : γ.dims = tileDims (Cl.map P) (Cl.map τ))
    (rα : α.Represents fun y => fA (tileGlobal (Al.map P) (Al.map τ) y))
    (rβ : β.Represents fun y => fB (tileGlobal (Bl.map P) (Bl.map τ) y))
    (rγ : γ.Represents fun y => f (tileGlobal (Cl.map P) (Cl.map τ) y)) (hz : ∀ l ∈ Al, (P l).getD (τ l) 0 ≠ 0) :
    ∃ γ' g, einsum og check 1 Cl (tensorOperand γ) ab Al (tensorOperand α) Bl (tensorOperand β) = .ok γ' ∧ γ'.IsTensor ∧
      γ'.dims = tileDims (Cl.map P) (Cl.map τ) ∧ γ'.Represents g ∧
      ∀ ρ, (∀ l ∈ Cl, InInterval (P l) (τ l) (ρ l)) → g (Cl.map fun l => ρ l - tileStart (P l) (τ l))
        = f (Cl.map ρ) + ab * tilePart P (uniqueLabels Cl Al Bl) Cl Al Bl fA fB ρ ((uniqueLabels Cl Al Bl).map τ) := by
  rw [tileDims_labels] at dα dβ
  have dγ' := dγ
  rw [tileDims_labels] at dγ'
  obtain ⟨γ', g1, g2, g3⟩ := Props.C15_einsum (fun l => (P l).getD (τ l) 0) Al Bl Cl ls og check (tensorOperand α)
    (tensorOperand β) (tensorOperand γ) _ _ _ 1 ab hAn hA0 hB0 hC0 dα dβ dγ' tα.operand tβ.operand tγ.operand rfl rα rβ rγ
    coverA coverB coverC noTriple order hls (.inl fun l hl => hz l ((hls.2 l).1 hl).1)
  have tγ' : γ'.IsTensor := g2.isTensor tγ
  have : Inhabited R := ⟨0⟩
  obtain ⟨g, hg⟩ := exists_represents tγ'.wf
  refine ⟨γ', g, g1, tγ', g2.dims.trans dγ, hg, ?_⟩
  intro ρ hin
  have el : Cl.map ρ = tileGlobal (Cl.map P) (Cl.map τ) (Cl.map fun l => ρ l - tileStart (P l) (τ l)) := by
    rw [tileGlobal_labels]
    apply List.map_congr_left
    intro l hl
    have := (hin l hl).1
    omega
  have bl : InBox (Cl.map fun l => ρ l - tileStart (P l) (τ l)) (tileDims (Cl.map P) (Cl.map τ)) := by
    rw [tileDims_labels]
    exact inBox_map fun l hl => by have := hin l hl; unfold InInterval at this; omega
  rw [tilePart_eq P coverA coverB hls τ hin]
  have := g3 (fun l => ρ l - tileStart (P l) (τ l)) (fun l hl => by have := hin l hl; unfold InInterval at this; simp only; omega)
  rw [hg _ (by rw [g2.dims]; change InBox _ γ.dims; rw [dγ]; exact bl)] at this
  rw [Outcome.ok.inj this, one_mul, ← el]

/-- One iteration adds the part of its blocks or tiles to every element that `C` stores. -/
theorem mixedStep_ok {P : L → List Nat} {Al Bl Cl ls : List L} {og check : Bool} {A B C : GridTensor R}
    {fA fB f : List Nat → R} {ab : R} (eA : A.Elements Al P fA) (eB : B.Elements Bl P fB) (eC : C.Elements Cl P f)
    (hmix : C.isBlock = true → (A.isBlock || B.isBlock) = true)
    (hAn : Al.Nodup) (hA0 : Al ≠ []) (hB0 : Bl ≠ []) (hC0 : Cl ≠ [])
    (coverA : ∀ l ∈ Al, l ∈ Cl ∨ l ∈ Bl) (coverB : ∀ l ∈ Bl, l ∈ Cl ∨ l ∈ Al) (coverC : ∀ l ∈ Cl, l ∈ Al ∨ l ∈ Bl)
    (noTriple : choosePath og Al Bl Cl = .gemm → ∀ l ∈ Cl, ¬(l ∈ Al ∧ l ∈ Bl))
    (order : choosePath og Al Bl Cl = .outer → Cl = Al ++ Bl ∨ Cl = Bl ++ Al)
    (hls : Contracted Al Bl Cl ls) {s : Nat} (hs : s < numel ((uniqueLabels Cl Al Bl).map fun l => (P l).length)) :
    ∃ C' f', mixedEinsumStep og check (uniqueLabels Cl Al Bl) ((uniqueLabels Cl Al Bl).map fun l => (P l).length) Cl ab Al A Bl B
        C s = .ok C' ∧ C'.isBlock = C.isBlock ∧ C'.Elements Cl P f' ∧
      ∀ ρ, InRange (fun l => (P l).sum) Cl ρ → (C.isBlock = true → ∃ b, ∀ l ∈ Cl, InInterval (P l) b (ρ l)) →
        f' (Cl.map ρ) = f (Cl.map ρ) + ab * tilePart P (uniqueLabels Cl Al Bl) Cl Al Bl fA fB ρ
          (sentinelToIndices s (dimsToStrides ((uniqueLabels Cl Al Bl).map fun l => (P l).length)).2) := by
  classical
  have mC : ∀ l ∈ Cl, l ∈ uniqueLabels Cl Al Bl := fun l hl => mem_uniqueLabels.2 (.inl hl)
  have mA : ∀ l ∈ Al, l ∈ uniqueLabels Cl Al Bl := fun l hl => mem_uniqueLabels.2 (.inr (.inl hl))
  have mB : ∀ l ∈ Bl, l ∈ uniqueLabels Cl Al Bl := fun l hl => mem_uniqueLabels.2 (.inr (.inr hl))
  obtain ⟨k, hkdef⟩ : ∃ k, k = sentinelToIndices s
      (dimsToStrides ((uniqueLabels Cl Al Bl).map fun l => (P l).length)).2 := ⟨_, rfl⟩
  have hk : InBox k ((uniqueLabels Cl Al Bl).map fun l => (P l).length) := by
    rw [hkdef]; exact (sentinelToIndices_spec hs).1
  unfold mixedEinsumStep
  rw [tileOfSentinel_eq (by simp) mA hs, tileOfSentinel_eq (by simp) mB hs, tileOfSentinel_eq (by simp) mC hs, ← hkdef]
  obtain ⟨τ, hτ⟩ : ∃ τ : L → Nat, τ = bindEnv (uniqueLabels Cl Al Bl) k fun _ => 0 := ⟨_, rfl⟩
  have kA : InBox (Al.map τ) (gridDims (Al.map P)) := by rw [hτ]; exact tile_inGrid hk mA
  have kB : InBox (Bl.map τ) (gridDims (Bl.map P)) := by rw [hτ]; exact tile_inGrid hk mB
  have kC : InBox (Cl.map τ) (gridDims (Cl.map P)) := by rw [hτ]; exact tile_inGrid hk mC
  have ek : k = (uniqueLabels Cl Al Bl).map τ := by
    rw [hτ]
    exact (map_bindEnv (U := uniqueLabels Cl Al Bl) (nodup_unique _) (by have := hk.length; simpa using this) _).symm
  simp only [Outcome.ok_bind, ← hτ]
  rw [ek]
  -- iterations that do nothing
  have zeroA : (∀ y, InBox y (tileDims (Al.map P) (Al.map τ)) → fA (tileGlobal (Al.map P) (Al.map τ) y) = 0) →
      ∀ ρ, tilePart P (uniqueLabels Cl Al Bl) Cl Al Bl fA fB ρ ((uniqueLabels Cl Al Bl).map τ) = 0 := by
    intro h ρ
    apply tilePart_zero
    intro lam hlam _
    rw [h _ (by rw [tileDims_labels]; exact inBox_map fun l hl => hlam l (mA l hl)), zero_mul]
  have zeroB : (∀ y, InBox y (tileDims (Bl.map P) (Bl.map τ)) → fB (tileGlobal (Bl.map P) (Bl.map τ) y) = 0) →
      ∀ ρ, tilePart P (uniqueLabels Cl Al Bl) Cl Al Bl fA fB ρ ((uniqueLabels Cl Al Bl).map τ) = 0 := by
    intro h ρ
    apply tilePart_zero
    intro lam hlam _
    rw [h _ (by rw [tileDims_labels]; exact inBox_map fun l hl => hlam l (mB l hl)), mul_zero]
  have stay : (∀ ρ, InRange (fun l => (P l).sum) Cl ρ → (C.isBlock = true → ∃ b, ∀ l ∈ Cl, InInterval (P l) b (ρ l)) →
        tilePart P (uniqueLabels Cl Al Bl) Cl Al Bl fA fB ρ ((uniqueLabels Cl Al Bl).map τ) = 0) →
      ∃ C' f', (Outcome.ok C : Outcome (GridTensor R)) = .ok C' ∧ C'.isBlock = C.isBlock ∧ C'.Elements Cl P f' ∧
      ∀ ρ, InRange (fun l => (P l).sum) Cl ρ → (C.isBlock = true → ∃ b, ∀ l ∈ Cl, InInterval (P l) b (ρ l)) →
        f' (Cl.map ρ) = f (Cl.map ρ) + ab * tilePart P (uniqueLabels Cl Al Bl) Cl Al Bl fA fB ρ ((uniqueLabels Cl Al Bl).map τ) := by
    intro h
    exact ⟨C, f, rfl, rfl, eC, fun ρ h1 h2 => by rw [h ρ h1 h2, mul_zero, add_zero]⟩
  by_cases oA : A.offDiagonal (Al.map τ) = true
  · rw [if_pos oA]
    rcases source_cases eA hA0 kA with ⟨_, h⟩ | ⟨h, _⟩
    · exact stay fun ρ _ _ => zeroA h ρ
    · rw [h] at oA; simp at oA
  rw [if_neg oA]
  by_cases oB : B.offDiagonal (Bl.map τ) = true
  · rw [if_pos oB]
    rcases source_cases eB hB0 kB with ⟨_, h⟩ | ⟨h, _⟩
    · exact stay fun ρ _ _ => zeroB h ρ
    · rw [h] at oB; simp at oB
  rw [if_neg oB]
  by_cases oC : C.offDiagonal (Cl.map τ) = true
  · rw [if_pos oC]
    refine stay fun ρ hρ hst => tilePart_out P fun hin => ?_
    cases C with
    | tiled T => simp [GridTensor.offDiagonal] at oC
    | block T =>
      obtain ⟨b, hb⟩ := hst rfl
      have hall : ∀ l ∈ Cl, τ l = b := fun l hl => interval_unique (hin l hl) (hb l hl)
      unfold GridTensor.offDiagonal at oC
      simp only [List.any_eq_true, bne_iff_ne, ne_eq] at oC
      obtain ⟨x, hx, hxne⟩ := oC
      obtain ⟨l, hl, rfl⟩ := List.mem_map.1 hx
      apply hxne
      rw [hall l hl]
      cases Cl with
      | nil => simp at hC0
      | cons c Cl => simp [hall c (by simp)]
  rw [if_neg oC]
  rcases source_cases eA hA0 kA with ⟨h | ⟨_, h⟩, hz⟩ | ⟨_, α, sα, tα, dα, rα, zα⟩
  · exact absurd h oA
  · rw [h, Outcome.ok_bind]
    exact stay fun ρ _ _ => zeroA hz ρ
  rw [sα, Outcome.ok_bind]
  simp only
  rcases source_cases eB hB0 kB with ⟨h | ⟨_, h⟩, hz⟩ | ⟨_, β, sβ, tβ, dβ, rβ, zβ⟩
  · exact absurd h oB
  · rw [h, Outcome.ok_bind]
    exact stay fun ρ _ _ => zeroB hz ρ
  rw [sβ, Outcome.ok_bind]
  simp only
  have hnz : ∀ l ∈ Cl, (P l).getD (τ l) 0 ≠ 0 := fun l hl => (coverC l hl).elim (zα l) (zβ l)
  cases C with
  | tiled T =>
    simp only
    obtain ⟨w, sT, hT⟩ := eC
    have hH := (Props.represents_holds w).1 hT
    have kC' : InBox (Cl.map τ) (gridDims T.sizes) := by rw [sT]; exact kC
    rw [if_neg (by
      rw [hasZeroSize_labels sT kC]
      rintro ⟨l, hl, h⟩
      exact hnz l hl h)]
    obtain ⟨C2, γ, q1, q2, q3, q4, q5, q6, q7, q8, q9, q10, q11⟩ := tile_at w hH kC'
    rw [sT] at q9 q10
    obtain ⟨γ', g, g1, g2, g3, g4, g5⟩ := einsum_tile (og := og) (check := check) (ab := ab) hAn hA0 hB0 hC0 coverA coverB coverC
      noTriple order hls tα tβ q8 dα dβ q9 rα rβ q10 zα
    have sC2 : C2.sizes = Cl.map P := q4.trans sT
    have kC2 : InBox (Cl.map τ) (gridDims C2.sizes) := by rw [sC2]; exact kC
    obtain ⟨w3, h3⟩ := setTile_update q3 q7 kC2 (by rw [q11]; rfl) g2 (by rw [sC2]; exact g3)
      (g := fun i => g (tileLocal C2.sizes (Cl.map τ) i)) (by
        intro l hl
        rw [g4 l hl]
        simp only
        rw [tileLocal_global kC2 (by rw [sC2, ← g3]; exact hl)])
    refine ⟨.tiled (C2.setTile (Cl.map τ) γ'), _, ?_, rfl, ⟨w3, sC2, (Props.represents_holds w3).2 h3⟩, ?_⟩
    · rw [q1, Outcome.ok_bind]
      simp only
      rw [q2, Outcome.ok_bind, g1]
      rfl
    · intro ρ hρ _
      simp only [sC2]
      by_cases hin : ∀ l ∈ Cl, InInterval (P l) (τ l) (ρ l)
      · have el : Cl.map ρ = tileGlobal (Cl.map P) (Cl.map τ) (Cl.map fun l => ρ l - tileStart (P l) (τ l)) := by
          rw [tileGlobal_labels]
          apply List.map_congr_left
          intro l hl
          have := (hin l hl).1
          omega
        have bl : InBox (Cl.map fun l => ρ l - tileStart (P l) (τ l)) (tileDims (Cl.map P) (Cl.map τ)) := by
          rw [tileDims_labels]
          exact inBox_map fun l hl => by have := hin l hl; unfold InInterval at this; omega
        have hit : InTile (Cl.map P) (Cl.map τ) (Cl.map ρ) := by rw [el]; exact inTile_global kC bl
        rw [if_pos hit]
        conv_lhs => rw [el]
        rw [tileLocal_global kC bl, g5 ρ hin]
      · have hit : ¬ InTile (Cl.map P) (Cl.map τ) (Cl.map ρ) := fun h => hin (inTile_labels h)
        rw [if_neg hit, tilePart_out P hin, mul_zero, add_zero]
  | block T =>
    simp only
    obtain ⟨cs, hm, hP, hf⟩ := eC
    have hr : 0 < Cl.length := List.length_pos_iff.2 hC0
    have hall := diag_labels (T := T) (by simpa using oC)
    obtain ⟨b, hbdef⟩ : ∃ b, b = (Cl.map τ).headD 0 := ⟨_, rfl⟩
    rw [← hbdef] at hall ⊢
    have hb : b < cs.length := by
      obtain ⟨l, hl⟩ := List.exists_mem_of_ne_nil Cl hC0
      rw [gridDims_labels] at kC
      have := inBox_labels kC l hl
      rw [hall l hl, hP l hl] at this
      simpa [Blocks.sizes] using this
    have eb := List.getElem?_eq_getElem hb
    obtain ⟨t, _, t2, t3⟩ := hm.at eb
    have ePc : Cl.map P = Cl.map fun _ => cs.sizes := List.map_congr_left fun l hl => hP l hl
    have eτ : Cl.map τ = Cl.map fun _ => b := List.map_congr_left fun l hl => hall l hl
    have hdim : tileDims (Cl.map P) (Cl.map τ) = List.replicate Cl.length cs[b].1 := by
      rw [tileDims_labels, ← List.map_const']
      apply List.map_congr_left
      intro l hl
      rw [hP l hl, hall l hl, getD_sizes eb]
    have hbox : ∀ y, InBox y (tileDims (Cl.map P) (Cl.map τ)) →
        InBox (tileGlobal (Cl.map P) (Cl.map τ) y) (List.replicate Cl.length cs.sizes.sum) := by
      intro y hy
      have e : fullDims (Cl.map P) = List.replicate Cl.length cs.sizes.sum := by
        rw [ePc, fullDims_labels, List.map_const']
      rw [← e]
      exact inTile_full (inTile_global kC hy)
    have hgl : ∀ y, InBox y (tileDims (Cl.map P) (Cl.map τ)) →
        tileGlobal (Cl.map P) (Cl.map τ) y = y.map (tileStart cs.sizes b + ·) := by
      intro y hy
      rw [hdim] at hy
      rw [ePc, eτ, tileGlobal_const _ _ (by simpa using hy.length)]
    have rt : t.Represents fun y => f (tileGlobal (Cl.map P) (Cl.map τ) y) := by
      intro y hy
      have hy' : InBox y (tileDims (Cl.map P) (Cl.map τ)) := by rw [hdim, ← t3.2.1]; exact hy
      rw [t3.2.2 y hy]
      beta_reduce
      rw [hf _ (hbox y hy'), hgl y hy', elem_shift hr hb (by rw [getD_sizes eb, ← hdim]; exact hy')]
    obtain ⟨γ', g, g1, g2, g3, g4, g5⟩ := einsum_tile (og := og) (check := check) (ab := ab) hAn hA0 hB0 hC0 coverA coverB coverC
      noTriple order hls tα tβ t3.1 dα dβ (t3.2.1.trans hdim.symm) rα rβ rt zα
    have hz : t.dim 0 ≠ 0 := by
      rw [t3.dim hr]
      obtain ⟨l, hl⟩ := List.exists_mem_of_ne_nil Cl hC0
      have := hnz l hl
      rwa [hP l hl, hall l hl, getD_sizes eb] at this
    have hnew : HoldsBlock Cl.length γ' (cs[b].1, g) := ⟨g2, g3.trans hdim, g4⟩
    have hset := hm.setBlock (n := cs[b].1) (f := cs[b].2) eb hnew
    have hsz : Blocks.sizes (cs.set b (cs[b].1, g)) = cs.sizes := by
      unfold Blocks.sizes
      rw [List.map_set]
      simp only
      rw [show cs[b].1 = (cs.map (·.1))[b]'(by simpa using hb) by simp]
      exact List.set_getElem_self _
    refine ⟨.block { T with blocks := T.blocks.set b γ' }, Blocks.elem (cs.set b (cs[b].1, g)), ?_, rfl,
      ⟨cs.set b (cs[b].1, g), hset, by rw [hsz]; exact hP, fun j _ => rfl⟩, ?_⟩
    · rw [t2, Outcome.ok_bind, if_neg hz, if_pos (hmix rfl), g1]
      rfl
    · intro ρ hρ hst
      obtain ⟨b', hb'⟩ := hst rfl
      have hj : InBox (Cl.map ρ) (List.replicate Cl.length cs.sizes.sum) := by
        rw [← List.map_const']
        refine inBox_map fun l hl => ?_
        have : ρ l < (P l).sum := hρ l hl
        rwa [hP l hl] at this
      rw [hf _ hj]
      have hinb : InBlock cs.sizes b' (Cl.map ρ) := by
        intro x hx
        obtain ⟨l, hl, rfl⟩ := List.mem_map.1 hx
        have := hb' l hl
        rwa [hP l hl] at this
      have hne : Cl.map ρ ≠ [] := by simpa using hC0
      by_cases e : b' = b
      · subst e
        have hin : ∀ l ∈ Cl, InInterval (P l) (τ l) (ρ l) := by
          intro l hl
          rw [hall l hl]
          exact hb' l hl
        have := g5 ρ hin
        rw [hf _ hj] at this
        rw [← this]
        unfold Blocks.elem
        rw [find_eq hne (by rw [hsz]; exact hinb)]
        simp only [hsz]
        rw [List.getD_eq_getElem?_getD, List.getElem?_set_self hb]
        simp only [Option.getD_some, List.map_map]
        congr 1
        apply List.map_congr_left
        intro l hl
        simp only [Function.comp]
        rw [hP l hl, hall l hl]
      · rw [tilePart_out P, mul_zero, add_zero]
        · unfold Blocks.elem
          rw [find_eq hne (by rw [hsz]; exact hinb), find_eq hne hinb]
          simp only [hsz]
          rw [List.getD_eq_getElem?_getD, List.getElem?_set_ne (Ne.symm e), ← List.getD_eq_getElem?_getD]
        · intro hin
          obtain ⟨l, hl⟩ := List.exists_mem_of_ne_nil Cl hC0
          have := interval_unique (hin l hl) (hb' l hl)
          rw [hall l hl] at this
          exact e this.symm

omit [DecidableEq L] [Div R] in
/-- `C` before the loop. -/
theorem prescale_elements {P : L → List Nat} {Cl : List L} {C : GridTensor R} {f : List Nat → R} (hC0 : Cl ≠ [])
    (eC : C.Elements Cl P f) (cp : R) :
    (C.prescale cp).isBlock = C.isBlock ∧ (C.prescale cp).Elements Cl P fun i => cp * f i := by
  cases C with
  | tiled T =>
    obtain ⟨w, sT, hT⟩ := eC
    refine ⟨rfl, ?_⟩
    unfold GridTensor.prescale
    by_cases c : cp == 0
    · have e : cp = 0 := by simpa using c
      subst e
      simp only [beq_self_eq_true, if_true, zero_mul]
      exact ⟨zero_wf w, sT, (Props.represents_holds (zero_wf w)).2 (zero_holds T)⟩
    · simp only [c, Bool.false_eq_true, if_false]
      obtain ⟨w0, s0, h0⟩ := prescale_holds w ((Props.represents_holds w).1 hT) cp
      unfold Tiled.prescale at w0 s0 h0
      rw [if_neg c] at w0 s0 h0
      exact ⟨w0, s0.trans sT, (Props.represents_holds w0).2 h0⟩
  | block T =>
    obtain ⟨cs, hm, hP, hf⟩ := eC
    have hr : 0 < Cl.length := List.length_pos_iff.2 hC0
    refine ⟨rfl, ?_⟩
    have key : ∀ (G : (List Nat → R) → List Nat → R), (∀ g i, G g i = cp * g i) → ∀ T' : Block R,
        T'.Models Cl.length (cs.map fun p => (p.1, G p.2)) → (GridTensor.block T').Elements Cl P fun i => cp * f i := by
      intro G hG T' hT'
      have hsz : Blocks.sizes (cs.map fun p => (p.1, G p.2)) = cs.sizes := by simp [Blocks.sizes]
      refine ⟨_, hT', by rw [hsz]; exact hP, ?_⟩
      intro j hj
      rw [hsz] at hj
      beta_reduce
      rw [hf j hj]
      rcases elem_cases cs hr hj with ⟨b, hb, l, _, _, h⟩ | ⟨_, h⟩
      · rw [h _ rfl hb, h _ hsz (by simpa using hb)]
        simp [hG]
      · rw [h _ rfl, h _ hsz, mul_zero]
    unfold GridTensor.prescale
    by_cases c : cp == 0
    · have e : cp = 0 := by simpa using c
      simp only [c, if_true]
      exact key (fun _ _ => 0) (by intro g i; rw [e, zero_mul]) _ (setAll_models hm 0)
    · simp only [c, Bool.false_eq_true, if_false]
      exact key (fun g i => g i * cp) (fun g i => mul_comm _ _) _ (scalar_models hr hm _ cp)

/-- A sequence of iterations adds the parts of their blocks and tiles to every element that `C` stores. -/
theorem mixed_loop {P : L → List Nat} {Al Bl Cl ls : List L} {og check : Bool} {A B : GridTensor R} {kind : Bool}
    {fA fB : List Nat → R} {ab : R} (eA : A.Elements Al P fA) (eB : B.Elements Bl P fB)
    (hmix : kind = true → (A.isBlock || B.isBlock) = true)
    (hAn : Al.Nodup) (hA0 : Al ≠ []) (hB0 : Bl ≠ []) (hC0 : Cl ≠ [])
    (coverA : ∀ l ∈ Al, l ∈ Cl ∨ l ∈ Bl) (coverB : ∀ l ∈ Bl, l ∈ Cl ∨ l ∈ Al) (coverC : ∀ l ∈ Cl, l ∈ Al ∨ l ∈ Bl)
    (noTriple : choosePath og Al Bl Cl = .gemm → ∀ l ∈ Cl, ¬(l ∈ Al ∧ l ∈ Bl))
    (order : choosePath og Al Bl Cl = .outer → Cl = Al ++ Bl ∨ Cl = Bl ++ Al)
    (hls : Contracted Al Bl Cl ls) (sched : List Nat)
    (hs : ∀ s ∈ sched, s < numel ((uniqueLabels Cl Al Bl).map fun l => (P l).length)) :
    ∀ (C : GridTensor R) (f : List Nat → R), C.Elements Cl P f → C.isBlock = kind →
    ∃ C' f', sched.foldlM (mixedEinsumStep og check (uniqueLabels Cl Al Bl)
        ((uniqueLabels Cl Al Bl).map fun l => (P l).length) Cl ab Al A Bl B) C = .ok C' ∧ C'.isBlock = kind ∧ C'.Elements Cl P f' ∧
      ∀ ρ, InRange (fun l => (P l).sum) Cl ρ → (kind = true → ∃ b, ∀ l ∈ Cl, InInterval (P l) b (ρ l)) →
        f' (Cl.map ρ) = f (Cl.map ρ) + ab * (sched.map fun s => tilePart P (uniqueLabels Cl Al Bl) Cl Al Bl fA fB ρ
          (sentinelToIndices s (dimsToStrides ((uniqueLabels Cl Al Bl).map fun l => (P l).length)).2)).sum := by
  induction sched with
  | nil =>
    intro C f eC hk
    exact ⟨C, f, rfl, hk, eC, fun ρ _ _ => by simp⟩
  | cons s sched ih =>
    intro C f eC hk
    obtain ⟨C1, f1, e1, k1, h1, v1⟩ := mixedStep_ok (og := og) (check := check) (ab := ab) eA eB eC (hk ▸ hmix)
      hAn hA0 hB0 hC0 coverA coverB coverC noTriple order hls (hs s (by simp))
    obtain ⟨C2, f2, e2, k2, h2, v2⟩ := ih (fun t ht => hs t (by simp [ht])) C1 f1 h1 (k1.trans hk)
    refine ⟨C2, f2, ?_, k2, h2, ?_⟩
    · rw [List.foldlM_cons, e1]
      exact e2
    · intro ρ hρ hst
      rw [v2 ρ hρ hst, v1 ρ hρ (hk ▸ hst), List.map_cons, List.sum_cons, mul_add, add_assoc]

omit [DecidableEq L] [LawfulBEq R] [BEq R] [Div R] in
theorem grid_elements {P : L → List Nat} {Xl : List L} {X : GridTensor R} {f : List Nat → R} (e : X.Elements Xl P f) :
    X.grid = Xl.map fun l => (P l).length := by
  cases X with
  | tiled T =>
    change T.grid = _
    unfold Tiled.grid
    rw [e.2.1, List.map_map]
    rfl
  | block T =>
    obtain ⟨bs, hm, hP, _⟩ := e
    change List.replicate T.rank T.blocks.length = _
    rw [hm.rank, hm.length, ← List.map_const']
    apply List.map_congr_left
    intro l hl
    rw [hP l hl]
    simp [Blocks.sizes]

omit [DecidableEq L] [LawfulBEq R] [BEq R] [Div R] in
theorem dims_elements {P : L → List Nat} {Xl : List L} {X : GridTensor R} {f : List Nat → R} (e : X.Elements Xl P f) :
    X.dims = Xl.map fun l => (P l).sum := by
  cases X with
  | tiled T =>
    change T.dims = _
    rw [e.1.dims, e.2.1]
    exact fullDims_labels P Xl
  | block T =>
    obtain ⟨bs, hm, hP, _⟩ := e
    change T.allDims = _
    unfold Block.allDims
    rw [hm.rank, hm.dim, ← List.map_const']
    apply List.map_congr_left
    intro l hl
    rw [hP l hl]

/-- All iterations, in any order. -/
theorem mixedEinsum_ok {P : L → List Nat} {Al Bl Cl ls : List L} {og check : Bool} {A B C : GridTensor R}
    {fA fB f : List Nat → R} {cp ab : R} (eA : A.Elements Al P fA) (eB : B.Elements Bl P fB) (eC : C.Elements Cl P f)
    (hmix : C.isBlock = true → (A.isBlock || B.isBlock) = true)
    (hAn : Al.Nodup) (hA0 : Al ≠ []) (hB0 : Bl ≠ []) (hC0 : Cl ≠ [])
    (coverA : ∀ l ∈ Al, l ∈ Cl ∨ l ∈ Bl) (coverB : ∀ l ∈ Bl, l ∈ Cl ∨ l ∈ Al) (coverC : ∀ l ∈ Cl, l ∈ Al ∨ l ∈ Bl)
    (noTriple : choosePath og Al Bl Cl = .gemm → ∀ l ∈ Cl, ¬(l ∈ Al ∧ l ∈ Bl))
    (order : choosePath og Al Bl Cl = .outer → Cl = Al ++ Bl ∨ Cl = Bl ++ Al)
    (hls : Contracted Al Bl Cl ls) {sched : List Nat} (hs : sched.Perm (List.range (mixedCount Cl C Al A Bl B))) :
    ∃ C' f', mixedEinsum og check cp Cl C ab Al A Bl B sched = .ok C' ∧ C'.isBlock = C.isBlock ∧ C'.Elements Cl P f' ∧
      ∀ ρ, InRange (fun l => (P l).sum) Cl ρ → (C.isBlock = true → ∃ b, ∀ l ∈ Cl, InInterval (P l) b (ρ l)) →
        f' (Cl.map ρ) = cp * f (Cl.map ρ) + ab * contraction (fun l => (P l).sum) ls Al Bl fA fB ρ := by
  have hU : (uniqueLabels Cl Al Bl).map (fun l => (P l).length) ≠ [] := by
    obtain ⟨l, hl⟩ := List.exists_mem_of_ne_nil Cl hC0
    intro h
    have := mem_uniqueLabels (Al := Al) (Bl := Bl).2 (.inl hl)
    rw [List.map_eq_nil_iff.1 h] at this
    simp at this
  unfold mixedCount at hs
  unfold mixedEinsum
  rw [grid_elements eA, grid_elements eB, grid_elements eC, gridRanges_eq (fun l => (P l).length)] at hs ⊢
  rw [gridCount_eq hU] at hs
  obtain ⟨k0, h0⟩ := prescale_elements hC0 eC cp
  obtain ⟨C', f', e, k', h, v⟩ := mixed_loop (og := og) (check := check) (ab := ab) eA eB hmix hAn hA0 hB0 hC0
    coverA coverB coverC noTriple order hls sched (fun s h => List.mem_range.1 (hs.mem_iff.1 h)) _ _ h0 k0
  refine ⟨C', f', e, k', h, ?_⟩
  intro ρ hρ hst
  rw [v ρ hρ hst, (hs.map _).sum_eq, ← sum_tileParts P coverA coverB hls hρ, box_eq_map, List.map_map]
  rfl

/-! ### The element-wise product of vectors -/

omit [DecidableEq L] [LawfulBEq R] [BEq R] [Div R] in
/-- The elements after one block is replaced. -/
theorem elem_set {cs : Blocks R} {b : Nat} (hb : b < cs.length) (g : List Nat → R) {j : List Nat} (hj : j ≠ [])
    [Decidable (InBlock cs.sizes b j)] :
    Blocks.elem (cs.set b (cs[b].1, g)) j
      = if InBlock cs.sizes b j then g (j.map (· - tileStart cs.sizes b)) else cs.elem j := by
  have hsz : Blocks.sizes (cs.set b (cs[b].1, g)) = cs.sizes := by
    unfold Blocks.sizes
    rw [List.map_set]
    simp only
    rw [show cs[b].1 = (cs.map (·.1))[b]'(by simpa using hb) by simp]
    exact List.set_getElem_self _
  have hf : Blocks.find (cs.set b (cs[b].1, g)) j = cs.find j := by
    unfold Blocks.find
    rw [hsz, List.length_set]
  unfold Blocks.elem
  rw [hf, hsz]
  by_cases h : InBlock cs.sizes b j
  · rw [if_pos h, find_eq hj h]
    simp only
    rw [List.getD_eq_getElem?_getD, List.getElem?_set_self hb]
    rfl
  · rw [if_neg h]
    cases e : cs.find j with
    | none => rfl
    | some b' =>
      have hne : b ≠ b' := by
        rintro rfl
        exact h (find_some e).2
      simp only
      rw [List.getD_eq_getElem?_getD, List.getElem?_set_ne hne, ← List.getD_eq_getElem?_getD]

omit [DecidableEq L] [LawfulBEq R] [BEq R] [Div R] in
/-- One block of a vector. -/
theorem vector_block {l : L} {P : L → List Nat} {T : Block R} {f : List Nat → R} (e : (GridTensor.block T).Elements [l] P f)
    {i : Nat} (hi : i < (P l).length) :
    ∃ t, T.at i = .ok t ∧ t.IsTensor ∧ t.dims = [(P l).getD i 0] ∧ t.dim 0 = (P l).getD i 0 ∧
      t.Represents fun y => f (y.map (tileStart (P l) i + ·)) := by
  obtain ⟨bs, hm, hP, hf⟩ := e
  have eP : P l = bs.sizes := hP l (by simp)
  rw [eP] at hi ⊢
  have hb : i < bs.length := by simpa [Blocks.sizes] using hi
  have eb := List.getElem?_eq_getElem hb
  obtain ⟨t, _, t2, t3⟩ := hm.at eb
  refine ⟨t, t2, t3.1, by rw [t3.2.1, getD_sizes eb]; rfl, by rw [t3.dim (by simp), getD_sizes eb], ?_⟩
  intro y hy
  rw [t3.2.2 y hy]
  beta_reduce
  have hy' : InBox y (List.replicate [l].length (bs.sizes.getD i 0)) := by
    rw [getD_sizes eb, ← t3.2.1]
    exact hy
  have hj : InBox (y.map (tileStart bs.sizes i + ·)) (List.replicate [l].length bs.sizes.sum) := by
    rw [inBox_replicate]
    exact ⟨by simpa using hy'.length, fun x hx => interval_sum (inBlock_shift hy' x hx)⟩
  rw [hf _ hj, elem_shift (by simp) hb hy']

omit [DecidableEq L] [LawfulBEq R] [BEq R] [Div R] in
theorem vector_grid {l : L} {P : L → List Nat} {i : Nat} (hi : i < (P l).length) :
    InBox [i] (gridDims ([l].map P)) := by
  simpa [gridDims, InBox] using hi

omit [DecidableEq L] [LawfulBEq R] [BEq R] [Div R] in
/-- One tile of a vector. -/
theorem vector_tile {l : L} {P : L → List Nat} {T : Tiled R} {f : List Nat → R} (e : (GridTensor.tiled T).Elements [l] P f)
    {i : Nat} (hi : i < (P l).length) :
    (T.hasTileContainer (toIdx [i]) = false ∧ (T.hasTile (toIdx [i])) = false ∧
      ∀ x, InInterval (P l) i x → f [x] = 0) ∨
    (T.hasTileContainer (toIdx [i]) = true ∧ ∃ t, T.tileConst (toIdx [i]) = .ok t ∧ t.IsTensor ∧ t.dims = [(P l).getD i 0] ∧
      t.Represents fun y => f (y.map (tileStart (P l) i + ·))) := by
  obtain ⟨w, sT, hT⟩ := e
  have hH := (Props.represents_holds w).1 hT
  have k : InBox [i] (gridDims T.sizes) := by rw [sT]; exact vector_grid hi
  have hd : tileDims T.sizes [i] = [(P l).getD i 0] := by rw [sT]; rfl
  have hg : ∀ y, InBox y [(P l).getD i 0] → tileGlobal T.sizes [i] y = y.map (tileStart (P l) i + ·) := by
    intro y hy
    match y, hy.length with
    | [x], _ => rw [sT]; rfl
  rw [hasTileContainer_eq k, tileConst_eq k, hasTile_eq k]
  cases e : T.tiles.lookup [i] with
  | none =>
    refine .inl ⟨rfl, rfl, ?_⟩
    intro x hx
    unfold InInterval at hx
    have hb : InBox [x - tileStart (P l) i] [(P l).getD i 0] := by
      simp only [InBox, and_true]
      omega
    have := (hH [i] k).2 e [x - tileStart (P l) i] (by rw [hd]; exact hb)
    rw [hg _ hb] at this
    simp only [List.map_cons, List.map_nil] at this
    rwa [show tileStart (P l) i + (x - tileStart (P l) i) = x by omega] at this
  | some t =>
    obtain ⟨_, t1, t2⟩ := w.tiles _ _ e
    refine .inr ⟨rfl, t, by unfold Tiled.at; rw [e], t1, t2.trans hd, ?_⟩
    intro y hy
    rw [(hH [i] k).1 t e y hy]
    beta_reduce
    rw [hg y (by rw [← hd, ← t2]; exact hy)]

omit [DecidableEq L] [Div R] in
/-- The product of one block or tile of each operand. -/
theorem directInto_ok {l : L} {P : L → List Nat} {C : GridTensor R} {f fA fB : List Nat → R} (eC : C.Elements [l] P f)
    {alpha beta : R} {i : Nat} (hi : i < (P l).length) {a b : Strided R} (da : a.dims = [(P l).getD i 0])
    (db : b.dims = [(P l).getD i 0]) (ra : a.Represents fun y => fA (y.map (tileStart (P l) i + ·)))
    (rb : b.Represents fun y => fB (y.map (tileStart (P l) i + ·))) [∀ x, Decidable (InInterval (P l) i x)] :
    ∃ C' f', mixedDirectInto alpha a b beta C i [i] = .ok C' ∧ C'.isBlock = C.isBlock ∧ C'.Elements [l] P f' ∧
      ∀ x, x < (P l).sum → f' [x] = if InInterval (P l) i x then beta * f [x] + alpha * (fA [x] * fB [x]) else f [x] := by
  classical
  unfold mixedDirectInto
  cases C with
  | tiled T =>
    simp only
    obtain ⟨w, sT, hT⟩ := eC
    have hH := (Props.represents_holds w).1 hT
    have k : InBox [i] (gridDims T.sizes) := by rw [sT]; exact vector_grid hi
    obtain ⟨C2, γ, q1, q2, q3, q4, q5, q6, q7, q8, q9, q10, q11⟩ := tile_at w hH k
    have hd : tileDims T.sizes [i] = [(P l).getD i 0] := by rw [sT]; rfl
    have hg : ∀ y, InBox y [(P l).getD i 0] → tileGlobal T.sizes [i] y = y.map (tileStart (P l) i + ·) := by
      intro y hy
      match y, hy.length with
      | [x], _ => rw [sT]; rfl
    obtain ⟨γ', g1, g2, g3⟩ := directProduct_eq alpha beta (q9.trans (hd.trans da.symm)) (q9.trans (hd.trans db.symm)) q8 ra rb q10
    have kC2 : InBox [i] (gridDims C2.sizes) := by rw [q4]; exact k
    obtain ⟨w3, h3⟩ := setTile_update q3 q7 kC2 (by rw [q11]; rfl) (g2.isTensor q8) (by rw [g2.dims, q9, q4])
      (g := fun j => beta * f j + alpha * (fA j * fB j)) (by
        intro y hy
        rw [g3 y hy]
        beta_reduce
        rw [q4, hg y (by rw [← hd, ← q9, ← g2.dims]; exact hy)])
    refine ⟨.tiled (C2.setTile [i] γ'), _, ?_, rfl, ⟨w3, q4.trans sT, (Props.represents_holds w3).2 h3⟩, ?_⟩
    · rw [q1, Outcome.ok_bind]
      simp only
      rw [q2, Outcome.ok_bind, g1]
      rfl
    · intro x hx
      have e : InTile C2.sizes [i] [x] ↔ InInterval (P l) i x := by
        rw [q4, sT]
        simp [InTile, InInterval, List.getElem?_eq_getElem hi]
      simp only [e]
  | block T =>
    simp only
    obtain ⟨t, t1, t2, t3, t4, t5⟩ := vector_block eC hi
    obtain ⟨γ', g1, g2, g3⟩ := directProduct_eq alpha beta (t3.trans da.symm) (t3.trans db.symm) t2 ra rb t5
    obtain ⟨cs, hm, hP, hf⟩ := eC
    have eP : P l = cs.sizes := hP l (by simp)
    rw [eP] at hi
    have hb : i < cs.length := by simpa [Blocks.sizes] using hi
    have eb := List.getElem?_eq_getElem hb
    have hset := hm.setBlock (n := cs[i].1) (f := cs[i].2) eb (t := γ')
      (g := fun y => beta * f (y.map (tileStart (P l) i + ·)) +
        alpha * (fA (y.map (tileStart (P l) i + ·)) * fB (y.map (tileStart (P l) i + ·))))
      ⟨g2.isTensor t2, by rw [g2.dims, t3, eP, getD_sizes eb]; rfl, g3⟩
    refine ⟨.block { T with blocks := T.blocks.set i γ' }, _, by rw [t1, Outcome.ok_bind, g1]; rfl, rfl,
      ⟨_, hset, ?_, fun j _ => rfl⟩, ?_⟩
    · intro l' hl'
      rw [hP l' hl']
      unfold Blocks.sizes
      rw [List.map_set]
      simp only
      rw [show cs[i].1 = (cs.map (·.1))[i]'(by simpa using hb) by simp]
      exact (List.set_getElem_self _).symm
    · intro x hx
      rw [elem_set hb _ (by simp)]
      have e : InBlock cs.sizes i [x] ↔ InInterval (P l) i x := by
        rw [eP]
        simp [InBlock]
      simp only [e]
      by_cases h : InInterval (P l) i x
      · rw [if_pos h, if_pos h]
        unfold InInterval at h
        rw [eP] at h ⊢
        simp only [List.map_cons, List.map_nil]
        rw [show tileStart cs.sizes i + (x - tileStart cs.sizes i) = x by omega]
      · rw [if_neg h, if_neg h]
        rw [eP] at hx
        exact (hf [x] (by simpa [InBox] using hx)).symm

omit [DecidableEq L] [Div R] in
/-- One iteration of the product of two vectors. -/
theorem directStep_ok {l : L} {P : L → List Nat} {A B C : GridTensor R} {f fA fB : List Nat → R} (eA : A.Elements [l] P fA)
    (eB : B.Elements [l] P fB) (eC : C.Elements [l] P f) (hk : (A.isBlock || B.isBlock) = true) {alpha beta : R}
    (full : beta = 1 ∨ ∀ T : Tiled R, A = .tiled T ∨ B = .tiled T → ∀ k, InBox k (gridDims T.sizes) → T.hasTile (toIdx k) = true)
    {i : Nat} (hi : i < (P l).length) [∀ x, Decidable (InInterval (P l) i x)] :
    ∃ C' f', mixedDirectStep 1 alpha A B beta C i = .ok C' ∧ C'.isBlock = C.isBlock ∧ C'.Elements [l] P f' ∧
      ∀ x, x < (P l).sum → f' [x] = if InInterval (P l) i x then beta * f [x] + alpha * (fA [x] * fB [x]) else f [x] := by
  unfold mixedDirectStep
  simp only [Nat.sub_self, List.replicate_zero]
  have stay : (∀ x, InInterval (P l) i x → beta * f [x] + alpha * (fA [x] * fB [x]) = f [x]) →
      ∃ C' f', (Outcome.ok C : Outcome (GridTensor R)) = .ok C' ∧ C'.isBlock = C.isBlock ∧ C'.Elements [l] P f' ∧
      ∀ x, x < (P l).sum → f' [x] = if InInterval (P l) i x then beta * f [x] + alpha * (fA [x] * fB [x]) else f [x] := by
    intro h
    refine ⟨C, f, rfl, rfl, eC, fun x _ => ?_⟩
    by_cases c : InInterval (P l) i x
    · rw [if_pos c, h x c]
    · rw [if_neg c]
  have empty : (P l).getD i 0 = 0 → ∀ x, InInterval (P l) i x → beta * f [x] + alpha * (fA [x] * fB [x]) = f [x] := by
    intro h x hx
    unfold InInterval at hx
    omega
  have missing : ∀ T : Tiled R, A = .tiled T ∨ B = .tiled T → T.hasTile (toIdx [i]) = false → T.sizes = [l].map P →
      (∀ x, InInterval (P l) i x → fA [x] * fB [x] = 0) →
      ∀ x, InInterval (P l) i x → beta * f [x] + alpha * (fA [x] * fB [x]) = f [x] := by
    intro T hT h1 h2 h3 x hx
    rcases full with h | h
    · rw [h, h3 x hx, one_mul, mul_zero, add_zero]
    · rw [h T hT [i] (by rw [h2]; exact vector_grid hi)] at h1
      simp at h1
  cases A with
  | tiled A =>
    cases B with
    | tiled B => simp [GridTensor.isBlock] at hk
    | block B =>
      simp only
      rcases vector_tile eA hi with ⟨c, c2, z⟩ | ⟨c, a, a1, a2, a3, a4⟩
      · rw [if_pos c]
        exact stay (missing A (.inl rfl) c2 eA.2.1 fun x hx => by rw [z x hx, zero_mul])
      · rw [if_neg (by simp [c])]
        obtain ⟨b, b1, b2, b3, b4, b5⟩ := vector_block eB hi
        rw [b1, Outcome.ok_bind, b4]
        split
        · exact stay (empty (by assumption))
        · rw [a1, Outcome.ok_bind]
          exact directInto_ok eC hi a3 b3 a4 b5
  | block A =>
    obtain ⟨a, a1, a2, a3, a4, a5⟩ := vector_block eA hi
    cases B with
    | tiled B =>
      simp only
      rcases vector_tile eB hi with ⟨c, c2, z⟩ | ⟨c, b, b1, b2, b3, b4⟩
      · rw [if_pos c]
        exact stay (missing B (.inr rfl) c2 eB.2.1 fun x hx => by rw [z x hx, mul_zero])
      · rw [if_neg (by simp [c]), a1, Outcome.ok_bind, a4]
        split
        · exact stay (empty (by assumption))
        · rw [b1, Outcome.ok_bind]
          exact directInto_ok eC hi a3 b3 a5 b4
    | block B =>
      simp only
      obtain ⟨b, b1, b2, b3, b4, b5⟩ := vector_block eB hi
      rw [a1, Outcome.ok_bind, a4]
      split
      · exact stay (empty (by assumption))
      · rw [b1, Outcome.ok_bind]
        exact directInto_ok eC hi a3 b3 a5 b5

omit [DecidableEq L] [Div R] in
/-- The product of two vectors, the blocks in any order. -/
theorem direct_loop {l : L} {P : L → List Nat} {A B : GridTensor R} {fA fB : List Nat → R} (eA : A.Elements [l] P fA)
    (eB : B.Elements [l] P fB) (hk : (A.isBlock || B.isBlock) = true) {alpha beta : R}
    (full : beta = 1 ∨ ∀ T : Tiled R, A = .tiled T ∨ B = .tiled T → ∀ k, InBox k (gridDims T.sizes) → T.hasTile (toIdx k) = true)
    (sched : List Nat) (hn : sched.Nodup) (hs : ∀ i ∈ sched, i < (P l).length) [∀ i x, Decidable (InInterval (P l) i x)] :
    ∀ (C : GridTensor R) (f : List Nat → R), C.Elements [l] P f →
    ∃ C' f', sched.foldlM (mixedDirectStep 1 alpha A B beta) C = .ok C' ∧ C'.isBlock = C.isBlock ∧ C'.Elements [l] P f' ∧
      ∀ x, x < (P l).sum → f' [x] = if ∃ i ∈ sched, InInterval (P l) i x then beta * f [x] + alpha * (fA [x] * fB [x]) else f [x] := by
  induction sched with
  | nil =>
    intro C f eC
    exact ⟨C, f, rfl, rfl, eC, fun x _ => by simp⟩
  | cons i sched ih =>
    intro C f eC
    obtain ⟨C1, f1, e1, k1, h1, v1⟩ := directStep_ok (alpha := alpha) (beta := beta) eA eB eC hk full (hs i (by simp))
    obtain ⟨C2, f2, e2, k2, h2, v2⟩ := ih (List.nodup_cons.1 hn).2 (fun t ht => hs t (by simp [ht])) C1 f1 h1
    refine ⟨C2, f2, ?_, k2.trans k1, h2, ?_⟩
    · rw [List.foldlM_cons, e1]
      exact e2
    · intro x hx
      rw [v2 x hx, v1 x hx]
      by_cases c : InInterval (P l) i x
      · have : ¬ ∃ i ∈ sched, InInterval (P l) i x := by
          rintro ⟨j, hj, h⟩
          rw [interval_unique h c] at hj
          exact (List.nodup_cons.1 hn).1 hj
        rw [if_neg this, if_pos c, if_pos ⟨i, by simp, c⟩]
      · simp only [c, List.mem_cons, exists_eq_or_imp, false_or, if_false]

end

end Einsums
