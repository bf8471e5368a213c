import Verif.Proofs.GemmPath
/-
Scaling, flattening, and the outer-product, dot and element-wise branches of einsum.
-/
namespace Einsums
open Spec Model

variable {L : Type} [DecidableEq L] {R : Type}

section lawfree
variable [Add R] [Mul R] [Zero R] [One R] [BEq R]

omit [Add R] [Zero R] [One R] [BEq R] in
/-- `scale` on a row-major tensor multiplies every element and nothing else. -/
theorem scale_rowMajor {t : Strided R} (h : t.RowMajor) (h0 : t.dims ≠ []) {f : List Nat → R}
    (hf : t.Represents f) (a : R) :
    ∃ t', scale a t = .ok t' ∧ t.Frame t' ∧ t'.Represents fun i => a * f i := by
  have hn : t.dim 0 * t.stride 0 = numel t.dims := by
    unfold Strided.dim Strided.stride
    rw [h.strides]
    match hd : t.dims with
    | [] => exact (h0 hd).elim
    | d :: ds => rw [dimsToStrides_snd_cons]; simp
  obtain ⟨m, h1, h2, h3, h4⟩ := memLoop (List.range (numel t.dims)) (fun i => t.off + i * 1)
    (fun _ old => .ok (a * old)) (fun _ old => a * old) t.data
    (List.nodup_range.map fun x y e => by simpa using e)
    (by
      intro b hb
      have := h.fits
      have := List.mem_range.1 hb
      simp; omega)
    (fun _ _ _ _ => rfl)
  have hs : scale a t = .ok { t with data := m } := by
    unfold scale blasScal
    rw [if_neg (by decide), hn]
    simp only [h1, Outcome.ok_bind]
  obtain ⟨fr, r⟩ := frame_of_mem h.wf h2 (f' := fun i => a * f i)
    (by
      intro j hj
      rw [h.strides, dot_strides_eq hj.length]
      have := h3 (rowMajor j t.dims) (List.mem_range.2 (rowMajor_lt hj))
      simp only [Nat.mul_one] at this
      rw [this, rowMajor_get h hf hj]; rfl)
    (by
      intro p hp
      apply h4
      intro hm
      obtain ⟨k, hk, rfl⟩ := List.mem_map.1 hm
      have hk := List.mem_range.1 hk
      apply hp (unflat t.dims k) (unflat_inBox hk)
      rw [h.strides, dot_strides_eq (unflat_inBox hk).length, rowMajor_unflat hk]
      simp)
  exact ⟨_, hs, fr, r⟩

omit [Add R] [Mul R] [Zero R] [One R] [BEq R] in
theorem toRank1_rowMajor {X : Operand R} (h : X.t.RowMajor) (h0 : X.t.dims ≠ []) :
    X.toRank1 = .ok (vecView X.t X.t.dims) := by
  have hl : linearSize X.t.strides X.t.dims = numel X.t.dims := by
    rw [h.strides, ← transformStrides_eq, linearSize_eq h0]
  unfold Operand.toRank1
  cases X.isView with
  | false =>
    simp only [Bool.false_eq_true, if_false, Strided.toRank1, hl, vecView, Strided.viewAs]
    congr 2
    split
    · rename_i h1
      obtain ⟨d, hd⟩ : ∃ d, X.t.dims = [d] := List.length_eq_one_iff.1 h1
      rw [h.strides, hd]; rfl
    · rfl
  | true =>
    simp only [if_true, Strided.viewToRank1]
    by_cases h1 : X.t.dims.length = 1
    · rw [if_pos h1]
      obtain ⟨d, hd⟩ : ∃ d, X.t.dims = [d] := List.length_eq_one_iff.1 h1
      have hs := h.strides
      rw [hd] at hs
      obtain ⟨⟨data, off, dims, strides⟩, v, f⟩ := X
      simp only at hd hs ⊢
      subst hd hs
      simp [vecView, Strided.viewAs]
      rfl
    · have hlast : X.t.strides.getLast? = some 1 := by
        rw [h.strides]
        have key : ∀ ds : List Nat, ds ≠ [] → (dimsToStrides ds).2.getLast? = some 1 := by
          intro ds
          induction ds with
          | nil => simp
          | cons d ds ih =>
            intro _
            rw [dimsToStrides_snd_cons]
            cases ds with
            | nil => rfl
            | cons e es => rw [List.getLast?_cons, ih (by simp)]; rfl
        exact key _ h0
      rw [if_neg h1, if_neg (by simp [hlast]), hl]; rfl

omit [Add R] [Mul R] [Zero R] [One R] [BEq R] in
theorem foldl_mul_numel (d : List Nat) (a : Nat) : d.foldl (· * ·) a = a * numel d := by
  induction d generalizing a with
  | nil => simp
  | cons x d ih => simp [ih, Nat.mul_assoc]

omit [Add R] [Mul R] [Zero R] [One R] [BEq R] in
theorem viewDims_rowMajor {t : Strided R} (h : t.RowMajor) {p q : List Nat} (hd : t.dims = p ++ q)
    (hp : p ≠ []) (hq : q ≠ []) : t.viewDims [numel p, numel q] = .ok (matView t p q) := by
  have l1 := List.length_pos_iff.2 hp
  have l2 := List.length_pos_iff.2 hq
  have hlen : t.dims.length = p.length + q.length := by rw [hd]; simp
  unfold Strided.viewDims
  rw [if_neg (by simp; omega)]
  by_cases h2 : [numel p, numel q].length = t.dims.length
  · rw [if_pos h2]
    obtain ⟨a, rfl⟩ : ∃ a, p = [a] := List.length_eq_one_iff.1 (by simp at h2; omega)
    obtain ⟨b, rfl⟩ : ∃ b, q = [b] := List.length_eq_one_iff.1 (by simp at h2; omega)
    rw [h.strides, hd]
    simp [matView, dimsToStrides]
  · rw [if_neg h2, if_pos]
    · rw [transformStrides_eq]; simp [matView, dimsToStrides]
    · rw [foldl_mul_numel, foldl_mul_numel, hd]; simp [numel_append]

end lawfree

section
variable [CommSemiring R]

omit [DecidableEq L] in
/-- The outer product through the matrix view. -/
theorem ger_blocks {δ : L → Nat} {P Q : List L} {X Y C : Strided R} {fX fY fC : List Nat → R} (ab : R)
    (rX : X.RowMajor) (rY : Y.RowMajor) (rC : C.RowMajor)
    (dX : X.dims = P.map δ) (dY : Y.dims = Q.map δ) (dC : C.dims = (P ++ Q).map δ)
    (hX : X.Represents fX) (hY : Y.Represents fY) (hC : C.Represents fC) (hq : numel (Q.map δ) ≠ 0) :
    ∃ r, ger ab (vecView X X.dims) (vecView Y Y.dims) (matView C (P.map δ) (Q.map δ)) = .ok r ∧
      C.Frame { C with data := r.data } ∧
      ∀ ρ, InRange δ (P ++ Q) ρ → ({ C with data := r.data } : Strided R).read (toIdx ((P ++ Q).map ρ))
        = .ok (fC ((P ++ Q).map ρ) + ab * (fX (P.map ρ) * fY (Q.map ρ))) := by
  have hvX := vecView_represents rX hX
  have hvY := vecView_represents rY hY
  rw [dX] at hvX
  rw [dY] at hvY
  have dC' : C.dims = P.map δ ++ Q.map δ := by rw [dC]; simp
  obtain ⟨r, h1, h2, h3⟩ := Props.C26_ger (numel (P.map δ)) (numel (Q.map δ)) ab _ _
    (matView C (P.map δ) (Q.map δ)) (numel (Q.map δ)) 1 1 (matFun fC (P.map δ) (Q.map δ)) _ _
    rfl rfl rfl rfl rfl rfl (by omega) (by decide) (by decide) hvX hvY (matView_wf rC dC')
    (matView_represents rC dC' hC)
  obtain ⟨fr, hread⟩ := of_matView rC dC' h2 h3
  refine ⟨r, by rw [dX, dY]; exact h1, fr, ?_⟩
  intro ρ hρ
  obtain ⟨bP, bQ⟩ := inBox_of_inRange hρ
  have e := hread _ _ bP bQ
  rw [← List.map_append] at e
  rw [e]
  simp [matFun, unflat_rowMajor bP, unflat_rowMajor bQ]

end

section
variable [CommSemiring R] [BEq R] [LawfulBEq R] [Div R]

/-- The outer-product branch. -/
theorem einsumOuter_shape {δ : L → Nat} {Al Bl Cl : List L} (sw : Bool) {A B : Operand R} {C : Strided R}
    {fA fB fC : List Nat → R} (cp ab : R)
    (hCn : Cl.Nodup) (hA0 : Al ≠ []) (hB0 : Bl ≠ [])
    (eC : Cl = if sw then Bl ++ Al else Al ++ Bl)
    (dA : A.t.dims = Al.map δ) (dB : B.t.dims = Bl.map δ) (dC : C.dims = Cl.map δ)
    (uA : A.full = true) (uB : B.full = true)
    (rA : A.t.RowMajor) (rB : B.t.RowMajor) (rC : C.RowMajor)
    (hA : A.t.Represents fA) (hB : B.t.Represents fB) (hC : C.Represents fC) :
    ∃ C', einsumOuter cp Cl C ab Al A Bl B = .ok C' ∧ C.Frame C' ∧
      ∀ ρ, InRange δ Cl ρ → C'.read (toIdx (Cl.map ρ))
        = .ok (cp * fC (Cl.map ρ) + ab * contraction δ [] Al Bl fA fB ρ) := by
  have hAC : ∀ l ∈ Al, l ∈ Cl := by intro l hl; rw [eC]; cases sw <;> simp [hl]
  have hBC : ∀ l ∈ Bl, l ∈ Cl := by intro l hl; rw [eC]; cases sw <;> simp [hl]
  have fAC : Al.filter (· ∈ Cl) = Al := List.filter_eq_self.2 fun l hl => by simpa using hAC l hl
  have fBC : Bl.filter (· ∈ Cl) = Bl := List.filter_eq_self.2 fun l hl => by simpa using hBC l hl
  have cA := posInC_eq (Xl := Al) hCn
  have cB := posInC_eq (Xl := Bl) hCn
  rw [fAC] at cA
  rw [fBC] at cB
  have hdis : ∀ l ∈ Al, l ∉ Bl := by
    intro l h1 h2
    rw [eC] at hCn
    cases sw
    · exact (List.nodup_append.1 (by simpa using hCn)).2.2 l h1 l h2 rfl
    · exact (List.nodup_append.1 (by simpa using hCn)).2.2 l h2 l h1 rfl
  have hlinks : Contracted Al Bl Cl [] := ⟨List.nodup_nil, fun l => by
    simp only [List.not_mem_nil, false_iff, not_and]
    intro h1 h2; exact (hdis l h1 h2).elim⟩
  obtain ⟨fC1, gC1, gC2⟩ : (decide (firstPos (posInC Al Cl) ≠ 0) = sw) ∧
      productDims (posInC Al Cl) C = numel (Al.map δ) ∧ productDims (posInC Bl Cl) C = numel (Bl.map δ) := by
    rw [cA, cB]
    cases sw
    · obtain ⟨a1, a2, a3, a4, a5, a6⟩ := two_block_facts (y := Al) (z := Bl) (by simpa using eC) dC rC.strides hCn hA0 hB0
      exact ⟨by simpa using a1, a5, a6⟩
    · obtain ⟨a1, a2, a3, a4, a5, a6⟩ := two_block_facts (y := Bl) (z := Al) (by simpa using eC) dC rC.strides hCn hB0 hA0
      exact ⟨by simpa using a2, a6, a5⟩
  have fC2 : (firstPos (posInC Al Cl) ≠ 0) = (sw = true) := by rw [← fC1]; simp
  have hC0 : C.dims ≠ [] := by
    rw [dC, eC]; cases sw <;> simp [hA0]
  have hA0' : A.t.dims ≠ [] := by rw [dA]; simpa
  have hB0' : B.t.dims ≠ [] := by rw [dB]; simpa
  -- the scaled C
  obtain ⟨C1, hs1, fr1, r1⟩ : ∃ C1, (if cp == 1 then Outcome.ok C else scale cp C) = .ok C1 ∧
      C.Frame C1 ∧ C1.Represents fun i => cp * fC i := by
    by_cases h1 : (cp == 1) = true
    · rw [if_pos h1]
      refine ⟨C, rfl, Strided.Frame.refl _, ?_⟩
      rw [eq_of_beq h1]
      simpa using hC
    · rw [if_neg h1]
      exact scale_rowMajor rC hC0 hC cp
  have rC1 : C1.RowMajor := fr1.rowMajor rC
  unfold einsumOuter
  rw [uA, uB]
  simp only [Bool.not_true, Bool.or_self, Bool.false_eq_true, if_false]
  simp only [fC2, gC1, gC2, hs1, toRank1_rowMajor rA hA0', toRank1_rowMajor rB hB0', Outcome.ok_bind]
  have hvd : C.viewDims (if sw = true then [numel (Bl.map δ), numel (Al.map δ)]
      else [numel (Al.map δ), numel (Bl.map δ)]) = .ok (if sw = true then matView C (Bl.map δ) (Al.map δ)
      else matView C (Al.map δ) (Bl.map δ)) := by
    cases sw
    · exact viewDims_rowMajor rC (by rw [dC, eC]; simp) (by simpa) (by simpa)
    · exact viewDims_rowMajor rC (by rw [dC, eC]; simp) (by simpa) (by simpa)
  rw [hvd]
  simp only [Outcome.ok_bind]
  have hmv : ∀ p q, ({ matView C p q with data := C1.data } : Strided R) = matView C1 p q := by
    intro p q; simp [matView, Strided.viewAs, fr1.off]
  by_cases hz : numel ((if sw then Al else Bl).map δ) = 0
  · -- the vector routine refuses the empty row: nothing to do
    have herr : ∃ m, (if sw = true then ger ab (vecView B.t B.t.dims) (vecView A.t A.t.dims)
          { (if sw = true then matView C (Bl.map δ) (Al.map δ) else matView C (Al.map δ) (Bl.map δ)) with data := C1.data }
        else ger ab (vecView A.t A.t.dims) (vecView B.t B.t.dims)
          { (if sw = true then matView C (Bl.map δ) (Al.map δ) else matView C (Al.map δ) (Bl.map δ)) with data := C1.data })
        = .error m := by
      cases sw
      · simp only [Bool.false_eq_true, if_false] at hz ⊢
        have := Props.C26_ger_throws ab (vecView A.t A.t.dims) (vecView B.t B.t.dims)
          { matView C (Al.map δ) (Bl.map δ) with data := C1.data }
          (.inr (.inr (by simp [matView, Strided.viewAs, Strided.stride, hz])))
        revert this
        cases ger ab (vecView A.t A.t.dims) (vecView B.t B.t.dims)
          { matView C (Al.map δ) (Bl.map δ) with data := C1.data } <;> simp [Outcome.isError]
      · simp only [if_true] at hz ⊢
        have := Props.C26_ger_throws ab (vecView B.t B.t.dims) (vecView A.t A.t.dims)
          { matView C (Bl.map δ) (Al.map δ) with data := C1.data }
          (.inr (.inr (by simp [matView, Strided.viewAs, Strided.stride, hz])))
        revert this
        cases ger ab (vecView B.t B.t.dims) (vecView A.t A.t.dims)
          { matView C (Bl.map δ) (Al.map δ) with data := C1.data } <;> simp [Outcome.isError]
    obtain ⟨m, hm⟩ := herr
    rw [hm]
    obtain ⟨C2, hs2, fr2, f2, r2⟩ : ∃ C2, (if cp == 0 then Outcome.ok C1 else scale (1 / cp) C1) = .ok C2 ∧
        C1.Frame C2 ∧ ∃ f2, C2.Represents f2 := by
      by_cases h1 : (cp == 0) = true
      · rw [if_pos h1]; exact ⟨C1, rfl, Strided.Frame.refl _, _, r1⟩
      · rw [if_neg h1]
        obtain ⟨C2, a, b, c⟩ := scale_rowMajor rC1 (by rw [fr1.dims]; exact hC0) r1 (1 / cp)
        exact ⟨C2, a, b, _, c⟩
    simp only [hs2, Outcome.ok_bind]
    have frC2 := fr1.trans fr2
    obtain ⟨C', g1, g2, g3, _⟩ := Props.C15_contraction δ Al Bl Cl [] A.t B.t C2 fA fB f2 cp ab dA dB
      (by rw [frC2.dims, dC]) hA hB r2 (frC2.rowMajor rC).wf (fun l hl => .inl (hAC l hl))
      (fun l hl => .inl (hBC l hl)) (by simp) hlinks
    refine ⟨C', g1, frC2.trans g2, ?_⟩
    intro ρ hρ
    exfalso
    have hb : InBox ((if sw then Al else Bl).map ρ) ((if sw then Al else Bl).map δ) := by
      apply inBox_map
      intro l hl
      apply hρ
      cases sw
      · exact hBC l (by simpa using hl)
      · exact hAC l (by simpa using hl)
    have := rowMajor_lt hb
    omega
  · cases sw
    · simp only [Bool.false_eq_true, if_false] at hz eC ⊢
      rw [hmv]
      obtain ⟨r, h1, fr, h2⟩ := ger_blocks (P := Al) (Q := Bl) ab rA rB rC1 dA dB
        (by rw [fr1.dims, dC, eC]) hA hB r1 hz
      rw [h1]
      refine ⟨_, rfl, fr1.trans fr, ?_⟩
      intro ρ hρ
      rw [eC] at hρ ⊢
      exact h2 ρ hρ
    · simp only [if_true] at hz eC ⊢
      rw [hmv]
      obtain ⟨r, h1, fr, h2⟩ := ger_blocks (P := Bl) (Q := Al) ab rB rA rC1 dB dA
        (by rw [fr1.dims, dC, eC]) hB hA r1 hz
      rw [h1]
      refine ⟨_, rfl, fr1.trans fr, ?_⟩
      intro ρ hρ
      rw [contraction_comm]
      rw [eC] at hρ ⊢
      exact h2 ρ hρ

end
end Einsums
