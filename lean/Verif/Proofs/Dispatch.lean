import Verif.Proofs.Flatten
import Verif.Proofs.Positions
import Verif.Props.LinAlg
import Verif.Props.Einsum
/-
The fast paths of `einsum` compute the contraction.
-/
namespace Einsums
open Spec Model

variable {L : Type} [DecidableEq L]

theorem map_bindEnv_self {K : List L} {vs : List Nat} {ρ : L → Nat} (hn : K.Nodup)
    (h : vs.length = K.length) : K.map (bindEnv K vs ρ) = vs := by
  induction K generalizing vs with
  | nil => simp at h; simp [h]
  | cons k K ih =>
    cases vs with
    | nil => simp at h
    | cons v vs =>
      rw [List.nodup_cons] at hn
      simp only [List.map_cons, bindEnv, if_true]
      congr 1
      rw [← ih (vs := vs) hn.2 (by simpa using h)]
      apply List.map_congr_left
      intro a ha
      have hne : a ≠ k := by rintro rfl; exact hn.1 ha
      rw [ih (vs := vs) hn.2 (by simpa using h)]
      simp [hne]

theorem map_bindEnv_disjoint {P K : List L} {vs : List Nat} {ρ : L → Nat} (hd : ∀ l ∈ P, l ∉ K) :
    P.map (bindEnv K vs ρ) = P.map ρ :=
  List.map_congr_left fun l hl => bindEnv_not_mem (hd l hl)

omit [DecidableEq L] in
theorem inBox_of_inRange {δ ρ : L → Nat} {P Q : List L} (h : InRange δ (P ++ Q) ρ) :
    InBox (P.map ρ) (P.map δ) ∧ InBox (Q.map ρ) (Q.map δ) :=
  ⟨inBox_map fun l hl => h l (by simp [hl]), inBox_map fun l hl => h l (by simp [hl])⟩

section
variable {R : Type} [CommSemiring R] [BEq R] [LawfulBEq R]

/-- The product of two row-major tensors through their matrix views. -/
theorem gemm_blocks {δ : L → Nat} {P Q K : List L} (tx ty : Bool) {X Y C : Strided R}
    {fX fY fC : List Nat → R} (cp ab : R)
    (rX : X.RowMajor) (rY : Y.RowMajor) (rC : C.RowMajor)
    (dX : X.dims = (if tx then K ++ P else P ++ K).map δ)
    (dY : Y.dims = (if ty then Q ++ K else K ++ Q).map δ) (dC : C.dims = (P ++ Q).map δ)
    (hX : X.Represents fX) (hY : Y.Represents fY) (hC : C.Represents fC)
    (hK : K.Nodup) (hPK : ∀ l ∈ P, l ∉ K) (hQK : ∀ l ∈ Q, l ∉ K) (hk : ∀ l ∈ K, δ l ≠ 0) :
    ∃ r, gemm tx ty ab
        (if tx then matView X (K.map δ) (P.map δ) else matView X (P.map δ) (K.map δ))
        (if ty then matView Y (Q.map δ) (K.map δ) else matView Y (K.map δ) (Q.map δ)) cp
        (matView C (P.map δ) (Q.map δ)) = .ok r ∧ C.Frame { C with data := r.data } ∧
      ∀ ρ, InRange δ (P ++ Q) ρ → ({ C with data := r.data } : Strided R).read (toIdx ((P ++ Q).map ρ))
        = .ok (cp * fC ((P ++ Q).map ρ) + ab * contraction δ K (if tx then K ++ P else P ++ K)
            (if ty then Q ++ K else K ++ Q) fX fY ρ) := by
  have hk' : numel (K.map δ) ≠ 0 := by
    clear dX dY hPK hQK hK
    induction K with
    | nil => simp
    | cons a K ih =>
      simp only [List.map_cons, numel_cons, ne_eq, Nat.mul_eq_zero, not_or]
      exact ⟨hk a (by simp), ih fun l hl => hk l (by simp [hl])⟩
  -- elements of the matrix views
  let gX : List Nat → R := if tx then matFun fX (K.map δ) (P.map δ) else matFun fX (P.map δ) (K.map δ)
  let gY : List Nat → R := if ty then matFun fY (Q.map δ) (K.map δ) else matFun fY (K.map δ) (Q.map δ)
  have hgX : (if tx then matView X (K.map δ) (P.map δ) else matView X (P.map δ) (K.map δ)).Represents gX := by
    cases tx
    · exact matView_represents rX (by rw [dX]; simp) hX
    · exact matView_represents rX (by rw [dX]; simp) hX
  have hgY : (if ty then matView Y (Q.map δ) (K.map δ) else matView Y (K.map δ) (Q.map δ)).Represents gY := by
    cases ty
    · exact matView_represents rY (by rw [dY]; simp) hY
    · exact matView_represents rY (by rw [dY]; simp) hY
  have dC' : C.dims = P.map δ ++ Q.map δ := by rw [dC]; simp
  obtain ⟨r, h1, h2, h3⟩ := Props.C25_gemm_partial tx ty (numel (P.map δ)) (numel (Q.map δ))
    (numel (K.map δ)) ab cp _ _ (matView C (P.map δ) (Q.map δ))
    (if tx then numel (P.map δ) else numel (K.map δ)) (if ty then numel (K.map δ) else numel (Q.map δ))
    (numel (Q.map δ)) gX gY (matFun fC (P.map δ) (Q.map δ))
    (by cases tx <;> rfl) (by cases ty <;> rfl) rfl (by cases tx <;> rfl) (by cases ty <;> rfl) rfl
    (by cases tx <;> simp) (by cases ty <;> simp) (Nat.le_refl _) hgX hgY
    (matView_wf rC dC') (matView_represents rC dC' hC) hk'
  obtain ⟨fr, hread⟩ := of_matView rC dC' h2 h3
  refine ⟨r, h1, fr, ?_⟩
  intro ρ hρ
  obtain ⟨bP, bQ⟩ := inBox_of_inRange hρ
  have e := hread _ _ bP bQ
  rw [← List.map_append] at e
  rw [e]
  congr 1
  have e1 : matFun fC (P.map δ) (Q.map δ) [rowMajor (P.map ρ) (P.map δ), rowMajor (Q.map ρ) (Q.map δ)]
      = fC ((P ++ Q).map ρ) := by
    simp [matFun, unflat_rowMajor bP, unflat_rowMajor bQ]
  rw [e1]
  congr 2
  have e2 : ∀ n, opElem tx gX (rowMajor (P.map ρ) (P.map δ)) n
      = fX (if tx then unflat (K.map δ) n ++ P.map ρ else P.map ρ ++ unflat (K.map δ) n) := by
    intro n
    cases tx <;> simp [opElem, gX, matFun, unflat_rowMajor bP]
  have e3 : ∀ n, opElem ty gY n (rowMajor (Q.map ρ) (Q.map δ))
      = fY (if ty then Q.map ρ ++ unflat (K.map δ) n else unflat (K.map δ) n ++ Q.map ρ) := by
    intro n
    cases ty <;> simp [opElem, gY, matFun, unflat_rowMajor bQ]
  simp only [e2, e3]
  rw [sumTo_unflat (K.map δ) fun vs => fX (if tx then vs ++ P.map ρ else P.map ρ ++ vs) *
    fY (if ty then Q.map ρ ++ vs else vs ++ Q.map ρ)]
  unfold contraction
  rw [sumOver_eq δ K hK]
  congr 1
  apply List.map_congr_left
  intro vs hvs
  have hl : vs.length = K.length := by simpa using (mem_box.1 hvs).length
  have k1 := map_bindEnv_self (ρ := ρ) hK hl
  have k2 := map_bindEnv_disjoint (vs := vs) (ρ := ρ) hPK
  have k3 := map_bindEnv_disjoint (vs := vs) (ρ := ρ) hQK
  cases tx <;> cases ty <;> simp [k1, k2, k3]

/-- The matrix-vector product of row-major tensors. -/
theorem gemv_blocks {δ : L → Nat} {P K : List L} (tx : Bool) {X Y C : Strided R}
    {fX fY fC : List Nat → R} (cp ab : R)
    (rX : X.RowMajor) (rY : Y.RowMajor) (rC : C.RowMajor)
    (dX : X.dims = (if tx then K ++ P else P ++ K).map δ)
    (dY : Y.dims = K.map δ) (dC : C.dims = P.map δ)
    (hX : X.Represents fX) (hY : Y.Represents fY) (hC : C.Represents fC)
    (hK : K.Nodup) (hPK : ∀ l ∈ P, l ∉ K) (hk : ∀ l ∈ K, δ l ≠ 0) :
    ∃ r, gemv tx ab
        (if tx then matView X (K.map δ) (P.map δ) else matView X (P.map δ) (K.map δ))
        (vecView Y (K.map δ)) cp (vecView C (P.map δ)) = .ok r ∧ C.Frame { C with data := r.data } ∧
      ∀ ρ, InRange δ P ρ → ({ C with data := r.data } : Strided R).read (toIdx (P.map ρ))
        = .ok (cp * fC (P.map ρ) + ab * contraction δ K (if tx then K ++ P else P ++ K) K fX fY ρ) := by
  have hk' : numel (K.map δ) ≠ 0 := by
    clear dX dY hPK hK
    induction K with
    | nil => simp
    | cons a K ih =>
      simp only [List.map_cons, numel_cons, ne_eq, Nat.mul_eq_zero, not_or]
      exact ⟨hk a (by simp), ih fun l hl => hk l (by simp [hl])⟩
  by_cases hp : numel (P.map δ) = 0
  · refine ⟨vecView C (P.map δ), ?_, Strided.Frame.refl _, ?_⟩
    · unfold gemv vendorGemv
      have : (if tx then matView X (K.map δ) (P.map δ) else matView X (P.map δ) (K.map δ)).dim 0 = 0 ∨
          (if tx then matView X (K.map δ) (P.map δ) else matView X (P.map δ) (K.map δ)).dim 1 = 0 := by
        cases tx
        · left; simpa [Strided.dim, matView, Strided.viewAs] using hp
        · right; simpa [Strided.dim, matView, Strided.viewAs] using hp
      rw [if_pos this]; rfl
    · intro ρ hρ
      have := rowMajor_lt (inBox_map hρ)
      omega
  let gX : List Nat → R := if tx then matFun fX (K.map δ) (P.map δ) else matFun fX (P.map δ) (K.map δ)
  have hgX : (if tx then matView X (K.map δ) (P.map δ) else matView X (P.map δ) (K.map δ)).Represents gX := by
    cases tx
    · exact matView_represents rX (by rw [dX]; simp) hX
    · exact matView_represents rX (by rw [dX]; simp) hX
  have hvY := vecView_represents rY hY
  have hvC := vecView_represents rC hC
  have wC := vecView_wf rC
  rw [dY] at hvY
  rw [dC] at hvC wC
  obtain ⟨r, h1, h2, h3⟩ := Props.C26_gemv_partial tx
    (if tx then numel (K.map δ) else numel (P.map δ)) (if tx then numel (P.map δ) else numel (K.map δ))
    ab cp _ (vecView Y (K.map δ)) (vecView C (P.map δ))
    (if tx then numel (P.map δ) else numel (K.map δ)) 1 1 gX _ _
    (by cases tx <;> rfl) (by cases tx <;> rfl) (by cases tx <;> rfl) (by cases tx <;> rfl) rfl rfl
    (Nat.le_refl _) (by decide) (by decide) hgX hvY wC hvC
    (by cases tx <;> simpa) (by cases tx <;> simpa)
  have h3' : ∀ i, i < numel (P.map δ) → r.read [(i : Int)] = .ok (cp * fC (unflat (P.map δ) i) +
      ab * sumTo (numel (K.map δ)) fun l => opElem tx gX i l * fY (unflat (K.map δ) l)) := by
    intro i hi
    have := h3 i (by cases tx <;> simpa)
    have ek : (if tx = true then (if tx = true then numel (K.map δ) else numel (P.map δ))
        else if tx = true then numel (P.map δ) else numel (K.map δ)) = numel (K.map δ) := by cases tx <;> rfl
    rw [ek] at this
    simpa using this
  rw [← dC] at h2 h3'
  obtain ⟨fr, hread⟩ := of_vecView rC h2 h3'
  refine ⟨r, h1, fr, ?_⟩
  intro ρ hρ
  have bP : InBox (P.map ρ) (P.map δ) := inBox_map hρ
  rw [hread _ (by rw [dC]; exact bP), dC]
  congr 1
  rw [unflat_rowMajor bP]
  congr 2
  have e2 : ∀ n, opElem tx gX (rowMajor (P.map ρ) (P.map δ)) n
      = fX (if tx then unflat (K.map δ) n ++ P.map ρ else P.map ρ ++ unflat (K.map δ) n) := by
    intro n
    cases tx <;> simp [opElem, gX, matFun, unflat_rowMajor bP]
  simp only [e2]
  rw [sumTo_unflat (K.map δ) fun vs => fX (if tx then vs ++ P.map ρ else P.map ρ ++ vs) * fY vs]
  unfold contraction
  rw [sumOver_eq δ K hK]
  congr 1
  apply List.map_congr_left
  intro vs hvs
  have hl : vs.length = K.length := by simpa using (mem_box.1 hvs).length
  have k1 := map_bindEnv_self (ρ := ρ) hK hl
  have k2 := map_bindEnv_disjoint (vs := vs) (ρ := ρ) hPK
  cases tx <;> simp [k1, k2]

end

/-! ### The shapes selected by the compile-time tests -/

theorem links_mem_filter {Al Bl Cl : List L} {l : L} : l ∈ links Al Bl Cl ↔ l ∈ Al ∧ l ∈ Bl ∧ l ∉ Cl := mem_links

theorem linkPosA_eq {Al Bl Cl : List L} (hA : Al.Nodup) :
    linkPosA Al Bl Cl = (links Al Bl Cl).map fun l => (l, Al.idxOf l) := by
  unfold linkPosA
  rw [linkUnique_eq hA, find_nodup hA, List.filter_eq_self.2]
  intro l hl
  simpa using (mem_links.1 hl).1

theorem linkPosB_eq {Al Bl Cl : List L} (hA : Al.Nodup) (hB : Bl.Nodup) :
    linkPosB Al Bl Cl = (links Al Bl Cl).map fun l => (l, Bl.idxOf l) := by
  unfold linkPosB
  rw [linkUnique_eq hA, find_nodup hB, List.filter_eq_self.2]
  intro l hl
  simpa using (mem_links.1 hl).2.1

theorem targetPos_eq {Cl Xl : List L} (hC : Cl.Nodup) (hX : Xl.Nodup) :
    targetPos Cl Xl = (Cl.filter (· ∈ Xl)).map fun l => (l, Xl.idxOf l) := by
  unfold targetPos
  rw [unique_of_nodup hC, find_nodup hX]

theorem posInC_eq {Xl Cl : List L} (hC : Cl.Nodup) :
    posInC Xl Cl = (Xl.filter (· ∈ Cl)).map fun l => (l, Cl.idxOf l) := find_nodup hC

theorem filter_append_mem {P K : List L} {Cl : List L} (hP : ∀ l ∈ P, l ∈ Cl) (hK : ∀ l ∈ K, l ∉ Cl) :
    (P ++ K).filter (· ∈ Cl) = P ∧ (K ++ P).filter (· ∈ Cl) = P := by
  have h1 : P.filter (· ∈ Cl) = P := List.filter_eq_self.2 fun l hl => by simpa using hP l hl
  have h2 : K.filter (· ∈ Cl) = [] := List.filter_eq_nil_iff.2 fun l hl => by simpa using hK l hl
  constructor <;> simp [h1, h2]

/-- When gemm is selected, no label is in all three operands and every label of `C` is in an operand,
the label lists are `T K` or `K T`, `K U` or `U K`, and `T U` or `U T`. -/
theorem gemm_shape {Al Bl Cl : List L} (h : isGemmPossible Al Bl Cl = true)
    (coverA : ∀ l ∈ Al, l ∈ Cl ∨ l ∈ Bl) (coverB : ∀ l ∈ Bl, l ∈ Cl ∨ l ∈ Al)
    (coverC : ∀ l ∈ Cl, l ∈ Al ∨ l ∈ Bl) (noTriple : ∀ l ∈ Cl, ¬(l ∈ Al ∧ l ∈ Bl)) :
    ∃ T U K : List L, Al.Nodup ∧ Bl.Nodup ∧ Cl.Nodup ∧ T ≠ [] ∧ U ≠ [] ∧ K ≠ [] ∧
      links Al Bl Cl = K ∧ (∀ l ∈ T, l ∉ K) ∧ (∀ l ∈ U, l ∉ K) ∧
      Cl.filter (· ∈ Al) = T ∧ Cl.filter (· ∈ Bl) = U ∧
      Al.filter (· ∈ Cl) = T ∧ Bl.filter (· ∈ Cl) = U ∧
      (Al = T ++ K ∨ Al = K ++ T) ∧ (Bl = K ++ U ∨ Bl = U ++ K) ∧ (Cl = T ++ U ∨ Cl = U ++ T) := by
  simp only [isGemmPossible, Bool.and_eq_true, decide_eq_true_eq] at h
  obtain ⟨⟨⟨⟨⟨⟨⟨⟨⟨⟨⟨_, _⟩, cLA⟩, cLB⟩, cTA⟩, cTB⟩, cAC⟩, cBC⟩, sAB⟩, sCA⟩, sCB⟩, hh⟩ := h
  obtain ⟨hA, hB, hC⟩ := noHadamard_iff.1 hh
  rw [linkPosA_eq hA] at cLA sAB
  rw [linkPosB_eq hA hB] at cLB sAB
  rw [targetPos_eq hC hA] at cTA sCA
  rw [targetPos_eq hC hB] at cTB sCB
  rw [posInC_eq hC] at cAC cBC sCA sCB
  have memT : ∀ l, l ∈ Cl.filter (· ∈ Al) ↔ l ∈ Cl ∧ l ∈ Al := by simp
  have memU : ∀ l, l ∈ Cl.filter (· ∈ Bl) ↔ l ∈ Cl ∧ l ∈ Bl := by simp
  have hK0 : links Al Bl Cl ≠ [] := by
    have := (isSameOrdering_ne sAB).1
    rintro e; simp [e] at this
  have hT0 : Cl.filter (· ∈ Al) ≠ [] := by
    have := (isSameOrdering_ne sCA).1
    rintro e; simp [e] at this
  have hU0 : Cl.filter (· ∈ Bl) ≠ [] := by
    have := (isSameOrdering_ne sCB).1
    rintro e; simp [e] at this
  have hTK : ∀ l ∈ Cl.filter (· ∈ Al), l ∉ links Al Bl Cl := by
    intro l hl hk; exact (mem_links.1 hk).2.2 ((memT l).1 hl).1
  have hUK : ∀ l ∈ Cl.filter (· ∈ Bl), l ∉ links Al Bl Cl := by
    intro l hl hk; exact (mem_links.1 hk).2.2 ((memU l).1 hl).1
  have sA : Al = Cl.filter (· ∈ Al) ++ links Al Bl Cl ∨ Al = links Al Bl Cl ++ Cl.filter (· ∈ Al) := by
    apply two_blocks hA (block_of_contiguous (fun y hy => ((memT y).1 hy).2) cTA)
      (block_of_contiguous (fun y hy => (mem_links.1 hy).1) cLA) hT0 hK0 hTK
    intro a ha
    rw [memT, mem_links]
    by_cases hc : a ∈ Cl
    · exact .inl ⟨hc, ha⟩
    · exact .inr ⟨ha, (coverA a ha).resolve_left hc, hc⟩
  have sB : Bl = links Al Bl Cl ++ Cl.filter (· ∈ Bl) ∨ Bl = Cl.filter (· ∈ Bl) ++ links Al Bl Cl := by
    refine Or.symm ?_
    apply two_blocks hB (block_of_contiguous (fun y hy => ((memU y).1 hy).2) cTB)
      (block_of_contiguous (fun y hy => (mem_links.1 hy).2.1) cLB) hU0 hK0 hUK
    intro a ha
    rw [memU, mem_links]
    by_cases hc : a ∈ Cl
    · exact .inl ⟨hc, ha⟩
    · exact .inr ⟨(coverB a ha).resolve_left hc, ha, hc⟩
  have hTC : ∀ l ∈ Cl.filter (· ∈ Al), l ∈ Cl := fun l hl => ((memT l).1 hl).1
  have hUC : ∀ l ∈ Cl.filter (· ∈ Bl), l ∈ Cl := fun l hl => ((memU l).1 hl).1
  have hKC : ∀ l ∈ links Al Bl Cl, l ∉ Cl := fun l hl => (mem_links.1 hl).2.2
  have fA : Al.filter (· ∈ Cl) = Cl.filter (· ∈ Al) := by
    have f := filter_append_mem hTC hKC
    rcases sA with e | e
    · rw [← e] at f; exact f.1
    · rw [← e] at f; exact f.2
  have fB : Bl.filter (· ∈ Cl) = Cl.filter (· ∈ Bl) := by
    have f := filter_append_mem hUC hKC
    rcases sB with e | e
    · rw [← e] at f; exact f.2
    · rw [← e] at f; exact f.1
  rw [fA] at cAC
  rw [fB] at cBC
  have sC : Cl = Cl.filter (· ∈ Al) ++ Cl.filter (· ∈ Bl) ∨ Cl = Cl.filter (· ∈ Bl) ++ Cl.filter (· ∈ Al) := by
    apply two_blocks hC (block_of_contiguous hTC cAC) (block_of_contiguous hUC cBC) hT0 hU0
    · intro a ha hb
      exact noTriple a (hTC a ha) ⟨((memT a).1 ha).2, ((memU a).1 hb).2⟩
    · intro a ha
      rw [memT, memU]
      rcases coverC a ha with h | h
      · exact .inl ⟨ha, h⟩
      · exact .inr ⟨ha, h⟩
  exact ⟨_, _, _, hA, hB, hC, hT0, hU0, hK0, rfl, hTK, hUK, rfl, rfl, fA, fB, sA, sB, sC⟩

end Einsums
