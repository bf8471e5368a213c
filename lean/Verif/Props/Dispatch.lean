import Verif.Proofs.Indep
import Verif.Spec.Operand
/-
C19–C24: the algorithm selection of einsum, its fast paths and its run-time check; C17 on every path;
C15 for the einsum entry point.
-/
namespace Einsums.Props
open Spec Model

variable {L : Type} [DecidableEq L]

/-! ### C24: the run-time index check -/

theorem dimsClash_iff {Xl Yl : List L} {X Y : List Nat} (hX : X.length = Xl.length)
    (hY : Y.length = Yl.length) : dimsClash Xl X Yl Y = true ↔ Clash Xl X Yl Y := by
  unfold dimsClash Clash
  simp only [List.any_eq_true, List.mem_range, Bool.and_eq_true, decide_eq_true_eq]
  constructor
  · rintro ⟨a, ha, b, hb, h1, h2⟩
    refine ⟨Xl[a], a, b, X[a], Y[b], List.getElem?_eq_getElem ha, ?_, List.getElem?_eq_getElem (by omega),
      List.getElem?_eq_getElem (by omega), ?_⟩
    · rw [← h1, List.getElem?_eq_getElem ha]
    · rwa [List.getD_eq_getElem?_getD, List.getD_eq_getElem?_getD, List.getElem?_eq_getElem (by omega),
        List.getElem?_eq_getElem (by omega)] at h2
  · rintro ⟨l, a, b, x, y, h1, h2, h3, h4, hne⟩
    refine ⟨a, (List.getElem?_eq_some_iff.1 h1).1, b, (List.getElem?_eq_some_iff.1 h2).1, by rw [h1, h2], ?_⟩
    rw [List.getD_eq_getElem?_getD, List.getD_eq_getElem?_getD, h3, h4]
    exact hne

section
variable {R : Type} [Add R] [Mul R] [Zero R] [One R] [BEq R] [Div R]

/-- **C24 (rejection).** With the check on, if one label has different dimensions in two of the operands,
einsum throws before doing anything (the label patterns that do not compile are excluded by `hl`). -/
theorem C24_rejects (og : Bool) (cp ab : R) (Cl Al Bl : List L) (C A B : Operand R)
    (rA : A.t.dims.length = Al.length) (rB : B.t.dims.length = Bl.length) (rC : C.t.dims.length = Cl.length)
    (coverA : ∀ l ∈ Al, l ∈ Cl ∨ l ∈ Bl) (coverB : ∀ l ∈ Bl, l ∈ Cl ∨ l ∈ Al)
    (h : Clash Al A.t.dims Bl B.t.dims ∨ Clash Al A.t.dims Cl C.t.dims ∨ Clash Bl B.t.dims Cl C.t.dims) :
    einsum og true cp Cl C ab Al A Bl B = .error "Inconsistent dimensions found!" := by
  have hok : labelsOk (unique Cl) (linkUnique Al Bl Cl) Al Bl = true := by
    simp only [labelsOk, linkUnique, List.all_eq_true, List.mem_append, Bool.or_eq_true, decide_eq_true_eq,
      mem_unique, mem_links]
    intro l hl
    by_cases h : l ∈ Cl
    · exact .inl h
    · right
      rcases hl with hl | hl
      · exact ⟨hl, (coverA l hl).resolve_left h, h⟩
      · exact ⟨(coverB l hl).resolve_left h, hl, h⟩
  have ha : runtimeAbort Al Bl Cl A.t.dims B.t.dims C.t.dims = true := by
    unfold runtimeAbort
    rw [Bool.or_eq_true, Bool.or_eq_true, dimsClash_iff rA rB, dimsClash_iff rA rC, dimsClash_iff rB rC]
    tauto
  unfold einsum
  rw [hok, ha]
  rfl

/-- **C24 (acceptance).** Without such a clash the check changes nothing: einsum behaves exactly as with
the check compiled out. -/
theorem C24_accepts (og : Bool) (cp ab : R) (Cl Al Bl : List L) (C A B : Operand R)
    (rA : A.t.dims.length = Al.length) (rB : B.t.dims.length = Bl.length) (rC : C.t.dims.length = Cl.length)
    (h1 : ¬Clash Al A.t.dims Bl B.t.dims) (h2 : ¬Clash Al A.t.dims Cl C.t.dims)
    (h3 : ¬Clash Bl B.t.dims Cl C.t.dims) :
    einsum og true cp Cl C ab Al A Bl B = einsum og false cp Cl C ab Al A Bl B := by
  have ha : runtimeAbort Al Bl Cl A.t.dims B.t.dims C.t.dims = false := by
    rw [Bool.eq_false_iff]
    unfold runtimeAbort
    rw [ne_eq, Bool.or_eq_true, Bool.or_eq_true, dimsClash_iff rA rB, dimsClash_iff rA rC, dimsClash_iff rB rC]
    tauto
  unfold einsum
  rw [ha]
  rfl

end

/-- **C24 (meaning of acceptance).** If no two occurrences of one label in different operands clash, and
every label of each operand occurs in another operand, then there is one dimension `δ l` per label that
all three operands have: the hypotheses on shapes of C15 and C19–C23. -/
theorem C24_one_dimension_per_label (Cl Al Bl : List L) (A B C : List Nat)
    (rA : A.length = Al.length) (rB : B.length = Bl.length) (rC : C.length = Cl.length)
    (coverA : ∀ l ∈ Al, l ∈ Cl ∨ l ∈ Bl) (coverB : ∀ l ∈ Bl, l ∈ Cl ∨ l ∈ Al)
    (coverC : ∀ l ∈ Cl, l ∈ Al ∨ l ∈ Bl)
    (h1 : ¬Clash Al A Bl B) (h2 : ¬Clash Al A Cl C) (h3 : ¬Clash Bl B Cl C) :
    ∃ δ : L → Nat, A = Al.map δ ∧ B = Bl.map δ ∧ C = Cl.map δ := by
  -- occurrences of a label in one operand have the dimension of any occurrence in another
  have cl : ∀ {Xl : List L} {X : List Nat} {Yl : List L} {Y : List Nat}, ¬Clash Xl X Yl Y →
      ∀ {l : L} {a b x y : Nat}, Xl[a]? = some l → Yl[b]? = some l → X[a]? = some x → Y[b]? = some y → x = y := by
    intro Xl X Yl Y h l a b x y g1 g2 g3 g4
    by_contra hne
    exact h ⟨l, a, b, x, y, g1, g2, g3, g4, hne⟩
  have get_some : ∀ {Xl : List L} {X : List Nat} {l : L}, X.length = Xl.length → l ∈ Xl →
      ∃ b y : Nat, Xl[b]? = some l ∧ X[b]? = some y := by
    intro Xl X l hr hl
    have hlt := List.idxOf_lt_length_iff.2 hl
    exact ⟨Xl.idxOf l, X[Xl.idxOf l], by rw [List.getElem?_eq_getElem hlt, List.getElem_idxOf hlt],
      List.getElem?_eq_getElem (by omega)⟩
  -- all occurrences in any two operands agree with a common value
  have key : ∀ l, (l ∈ Al ∨ l ∈ Bl ∨ l ∈ Cl) → ∃ v,
      (∀ a x : Nat, Al[a]? = some l → A[a]? = some x → x = v) ∧
      (∀ b y : Nat, Bl[b]? = some l → B[b]? = some y → y = v) ∧
      (∀ c z : Nat, Cl[c]? = some l → C[c]? = some z → z = v) := by
    intro l hl
    have two : (l ∈ Al ∧ l ∈ Bl) ∨ (l ∈ Al ∧ l ∈ Cl) ∨ (l ∈ Bl ∧ l ∈ Cl) := by
      rcases hl with h | h | h
      · rcases coverA l h with h' | h' <;> tauto
      · rcases coverB l h with h' | h' <;> tauto
      · rcases coverC l h with h' | h' <;> tauto
    rcases two with ⟨ha, hb⟩ | ⟨ha, hc⟩ | ⟨hb, hc⟩
    · obtain ⟨a, x, a1, a2⟩ := get_some rA ha
      obtain ⟨b, y, b1, b2⟩ := get_some rB hb
      have hxy := cl h1 a1 b1 a2 b2
      exact ⟨x, fun a' x' g1 g2 => (cl h1 g1 b1 g2 b2).trans hxy.symm,
        fun b' y' g1 g2 => (cl h1 a1 g1 a2 g2).symm, fun c z g1 g2 => (cl h2 a1 g1 a2 g2).symm⟩
    · obtain ⟨a, x, a1, a2⟩ := get_some rA ha
      obtain ⟨c, z, c1, c2⟩ := get_some rC hc
      have hxz := cl h2 a1 c1 a2 c2
      exact ⟨x, fun a' x' g1 g2 => (cl h2 g1 c1 g2 c2).trans hxz.symm,
        fun b' y' g1 g2 => (cl h1 a1 g1 a2 g2).symm, fun c' z' g1 g2 => (cl h2 a1 g1 a2 g2).symm⟩
    · obtain ⟨b, y, b1, b2⟩ := get_some rB hb
      obtain ⟨c, z, c1, c2⟩ := get_some rC hc
      have hyz := cl h3 b1 c1 b2 c2
      exact ⟨y, fun a' x' g1 g2 => cl h1 g1 b1 g2 b2,
        fun b' y' g1 g2 => (cl h3 g1 c1 g2 c2).trans hyz.symm, fun c' z' g1 g2 => (cl h3 b1 g1 b2 g2).symm⟩
  have key' : ∃ ε : L → Nat, ∀ l, (l ∈ Al ∨ l ∈ Bl ∨ l ∈ Cl) →
      (∀ a x : Nat, Al[a]? = some l → A[a]? = some x → x = ε l) ∧
      (∀ b y : Nat, Bl[b]? = some l → B[b]? = some y → y = ε l) ∧
      (∀ c z : Nat, Cl[c]? = some l → C[c]? = some z → z = ε l) := by
    refine ⟨fun l => if h : l ∈ Al ∨ l ∈ Bl ∨ l ∈ Cl then Classical.choose (key l h) else 0, ?_⟩
    intro l hl
    simp only [dif_pos hl]
    exact Classical.choose_spec (key l hl)
  obtain ⟨ε, hε⟩ := key'
  refine ⟨ε, ?_, ?_, ?_⟩
  · apply List.ext_getElem (by simpa using rA)
    intro n g1 g2
    have hn : n < Al.length := by omega
    rw [List.getElem_map]
    exact (hε _ (.inl (List.getElem_mem hn))).1 n _ (List.getElem?_eq_getElem hn) (List.getElem?_eq_getElem g1)
  · apply List.ext_getElem (by simpa using rB)
    intro n g1 g2
    have hn : n < Bl.length := by omega
    rw [List.getElem_map]
    exact (hε _ (.inr (.inl (List.getElem_mem hn)))).2.1 n _ (List.getElem?_eq_getElem hn) (List.getElem?_eq_getElem g1)
  · apply List.ext_getElem (by simpa using rC)
    intro n g1 g2
    have hn : n < Cl.length := by omega
    rw [List.getElem_map]
    exact (hε _ (.inr (.inr (List.getElem_mem hn)))).2.2 n _ (List.getElem?_eq_getElem hn) (List.getElem?_eq_getElem g1)


section entry
variable {R : Type} [Add R] [Mul R] [Zero R] [One R] [BEq R] [Div R]

theorem labelsOk_of_cover {Al Bl Cl : List L} (coverA : ∀ l ∈ Al, l ∈ Cl ∨ l ∈ Bl)
    (coverB : ∀ l ∈ Bl, l ∈ Cl ∨ l ∈ Al) : labelsOk (unique Cl) (linkUnique Al Bl Cl) Al Bl = true := by
  simp only [labelsOk, linkUnique, List.all_eq_true, List.mem_append, Bool.or_eq_true, decide_eq_true_eq,
    mem_unique, mem_links]
  intro l hl
  by_cases h : l ∈ Cl
  · exact .inl h
  · right
    rcases hl with hl | hl
    · exact ⟨hl, (coverA l hl).resolve_left h, h⟩
    · exact ⟨(coverB l hl).resolve_left h, hl, h⟩

theorem no_clash_of_map {δ : L → Nat} {Xl Yl : List L} : dimsClash Xl (Xl.map δ) Yl (Yl.map δ) = false := by
  rw [Bool.eq_false_iff, ne_eq, dimsClash_iff (by simp) (by simp)]
  rintro ⟨l, a, b, x, y, h1, h2, h3, h4, hne⟩
  rw [List.getElem?_map, h1] at h3
  rw [List.getElem?_map, h2] at h4
  simp at h3 h4
  exact hne (h3.symm.trans h4)

/-- Consistent dimensions and covered labels: einsum goes on to the selected algorithm. -/
theorem einsum_eq_path {δ : L → Nat} {Al Bl Cl : List L} {A B C : Operand R} (og check : Bool) (cp ab : R)
    (dA : A.t.dims = Al.map δ) (dB : B.t.dims = Bl.map δ) (dC : C.t.dims = Cl.map δ)
    (coverA : ∀ l ∈ Al, l ∈ Cl ∨ l ∈ Bl) (coverB : ∀ l ∈ Bl, l ∈ Cl ∨ l ∈ Al) :
    einsum og check cp Cl C ab Al A Bl B =
      match choosePath og Al Bl Cl with
      | .dot => .error "scalar result: see einsumScalar"
      | .elementWise => if C.isView then .error "does not compile: zero()" else directProduct ab A.t B.t cp C.t
      | .outer => einsumOuter cp Cl C.t ab Al A Bl B
      | .gemvNormal =>
          if !C.full || !A.full || !B.full then einsumGeneric cp Cl C.t ab Al A.t Bl B.t
          else einsumGemvNormal cp Cl C.t ab Al A.t Bl B.t
      | .gemvSwap =>
          if !C.full || !A.full || !B.full then einsumGeneric cp Cl C.t ab Al A.t Bl B.t
          else einsumGemvSwap cp Cl C.t ab Al A.t Bl B.t
      | .gemm =>
          if !C.full || !A.full || !B.full then einsumGeneric cp Cl C.t ab Al A.t Bl B.t
          else einsumGemm cp Cl C.t ab Al A.t Bl B.t
      | .generic => einsumGeneric cp Cl C.t ab Al A.t Bl B.t := by
  unfold einsum
  rw [labelsOk_of_cover coverA coverB]
  have : runtimeAbort Al Bl Cl A.t.dims B.t.dims C.t.dims = false := by
    unfold runtimeAbort
    rw [dA, dB, dC, no_clash_of_map, no_clash_of_map, no_clash_of_map]; rfl
  rw [this]
  simp only [Bool.true_eq_false, if_false, Bool.and_false, Bool.false_eq_true]
  cases choosePath og Al Bl Cl <;> rfl

omit [Add R] [Mul R] [Zero R] [One R] [BEq R] [Div R]

/-- What each selection implies. -/
theorem choosePath_spec (og : Bool) (Al Bl Cl : List L) :
    match choosePath og Al Bl Cl with
    | .dot => isDotProduct Al Bl Cl = true
    | .elementWise => isElementWise Al Bl Cl = true
    | .outer => isOuterProduct Al Bl Cl = true ∧ Cl ≠ []
    | .gemvNormal => isGemvNormalPossible Al Bl Cl = true
    | .gemvSwap => False
    | .gemm => isGemmPossible Al Bl Cl = true
    | .generic => True := by
  unfold choosePath
  rw [gemvSwap_never]
  by_cases h1 : isDotProduct Al Bl Cl = true
  · simp only [if_pos h1]; exact h1
  rw [if_neg h1]
  by_cases h2 : isElementWise Al Bl Cl = true
  · simp only [if_pos h2]; exact h2
  rw [if_neg h2]
  by_cases h3 : Cl.length = 0
  · simp only [if_pos h3]
  rw [if_neg h3]
  by_cases h4 : isOuterProduct Al Bl Cl = true
  · simp only [if_pos h4]; exact ⟨h4, by intro e; simp [e] at h3⟩
  rw [if_neg h4]
  by_cases h5 : og = true
  · simp only [if_pos h5]
  rw [if_neg h5]
  by_cases h6 : isGemvNormalPossible Al Bl Cl = true
  · simp only [if_pos h6]; exact h6
  rw [if_neg h6, if_neg (by simp)]
  by_cases h7 : 2 ≤ Cl.length ∧ 2 ≤ Al.length ∧ 2 ≤ Bl.length ∧ isGemmPossible Al Bl Cl = true
  · simp only [if_pos h7]; exact h7.2.2.2
  · simp only [if_neg h7]

end entry

theorem Contracted.perm_links {Al Bl Cl ls : List L} (h : Contracted Al Bl Cl ls) (hA : Al.Nodup) :
    ls.Perm (links Al Bl Cl) := by
  rw [List.perm_ext_iff_of_nodup h.1 (links_nodup hA)]
  intro l
  rw [h.2 l, mem_links]

theorem contraction_perm {R : Type} [CommSemiring R] {δ : L → Nat} {ls ms Al Bl : List L}
    {fA fB : List Nat → R} {ρ : L → Nat} (h : ls.Perm ms) (hn : ls.Nodup) :
    contraction δ ls Al Bl fA fB ρ = contraction δ ms Al Bl fA fB ρ := sumOver_perm δ h hn ρ _

section
variable {R : Type} [CommSemiring R] [BEq R] [LawfulBEq R] [Div R]

/-! ### C19 -/

/-- **C19 (partial).** For every label pattern for which the gemm path is selected, all ranks, all
transposition cases, with or without the run-time check, over any commutative semiring: if no label
occurs in all three operands, every label of `C` occurs in `A` or `B`, and no contracted dimension is zero
unless `C` is empty, then einsum returns normally, changes nothing outside `C`'s own region, and every element becomes
`cp*old + ab*Σ A*B`.
Missing: the three excluded situations, in each of which the code is wrong (refuted below). -/
theorem C19_gemm_partial (δ : L → Nat) (Al Bl Cl ls : List L) (og check : Bool) (A B C : Operand R)
    (fA fB fC : List Nat → R) (cp ab : R) (path : choosePath og Al Bl Cl = .gemm)
    (dA : A.t.dims = Al.map δ) (dB : B.t.dims = Bl.map δ) (dC : C.t.dims = Cl.map δ)
    (vA : A.Valid) (vB : B.Valid) (vC : C.Valid)
    (hA : A.t.Represents fA) (hB : B.t.Represents fB) (hC : C.t.Represents fC)
    (coverA : ∀ l ∈ Al, l ∈ Cl ∨ l ∈ Bl) (coverB : ∀ l ∈ Bl, l ∈ Cl ∨ l ∈ Al)
    (coverC : ∀ l ∈ Cl, l ∈ Al ∨ l ∈ Bl) (noTriple : ∀ l ∈ Cl, ¬(l ∈ Al ∧ l ∈ Bl))
    (hls : Contracted Al Bl Cl ls) (hk : (∀ l ∈ ls, δ l ≠ 0) ∨ ∃ l ∈ Cl, δ l = 0) :
    ∃ C', einsum og check cp Cl C ab Al A Bl B = .ok C' ∧ C.t.Frame C' ∧
      ∀ ρ, InRange δ Cl ρ → C'.read (toIdx (Cl.map ρ))
        = .ok (cp * fC (Cl.map ρ) + ab * contraction δ ls Al Bl fA fB ρ) := by
  have hg := choosePath_spec og Al Bl Cl
  rw [path] at hg
  obtain ⟨T, U, K, hAn, hBn, hCn, hT0, hU0, hK0, hlinks, hTK, hUK, f1, f2, f3, f4, sA, sB, sC⟩ :=
    gemm_shape hg coverA coverB coverC noTriple
  rw [einsum_eq_path og check cp ab dA dB dC coverA coverB, path]
  simp only
  split
  · obtain ⟨C', h1, h2, h3, _⟩ := C15_contraction δ Al Bl Cl ls A.t B.t C.t fA fB fC cp ab dA dB dC hA hB hC
      vC.wf coverA coverB (fun l hl => List.count_eq_one_of_mem hAn ((hls.2 l).1 hl).1) hls
    exact ⟨C', h1, h2, h3⟩
  · rename_i hfull
    simp only [Bool.or_eq_true, Bool.not_eq_true', not_or, Bool.not_eq_false] at hfull
    have hp := Contracted.perm_links hls hAn
    have ea : ∃ ta : Bool, Al = if ta then K ++ T else T ++ K := by
      rcases sA with h | h
      · exact ⟨false, h⟩
      · exact ⟨true, h⟩
    have eb : ∃ tb : Bool, Bl = if tb then U ++ K else K ++ U := by
      rcases sB with h | h
      · exact ⟨false, h⟩
      · exact ⟨true, h⟩
    have ec : ∃ tc : Bool, Cl = if tc then U ++ T else T ++ U := by
      rcases sC with h | h
      · exact ⟨false, h⟩
      · exact ⟨true, h⟩
    obtain ⟨ta, ea⟩ := ea
    obtain ⟨tb, eb⟩ := eb
    obtain ⟨tc, ec⟩ := ec
    obtain ⟨C', h1, h2, h3⟩ := einsumGemm_shape ta tb tc cp ab hAn hBn hCn hT0 hU0 hK0 hlinks hTK hUK f1 f2 f3 f4
      ea eb ec dA dB dC (vA.full hfull.1.2) (vB.full hfull.2) (vC.full hfull.1.1) hA hB hC
      (hk.imp_left fun hk l hl => hk l (hp.mem_iff.2 (by rw [hlinks]; exact hl)))
    refine ⟨C', h1, h2, ?_⟩
    intro ρ hρ
    rw [h3 ρ hρ, contraction_perm hp hls.1, hlinks]

/-! ### C20 -/

/-- **C20 (partial).** For every label pattern for which the gemv path is selected: as C19.
Missing: labels of `C` that occur in neither `A` nor `B`, and zero contracted dimensions with a `C` that is not empty; the code is wrong
there (refuted below). -/
theorem C20_gemv_partial (δ : L → Nat) (Al Bl Cl ls : List L) (og check : Bool) (A B C : Operand R)
    (fA fB fC : List Nat → R) (cp ab : R)
    (path : choosePath og Al Bl Cl = .gemvNormal ∨ choosePath og Al Bl Cl = .gemvSwap)
    (dA : A.t.dims = Al.map δ) (dB : B.t.dims = Bl.map δ) (dC : C.t.dims = Cl.map δ)
    (vA : A.Valid) (vB : B.Valid) (vC : C.Valid)
    (hA : A.t.Represents fA) (hB : B.t.Represents fB) (hC : C.t.Represents fC)
    (coverA : ∀ l ∈ Al, l ∈ Cl ∨ l ∈ Bl) (coverB : ∀ l ∈ Bl, l ∈ Cl ∨ l ∈ Al)
    (coverC : ∀ l ∈ Cl, l ∈ Al ∨ l ∈ Bl)
    (hls : Contracted Al Bl Cl ls) (hk : (∀ l ∈ ls, δ l ≠ 0) ∨ ∃ l ∈ Cl, δ l = 0) :
    ∃ C', einsum og check cp Cl C ab Al A Bl B = .ok C' ∧ C.t.Frame C' ∧
      ∀ ρ, InRange δ Cl ρ → C'.read (toIdx (Cl.map ρ))
        = .ok (cp * fC (Cl.map ρ) + ab * contraction δ ls Al Bl fA fB ρ) := by
  have hg := choosePath_spec og Al Bl Cl
  replace path : choosePath og Al Bl Cl = .gemvNormal := by
    rcases path with path | path
    · exact path
    · rw [path] at hg; exact hg.elim
  rw [path] at hg
  obtain ⟨hAn, hBn, hCn, hC0, hB0, hlinks, hCB, f1, f2, sA⟩ := gemv_shape hg coverA coverB coverC
  rw [einsum_eq_path og check cp ab dA dB dC coverA coverB, path]
  simp only
  split
  · obtain ⟨C', h1, h2, h3, _⟩ := C15_contraction δ Al Bl Cl ls A.t B.t C.t fA fB fC cp ab dA dB dC hA hB hC
      vC.wf coverA coverB (fun l hl => List.count_eq_one_of_mem hAn ((hls.2 l).1 hl).1) hls
    exact ⟨C', h1, h2, h3⟩
  · rename_i hfull
    simp only [Bool.or_eq_true, Bool.not_eq_true', not_or, Bool.not_eq_false] at hfull
    have hp := Contracted.perm_links hls hAn
    obtain ⟨ta, ea⟩ : ∃ ta : Bool, Al = if ta then Bl ++ Cl else Cl ++ Bl := by
      rcases sA with h | h
      · exact ⟨false, h⟩
      · exact ⟨true, h⟩
    obtain ⟨C', h1, h2, h3⟩ := einsumGemv_shape ta cp ab hAn hBn hCn hC0 hB0 hlinks hCB f1 f2 ea dA dB dC
      (vA.full hfull.1.2) (vB.full hfull.2) (vC.full hfull.1.1) hA hB hC
      (hk.imp_left fun hk l hl => hk l (hp.mem_iff.2 (by rw [hlinks]; exact hl)))
    refine ⟨C', h1, h2, ?_⟩
    intro ρ hρ
    rw [h3 ρ hρ, contraction_perm hp hls.1, hlinks]

/-! ### C21 -/

/-- **C21 (partial).** When the outer-product path is selected and the labels of `C` are those of `A`
followed by those of `B`, or the other way round, and `C` is row-major: the result is the contraction
(a plain product).  Empty dimensions are included: there the vector routine throws and the code falls
back.  Missing: interleaved labels, labels of `C` in neither operand, and `C` a strided view; the code
is wrong there (refuted below). -/
theorem C21_outer_partial (δ : L → Nat) (Al Bl Cl : List L) (og check : Bool) (A B C : Operand R)
    (fA fB fC : List Nat → R) (cp ab : R) (path : choosePath og Al Bl Cl = .outer)
    (dA : A.t.dims = Al.map δ) (dB : B.t.dims = Bl.map δ) (dC : C.t.dims = Cl.map δ)
    (vA : A.Valid) (vB : B.Valid) (rC : C.t.RowMajor) (hA0 : Al ≠ []) (hB0 : Bl ≠ [])
    (hA : A.t.Represents fA) (hB : B.t.Represents fB) (hC : C.t.Represents fC)
    (order : Cl = Al ++ Bl ∨ Cl = Bl ++ Al) :
    ∃ C', einsum og check cp Cl C ab Al A Bl B = .ok C' ∧ C.t.Frame C' ∧
      ∀ ρ, InRange δ Cl ρ → C'.read (toIdx (Cl.map ρ))
        = .ok (cp * fC (Cl.map ρ) + ab * (fA (Al.map ρ) * fB (Bl.map ρ))) := by
  have hg := choosePath_spec og Al Bl Cl
  rw [path] at hg
  have hh := hg.1
  simp only [isOuterProduct, Bool.and_eq_true] at hh
  obtain ⟨hAn, hBn, hCn⟩ := noHadamard_iff.1 hh.2
  have coverA : ∀ l ∈ Al, l ∈ Cl ∨ l ∈ Bl := by
    intro l hl; left; rcases order with h | h <;> simp [h, hl]
  have coverB : ∀ l ∈ Bl, l ∈ Cl ∨ l ∈ Al := by
    intro l hl; left; rcases order with h | h <;> simp [h, hl]
  have hls : Contracted Al Bl Cl [] := by
    refine ⟨List.nodup_nil, fun l => ?_⟩
    simp only [List.not_mem_nil, false_iff, not_and, not_not]
    intro h1 _; rcases order with h | h <;> simp [h, h1]
  rw [einsum_eq_path og check cp ab dA dB dC coverA coverB, path]
  simp only
  by_cases hfull : A.full = true ∧ B.full = true
  · obtain ⟨sw, eC⟩ : ∃ sw : Bool, Cl = if sw then Bl ++ Al else Al ++ Bl := by
      rcases order with h | h
      · exact ⟨false, h⟩
      · exact ⟨true, h⟩
    exact einsumOuter_shape sw cp ab hCn hA0 hB0 eC dA dB dC hfull.1 hfull.2 (vA.full hfull.1) (vB.full hfull.2)
      rC hA hB hC
  · have hgen : einsumOuter cp Cl C.t ab Al A Bl B = einsumGeneric cp Cl C.t ab Al A.t Bl B.t := by
      unfold einsumOuter
      rw [if_pos]
      cases h1 : A.full <;> cases h2 : B.full <;> simp_all
    rw [hgen]
    obtain ⟨C', h1, h2, h3, _⟩ := C15_contraction δ Al Bl Cl [] A.t B.t C.t fA fB fC cp ab dA dB dC hA hB hC
      rC.wf coverA coverB (by simp) hls
    exact ⟨C', h1, h2, h3⟩

/-- **C21 (partial, views).** When `A` or `B` is not the full view of its storage, the generic algorithm
runs, and then the order of the labels in `C` and its strides do not matter. -/
theorem C21_outer_views_partial (δ : L → Nat) (Al Bl Cl : List L) (og check : Bool) (A B C : Operand R)
    (fA fB fC : List Nat → R) (cp ab : R) (path : choosePath og Al Bl Cl = .outer)
    (dA : A.t.dims = Al.map δ) (dB : B.t.dims = Bl.map δ) (dC : C.t.dims = Cl.map δ)
    (hA : A.t.Represents fA) (hB : B.t.Represents fB) (hC : C.t.Represents fC) (w : C.t.WF)
    (coverA : ∀ l ∈ Al, l ∈ Cl) (coverB : ∀ l ∈ Bl, l ∈ Cl) (hv : A.full = false ∨ B.full = false) :
    ∃ C', einsum og check cp Cl C ab Al A Bl B = .ok C' ∧ C.t.Frame C' ∧
      ∀ ρ, InRange δ Cl ρ → C'.read (toIdx (Cl.map ρ))
        = .ok (cp * fC (Cl.map ρ) + ab * (fA (Al.map ρ) * fB (Bl.map ρ))) := by
  have hls : Contracted Al Bl Cl [] := by
    refine ⟨List.nodup_nil, fun l => ?_⟩
    simp only [List.not_mem_nil, false_iff, not_and, not_not]
    intro h1 _; exact coverA l h1
  rw [einsum_eq_path og check cp ab dA dB dC (fun l h => .inl (coverA l h)) (fun l h => .inl (coverB l h)), path]
  simp only
  have hgen : einsumOuter cp Cl C.t ab Al A Bl B = einsumGeneric cp Cl C.t ab Al A.t Bl B.t := by
    unfold einsumOuter
    rw [if_pos]
    rcases hv with h | h <;> simp [h]
  rw [hgen]
  obtain ⟨C', h1, h2, h3, _⟩ := C15_contraction δ Al Bl Cl [] A.t B.t C.t fA fB fC cp ab dA dB dC hA hB hC
    w (fun l h => .inl (coverA l h)) (fun l h => .inl (coverB l h)) (by simp) hls
  exact ⟨C', h1, h2, h3⟩

/-! ### C22 -/

omit [LawfulBEq R] [Div R] in
/-- **C22.** `C() = A(ls) B(ls)` for a label list without repetition, any rank ≥ 1, any shape including
empty ones, tensors or views, with or without the run-time check: the result is
`cp*c + ab*Σ A*B` over all index values. -/
theorem C22_dot (δ : L → Nat) (Al : List L) (check : Bool) (A B : Operand R) (fA fB : List Nat → R)
    (cp c ab : R) (hAn : Al.Nodup) (hA0 : Al ≠ [])
    (dA : A.t.dims = Al.map δ) (dB : B.t.dims = Al.map δ) (vA : A.Valid) (vB : B.Valid)
    (hA : A.t.Represents fA) (hB : B.t.Represents fB) :
    einsumScalar check cp c ab Al A Al B = .ok (cp * c + ab * contraction δ Al Al Al fA fB fun _ => 0) := by
  unfold einsumScalar
  have hok : labelsOk ([] : List L) (linkUnique Al Al []) Al Al = true := by
    simp only [labelsOk, linkUnique, List.all_eq_true, List.mem_append, Bool.or_eq_true, decide_eq_true_eq,
      mem_unique, mem_links]
    intro l hl; right; simpa using hl
  have hr : runtimeAbort Al Al [] A.t.dims B.t.dims [] = false := by
    have e1 : ∀ (X : List Nat), dimsClash Al X ([] : List L) [] = false := by intro X; simp [dimsClash]
    unfold runtimeAbort
    rw [dA, dB, no_clash_of_map, e1]; rfl
  have hd : isDotProduct Al Al [] = true := by
    simp [isDotProduct, noHadamard_iff, hAn]
  rw [hok, hr]
  simp only [Bool.true_eq_false, if_false, Bool.and_false, Bool.false_eq_true, hd, if_true]
  rw [dotOp_eq (dB.trans dA.symm) (by rw [dA]; simpa) vA.wf vB.wf vA.full vB.full hA hB]
  simp only [Outcome.ok_bind]
  rw [mul_comm c cp]
  congr 3
  unfold contraction
  rw [sumOver_eq δ Al hAn, dA]
  congr 1
  apply List.map_congr_left
  intro vs hvs
  rw [map_bindEnv_self hAn (by simpa using (mem_box.1 hvs).length)]

/-! ### C23 -/

/-- **C23.** When the three label lists are equal and without repetition and `C` is a `Tensor` (for a
view the call does not compile): every element becomes `cp*old + ab*A*B`. -/
theorem C23_elementwise (δ : L → Nat) (Al : List L) (og check : Bool) (A B C : Operand R)
    (fA fB fC : List Nat → R) (cp ab : R) (hAn : Al.Nodup) (hA0 : Al ≠ [])
    (dA : A.t.dims = Al.map δ) (dB : B.t.dims = Al.map δ) (dC : C.t.dims = Al.map δ)
    (vC : C.Valid) (hv : C.isView = false)
    (hA : A.t.Represents fA) (hB : B.t.Represents fB) (hC : C.t.Represents fC) :
    ∃ C', einsum og check cp Al C ab Al A Al B = .ok C' ∧ C.t.Frame C' ∧
      C'.Represents fun i => cp * fC i + ab * (fA i * fB i) := by
  have path : choosePath og Al Al Al = .elementWise := by
    unfold choosePath
    rw [if_neg (by simp [isDotProduct, hA0]), if_pos (by simp [isElementWise, noHadamard_iff, hAn])]
  rw [einsum_eq_path og check cp ab dA dB dC (fun l h => .inl h) (fun l h => .inl h), path]
  simp only [hv, Bool.false_eq_true, if_false]
  exact directProduct_eq ab cp (dC.trans dA.symm) (dC.trans dB.symm) (vC.tensor hv).2 hA hB hC

/-! ### C15 at the einsum entry point -/

/-- **C15 (any algorithm).** The property of C15 for `einsum` itself, whichever algorithm the labels
select.  No operand repeats a label; every label of `A` and `B` is in `C` or shared and every label of
`C` is in `A` or `B`; `C` is a `Tensor`; contracted dimensions are not zero unless `C` is empty.  A label of `C` that is in
both `A` and `B` is allowed only when gemm is not selected, and without contracted labels `C`'s labels
must be those of `A` then `B` or `B` then `A` unless the outer product is not selected: outside these
conditions the fast paths are wrong (C19, C21). -/
theorem C15_einsum (δ : L → Nat) (Al Bl Cl ls : List L) (og check : Bool) (A B C : Operand R)
    (fA fB fC : List Nat → R) (cp ab : R)
    (hAn : Al.Nodup) (hA0 : Al ≠ []) (hB0 : Bl ≠ []) (hC0 : Cl ≠ [])
    (dA : A.t.dims = Al.map δ) (dB : B.t.dims = Bl.map δ) (dC : C.t.dims = Cl.map δ)
    (vA : A.Valid) (vB : B.Valid) (vC : C.Valid) (tC : C.isView = false)
    (hA : A.t.Represents fA) (hB : B.t.Represents fB) (hC : C.t.Represents fC)
    (coverA : ∀ l ∈ Al, l ∈ Cl ∨ l ∈ Bl) (coverB : ∀ l ∈ Bl, l ∈ Cl ∨ l ∈ Al)
    (coverC : ∀ l ∈ Cl, l ∈ Al ∨ l ∈ Bl)
    (noTriple : choosePath og Al Bl Cl = .gemm → ∀ l ∈ Cl, ¬(l ∈ Al ∧ l ∈ Bl))
    (order : choosePath og Al Bl Cl = .outer → Cl = Al ++ Bl ∨ Cl = Bl ++ Al)
    (hls : Contracted Al Bl Cl ls) (hk : (∀ l ∈ ls, δ l ≠ 0) ∨ ∃ l ∈ Cl, δ l = 0) :
    ∃ C', einsum og check cp Cl C ab Al A Bl B = .ok C' ∧ C.t.Frame C' ∧
      ∀ ρ, InRange δ Cl ρ → C'.read (toIdx (Cl.map ρ))
        = .ok (cp * fC (Cl.map ρ) + ab * contraction δ ls Al Bl fA fB ρ) := by
  have hg := choosePath_spec og Al Bl Cl
  match hp : choosePath og Al Bl Cl with
  | .dot =>
    rw [hp] at hg
    simp only [isDotProduct, Bool.and_eq_true, decide_eq_true_eq, List.length_eq_zero_iff] at hg
    exact (hC0 hg.1.1).elim
  | .elementWise =>
    rw [hp] at hg
    simp only [isElementWise, Bool.and_eq_true, decide_eq_true_eq] at hg
    obtain ⟨⟨rfl, rfl⟩, _⟩ := hg
    obtain ⟨C', h1, h2, h3⟩ := C23_elementwise δ Cl og check A B C fA fB fC cp ab hAn hA0 dA dB dC vC tC hA hB hC
    refine ⟨C', h1, h2, ?_⟩
    intro ρ hρ
    have e : ls = [] := by
      rw [List.eq_nil_iff_forall_not_mem]
      intro l hl
      exact ((hls.2 l).1 hl).2.2 ((hls.2 l).1 hl).1
    rw [h3 _ (by rw [h2.dims, dC]; exact inBox_map hρ), e]; rfl
  | .outer =>
    obtain ⟨C', h1, h2, h3⟩ := C21_outer_partial δ Al Bl Cl og check A B C fA fB fC cp ab hp dA dB dC vA vB
      (vC.full (vC.tensor tC).1) hA0 hB0 hA hB hC (order hp)
    refine ⟨C', h1, h2, ?_⟩
    intro ρ hρ
    have e : ls = [] := by
      rw [List.eq_nil_iff_forall_not_mem]
      intro l hl
      have := (hls.2 l).1 hl
      rcases order hp with h | h <;> simp [h, this.1] at this
    rw [h3 ρ hρ, e]; rfl
  | .gemvNormal =>
    exact C20_gemv_partial δ Al Bl Cl ls og check A B C fA fB fC cp ab (.inl hp) dA dB dC vA vB vC hA hB hC
      coverA coverB coverC hls hk
  | .gemvSwap => rw [hp] at hg; exact hg.elim
  | .gemm =>
    exact C19_gemm_partial δ Al Bl Cl ls og check A B C fA fB fC cp ab hp dA dB dC vA vB vC hA hB hC
      coverA coverB coverC (noTriple hp) hls hk
  | .generic =>
    rw [einsum_eq_path og check cp ab dA dB dC coverA coverB, hp]
    obtain ⟨C', h1, h2, h3, _⟩ := C15_contraction δ Al Bl Cl ls A.t B.t C.t fA fB fC cp ab dA dB dC hA hB hC
      vC.wf coverA coverB (fun l hl => List.count_eq_one_of_mem hAn ((hls.2 l).1 hl).1) hls
    exact ⟨C', h1, h2, h3⟩

/-- **C24 (partial: the two outcomes).** With the check on and any shapes of the right ranks, for the
label patterns and operands of `C15_einsum` with no empty dimension in `A`, or an empty `C`: either some label has two
different dimensions and einsum throws, or not, and einsum returns normally without any out-of-range
access.  Missing: the patterns excluded there, for which accepted calls can go wrong (C16, C19–C21). -/
theorem C24_throws_or_returns_partial (Al Bl Cl : List L) (og : Bool) (A B C : Operand R) (cp ab : R)
    (hAn : Al.Nodup) (hA0 : Al ≠ []) (hB0 : Bl ≠ []) (hC0 : Cl ≠ [])
    (rA : A.t.dims.length = Al.length) (rB : B.t.dims.length = Bl.length) (rC : C.t.dims.length = Cl.length)
    (vA : A.Valid) (vB : B.Valid) (vC : C.Valid) (tC : C.isView = false)
    (coverA : ∀ l ∈ Al, l ∈ Cl ∨ l ∈ Bl) (coverB : ∀ l ∈ Bl, l ∈ Cl ∨ l ∈ Al)
    (coverC : ∀ l ∈ Cl, l ∈ Al ∨ l ∈ Bl)
    (noTriple : choosePath og Al Bl Cl = .gemm → ∀ l ∈ Cl, ¬(l ∈ Al ∧ l ∈ Bl))
    (order : choosePath og Al Bl Cl = .outer → Cl = Al ++ Bl ∨ Cl = Bl ++ Al)
    (hk : (∀ d ∈ A.t.dims, d ≠ 0) ∨ 0 ∈ C.t.dims) :
    let clash := Clash Al A.t.dims Bl B.t.dims ∨ Clash Al A.t.dims Cl C.t.dims ∨ Clash Bl B.t.dims Cl C.t.dims
    (clash ∧ einsum og true cp Cl C ab Al A Bl B = .error "Inconsistent dimensions found!") ∨
    (¬clash ∧ ∃ C', einsum og true cp Cl C ab Al A Bl B = .ok C' ∧ C.t.Frame C') := by
  intro clash
  by_cases h : clash
  · exact .inl ⟨h, C24_rejects og cp ab Cl Al Bl C A B rA rB rC coverA coverB h⟩
  · right
    have h' := h
    simp only [clash, not_or] at h'
    obtain ⟨δ, dA, dB, dC⟩ := C24_one_dimension_per_label Cl Al Bl A.t.dims B.t.dims C.t.dims rA rB rC coverA coverB
      coverC h'.1 h'.2.1 h'.2.2
    have : Inhabited R := ⟨0⟩
    obtain ⟨fA, hA⟩ := exists_represents vA.wf
    obtain ⟨fB, hB⟩ := exists_represents vB.wf
    obtain ⟨fC, hC⟩ := exists_represents vC.wf
    obtain ⟨C', h1, h2, _⟩ := C15_einsum δ Al Bl Cl (links Al Bl Cl) og true A B C fA fB fC cp ab hAn hA0 hB0 hC0
      dA dB dC vA vB vC tC hA hB hC coverA coverB coverC noTriple order ⟨links_nodup hAn, fun l => mem_links⟩
      (hk.imp (fun hk l hl => hk _ (by rw [dA]; exact List.mem_map.2 ⟨l, (mem_links.1 hl).1, rfl⟩))
        fun hk => List.mem_map.1 (dC ▸ hk))
    exact ⟨h, C', h1, h2⟩

end

/-! ### Concrete cases -/

/-- A `Tensor` operand. -/
def tensorOp {R : Type} (data : List R) (dims : List Nat) : Operand R :=
  ⟨⟨data, 0, dims, (dimsToStrides dims).2⟩, false, true⟩

theorem tensorOp_valid {R : Type} {data : List R} {dims : List Nat} (h : data.length = numel dims) :
    (tensorOp data dims).Valid :=
  have t : (tensorOp data dims).t.IsTensor := ⟨rfl, rfl, h⟩
  ⟨t.wf, fun _ => t.rowMajor, fun _ => ⟨rfl, t⟩⟩

/-- The gemm path is taken for `C(j,i) = A(k,i) B(j,k)` (all three transposed), and for blocks of labels. -/
example : choosePath false ["k", "i"] ["j", "k"] ["j", "i"] = .gemm := by decide
example : choosePath false ["i", "j", "k", "l"] ["k", "l", "m"] ["i", "j", "m"] = .gemm := by decide
example : choosePath false ["i", "k"] ["k"] ["i"] = .gemvNormal := by decide
example : choosePath false ["k", "l", "i"] ["k", "l"] ["i"] = .gemvNormal := by decide
example : choosePath false ["i"] ["j", "k"] ["j", "k", "i"] = .outer := by decide
example : choosePath false ["i", "j"] ["i", "j"] ["i", "j"] = .elementWise := by decide
example : choosePath false ["i", "k", "l"] ["l", "i", "k"] ["i"] = .generic := by decide

/-- C19 on an all-transposed product: the hypotheses hold and give the value. -/
example : ∃ C', einsum (R := Int) false true 2 ["j", "i"] (tensorOp [1, 1, 1, 1] [2, 2]) 3
      ["k", "i"] (tensorOp [1, 2, 3, 4] [2, 2]) ["j", "k"] (tensorOp [1, 0, 0, 1] [2, 2]) = .ok C' ∧
    C'.read [1, 0] = .ok (2 * 1 + 3 * (1 * 0 + 3 * 1)) := by
  obtain ⟨C', h1, _, h2⟩ := C19_gemm_partial (R := Int) (fun _ => 2) ["k", "i"] ["j", "k"] ["j", "i"] ["k"] false true
    (tensorOp [1, 2, 3, 4] [2, 2]) (tensorOp [1, 0, 0, 1] [2, 2]) (tensorOp [1, 1, 1, 1] [2, 2])
    (fun i => [1, 2, 3, 4].getD (rowMajor i [2, 2]) 0) (fun i => [1, 0, 0, 1].getD (rowMajor i [2, 2]) 0)
    (fun i => [1, 1, 1, 1].getD (rowMajor i [2, 2]) 0) 2 3 (by decide) rfl rfl rfl
    (tensorOp_valid rfl) (tensorOp_valid rfl) (tensorOp_valid rfl)
    ((tensorOp_valid rfl).tensor rfl |>.2.represents_iff.2 (by decide))
    ((tensorOp_valid rfl).tensor rfl |>.2.represents_iff.2 (by decide))
    ((tensorOp_valid rfl).tensor rfl |>.2.represents_iff.2 (by decide))
    (by decide) (by decide) (by decide) (by decide) ⟨by decide, by intro l; simp; aesop⟩ (by decide)
  exact ⟨C', h1, h2 (fun l => if l = "j" then 1 else 0) (by unfold InRange; decide)⟩

/-- C24 on an inconsistent call. -/
example : einsum (R := Int) false true 0 ["i", "j"] (tensorOp [0, 0, 0, 0] [2, 2]) 1 ["i", "k"]
    (tensorOp [1, 2] [2, 1]) ["k", "j"] (tensorOp [1, 2, 3, 4] [2, 2])
    = .error "Inconsistent dimensions found!" :=
  C24_rejects false 0 1 _ _ _ _ _ _ rfl rfl rfl (by decide) (by decide)
    (.inl ⟨"k", 1, 0, 1, 2, rfl, rfl, rfl, rfl, by decide⟩)

/-! ### Refutations -/

/-- **C19 (refuted: a label of `C` in neither operand).** `C(i,j,z) = A(i,k) B(k,j)`: the generic algorithm
gives every `z` the product, as C15 says; the gemm path writes `[A·B]` into the wrong elements. -/
theorem C19_refuted_uncovered :
    choosePath false ["i", "k"] ["k", "j"] ["i", "j", "z"] = .gemm ∧
    einsum (R := Int) false true 0 ["i", "j", "z"] (tensorOp (List.replicate 8 0) [2, 2, 2]) 1
      ["i", "k"] (tensorOp [1, 2, 3, 4] [2, 2]) ["k", "j"] (tensorOp [1, 0, 0, 1] [2, 2])
        = .ok ⟨[1, 2, 0, 0, 3, 4, 0, 0], 0, [2, 2, 2], [4, 2, 1]⟩ ∧
    einsum (R := Int) true true 0 ["i", "j", "z"] (tensorOp (List.replicate 8 0) [2, 2, 2]) 1
      ["i", "k"] (tensorOp [1, 2, 3, 4] [2, 2]) ["k", "j"] (tensorOp [1, 0, 0, 1] [2, 2])
        = .ok ⟨[1, 1, 2, 2, 3, 3, 4, 4], 0, [2, 2, 2], [4, 2, 1]⟩ := by decide

/-- **C19 (refuted: a label in all three operands).** `C(i,b,j) = A(i,b,k) B(k,b,j)`: the generic algorithm
computes one product per `b`; the gemm path is selected and calls BLAS with an illegal leading
dimension. -/
theorem C19_refuted_batch :
    choosePath false ["i", "b", "k"] ["k", "b", "j"] ["i", "b", "j"] = .gemm ∧
    einsum (R := Int) false true 0 ["i", "b", "j"] (tensorOp [0, 0] [1, 2, 1]) 1
      ["i", "b", "k"] (tensorOp [1, 2] [1, 2, 1]) ["k", "b", "j"] (tensorOp [1, 10] [1, 2, 1])
        = .error "XERBLA" ∧
    einsum (R := Int) true true 0 ["i", "b", "j"] (tensorOp [0, 0] [1, 2, 1]) 1
      ["i", "b", "k"] (tensorOp [1, 2] [1, 2, 1]) ["k", "b", "j"] (tensorOp [1, 10] [1, 2, 1])
        = .ok ⟨[1, 20], 0, [1, 2, 1], [2, 1, 1]⟩ := by decide

/-- **C19 (refuted: empty contracted dimension).** With `k = 0` the sum is empty, so `C_prefactor = 0`
should clear `C`; the gemm path leaves it. -/
theorem C19_refuted_empty :
    einsum (R := Int) false true 0 ["i", "j"] (tensorOp [7] [1, 1]) 1
      ["i", "k"] (tensorOp [] [1, 0]) ["k", "j"] (tensorOp [] [0, 1]) = .ok ⟨[7], 0, [1, 1], [1, 1]⟩ ∧
    einsum (R := Int) true true 0 ["i", "j"] (tensorOp [7] [1, 1]) 1
      ["i", "k"] (tensorOp [] [1, 0]) ["k", "j"] (tensorOp [] [0, 1]) = .ok ⟨[0], 0, [1, 1], [1, 1]⟩ := by decide

/-- **C20 (refuted: a label of `C` in neither operand).** `C(i,j) = A(i,k) B(k)`: the gemv path writes only
column 0. -/
theorem C20_refuted_uncovered :
    choosePath false ["i", "k"] ["k"] ["i", "j"] = .gemvNormal ∧
    einsum (R := Int) false true 0 ["i", "j"] (tensorOp [9, 9, 9, 9] [2, 2]) 1
      ["i", "k"] (tensorOp [1, 2, 3, 4] [2, 2]) ["k"] (tensorOp [1, 1] [2])
        = .ok ⟨[3, 9, 7, 9], 0, [2, 2], [2, 1]⟩ ∧
    einsum (R := Int) true true 0 ["i", "j"] (tensorOp [9, 9, 9, 9] [2, 2]) 1
      ["i", "k"] (tensorOp [1, 2, 3, 4] [2, 2]) ["k"] (tensorOp [1, 1] [2])
        = .ok ⟨[3, 3, 7, 7], 0, [2, 2], [2, 1]⟩ := by decide

/-- **C20 (refuted: empty contracted dimension).** -/
theorem C20_refuted_empty :
    einsum (R := Int) false true 0 ["i"] (tensorOp [7] [1]) 1
      ["i", "k"] (tensorOp [] [1, 0]) ["k"] (tensorOp [] [0]) = .ok ⟨[7], 0, [1], [1]⟩ := by decide

/-- **C20 (dead branch).** The second gemv test (vector times matrix) never succeeds. -/
theorem C20_swap_never_selected (og : Bool) (Al Bl Cl : List L) : choosePath og Al Bl Cl ≠ .gemvSwap := by
  intro h
  have := choosePath_spec og Al Bl Cl
  rw [h] at this
  exact this

/-- **C21 (refuted: interleaved labels).** `C(i,k,j) = A(i,j) B(k)` is computed as if `C` were `(i,j,k)`. -/
theorem C21_refuted_interleaved :
    choosePath false ["i", "j"] ["k"] ["i", "k", "j"] = .outer ∧
    einsum (R := Int) false true 0 ["i", "k", "j"] (tensorOp (List.replicate 8 0) [2, 2, 2]) 1
      ["i", "j"] (tensorOp [1, 2, 3, 4] [2, 2]) ["k"] (tensorOp [1, 10] [2])
        = .ok ⟨[1, 10, 2, 20, 3, 30, 4, 40], 0, [2, 2, 2], [4, 2, 1]⟩ ∧
    einsumGeneric (R := Int) 0 ["i", "k", "j"] (tensorOp (List.replicate 8 0) [2, 2, 2]).t 1
      ["i", "j"] (tensorOp [1, 2, 3, 4] [2, 2]).t ["k"] (tensorOp [1, 10] [2]).t
        = .ok ⟨[1, 2, 10, 20, 3, 4, 30, 40], 0, [2, 2, 2], [4, 2, 1]⟩ := by decide

/-- **C21 (refuted: `C` a strided view).** `C` is the left 2×2 part of a 2×3 matrix; scaling by
`C_prefactor = 0` also clears the third column (the two 9s), which is not part of the view. -/
theorem C21_refuted_view :
    einsum (R := Int) false true 0 ["i", "j"] ⟨⟨[5, 5, 9, 5, 5, 9], 0, [2, 2], [3, 1]⟩, true, false⟩ 1
      ["i"] (tensorOp [1, 2] [2]) ["j"] (tensorOp [1, 10] [2])
        = .ok ⟨[1, 10, 0, 2, 20, 0], 0, [2, 2], [3, 1]⟩ := by decide

/-- **C16 (refuted at the einsum entry point).** -/
theorem C16_refuted_einsum :
    einsumScalar (R := Int) true 0 0 1 ["i", "i"] (tensorOp [1, 2, 3, 4] [2, 2]) ["i"] (tensorOp [1, 1] [2])
      = .ok 10 := by decide

/-! ### C17 on the other paths -/

instance : One NanInt := ⟨.num 1⟩
instance : Div NanInt := ⟨fun _ _ => .nan⟩

/-- **C17 (refuted: dot product).** `c := c*0 + ...` keeps a not-a-number in `c`. -/
theorem C17_refuted_dot :
    einsumScalar (NanInt.num 0) .nan (.num 1) ["i"] (tensorOp [.num 1] [1]) ["i"] (tensorOp [.num 1] [1])
      (check := true) = .ok .nan := by decide

/-- **C17 (refuted: outer product).** `C` is scaled by zero instead of cleared. -/
theorem C17_refuted_outer :
    einsum false true (NanInt.num 0) ["i", "j"] (tensorOp [.nan] [1, 1]) (.num 1)
      ["i"] (tensorOp [.num 1] [1]) ["j"] (tensorOp [.num 1] [1]) = .ok ⟨[.nan], 0, [1, 1], [1, 1]⟩ := by decide

section
variable {R : Type} [Add R] [Mul R] [Zero R] [One R] [BEq R] [Div R]

omit [One R] [Div R] in
/-- **C17 (element-wise path).** Without any algebraic law, with `cp == 0` the result does not depend on
the old contents of the tensor `C`. -/
theorem C17_elementwise (cp ab : R) (A B C : Strided R) (d : List R) (h0 : (cp == 0) = true)
    (hl : d.length = C.data.length) :
    directProduct ab A B cp { C with data := d } = directProduct ab A B cp C := by
  unfold directProduct
  rw [h0]
  have : ({ C with data := d } : Strided R).zero = C.zero := by
    simp only [Strided.zero, Strided.mk.injEq, and_true]
    apply List.ext_getElem (by simpa using hl)
    intros; simp
  simp only [if_true, this]

/-- **C17 (gemm path, partial).** No algebraic law is assumed.  On the gemm path, under the conditions of
C19 and with `cp == 0`: if einsum succeeds on `C`, it succeeds on any other contents `d` and every
element of the result is the same.  Missing: the situations excluded in C19 (with an empty contracted
dimension the old contents stay, `C19_refuted_empty`). -/
theorem C17_gemm_partial (δ : L → Nat) (Al Bl Cl : List L) (og check : Bool) (A B C : Operand R) (C' : Strided R)
    (d : List R) (cp ab : R) (h0 : (cp == 0) = true) (path : choosePath og Al Bl Cl = .gemm)
    (dA : A.t.dims = Al.map δ) (dB : B.t.dims = Bl.map δ) (dC : C.t.dims = Cl.map δ)
    (vA : A.Valid) (vB : B.Valid) (vC : C.Valid) (hl : d.length = C.t.data.length)
    (coverA : ∀ l ∈ Al, l ∈ Cl ∨ l ∈ Bl) (coverB : ∀ l ∈ Bl, l ∈ Cl ∨ l ∈ Al)
    (coverC : ∀ l ∈ Cl, l ∈ Al ∨ l ∈ Bl) (noTriple : ∀ l ∈ Cl, ¬(l ∈ Al ∧ l ∈ Bl))
    (hk : ∀ l ∈ Al, l ∈ Bl → δ l ≠ 0)
    (h : einsum og check cp Cl C ab Al A Bl B = .ok C') :
    ∃ C'', einsum og check cp Cl { C with t := { C.t with data := d } } ab Al A Bl B = .ok C'' ∧
      ∀ ρ, InRange δ Cl ρ → C''.read (toIdx (Cl.map ρ)) = C'.read (toIdx (Cl.map ρ)) := by
  have hg := choosePath_spec og Al Bl Cl
  rw [path] at hg
  obtain ⟨T, U, K, hAn, hBn, hCn, hT0, hU0, hK0, hlinks, hTK, hUK, f1, f2, f3, f4, sA, sB, sC⟩ :=
    gemm_shape hg coverA coverB coverC noTriple
  have wd : ({ C.t with data := d } : Strided R).WF := ⟨vC.wf.len, by
    intro i hi; simp only [hl]; exact vC.wf.bound i hi, vC.wf.inj⟩
  rw [einsum_eq_path og check cp ab dA dB dC coverA coverB, path] at h
  rw [einsum_eq_path og check cp ab dA dB (C := { C with t := { C.t with data := d } }) dC coverA coverB, path]
  simp only at h ⊢
  by_cases hfull : (!C.full || !A.full || !B.full) = true
  · rw [if_pos hfull] at h ⊢
    obtain ⟨C'', e1, e2⟩ := C17_generic δ Al Bl Cl A.t B.t C.t { C.t with data := d } C' cp ab h0 dC dC vC.wf wd h
    exact ⟨C'', e1, fun ρ hρ => (e2 ρ hρ).symm⟩
  · rw [if_neg hfull] at h ⊢
    simp only [Bool.or_eq_true, Bool.not_eq_true', not_or, Bool.not_eq_false] at hfull
    have rA := vA.full hfull.1.2
    have rB := vB.full hfull.2
    have rC := vC.full hfull.1.1
    have rd : ({ C.t with data := d } : Strided R).RowMajor := ⟨rC.strides, by simp only [hl]; exact rC.fits⟩
    obtain ⟨ta, ea⟩ : ∃ ta : Bool, Al = if ta then K ++ T else T ++ K := by
      rcases sA with h | h
      · exact ⟨false, h⟩
      · exact ⟨true, h⟩
    obtain ⟨tb, eb⟩ : ∃ tb : Bool, Bl = if tb then U ++ K else K ++ U := by
      rcases sB with h | h
      · exact ⟨false, h⟩
      · exact ⟨true, h⟩
    obtain ⟨tc, ec⟩ : ∃ tc : Bool, Cl = if tc then U ++ T else T ++ U := by
      rcases sC with h | h
      · exact ⟨false, h⟩
      · exact ⟨true, h⟩
    rw [einsumGemm_eq (δ := δ) ta tb tc cp ab hAn hBn hCn hT0 hU0 hK0 hlinks f1 f2 f3 f4 ea eb ec dA dB dC rA rB rC] at h
    rw [einsumGemm_eq (C := { C.t with data := d }) (δ := δ) ta tb tc cp ab hAn hBn hCn hT0 hU0 hK0 hlinks f1 f2 f3 f4
      ea eb ec dA dB dC rA rB rd]
    have hk' : numel (K.map δ) ≠ 0 := by
      have hk2 : ∀ l ∈ K, δ l ≠ 0 := by
        intro l hl
        rw [← hlinks, mem_links] at hl
        exact hk l hl.1 hl.2.1
      clear hlinks hTK hUK sA sB ea eb hK0 h
      induction K with
      | nil => simp
      | cons a K ih =>
        simp only [List.map_cons, numel_cons, ne_eq, Nat.mul_eq_zero, not_or]
        exact ⟨hk2 a (by simp), ih fun l hl => hk2 l (by simp [hl])⟩
    -- one gemm on matrix views of both
    have main : ∀ (P Q : List L) (X Y : Strided R) (tx ty : Bool), Cl = P ++ Q →
        (if tx then X.dim 0 else X.dim 1) ≠ 0 →
        (gemm tx ty ab X Y cp (matView C.t (P.map δ) (Q.map δ)) >>= fun r =>
          Outcome.ok { C.t with data := r.data }) = .ok C' →
        ∃ C'', (gemm tx ty ab X Y cp (matView { C.t with data := d } (P.map δ) (Q.map δ)) >>= fun r =>
          Outcome.ok ({ C.t with data := r.data } : Strided R)) = .ok C'' ∧
          ∀ ρ, InRange δ Cl ρ → C''.read (toIdx (Cl.map ρ)) = C'.read (toIdx (Cl.map ρ)) := by
      intro P Q X Y tx ty hPQ hx hh
      cases hgm : gemm tx ty ab X Y cp (matView C.t (P.map δ) (Q.map δ)) with
      | error e => rw [hgm] at hh; simp at hh
      | ub e => rw [hgm] at hh; simp at hh
      | ok r1 =>
        rw [hgm] at hh
        simp only [Outcome.ok_bind, Outcome.ok.injEq] at hh
        subst hh
        obtain ⟨r2, g1, g2, g3, g4⟩ := gemm_indep (C1 := matView C.t (P.map δ) (Q.map δ)) (d2 := d) h0 rfl rfl hx hl hgm
        have e2 : gemm tx ty ab X Y cp (matView { C.t with data := d } (P.map δ) (Q.map δ)) = .ok r2 := g1
        rw [e2]
        refine ⟨_, rfl, ?_⟩
        intro ρ hρ
        rw [hPQ] at hρ
        obtain ⟨bP, bQ⟩ := inBox_of_inRange hρ
        have hb : InBox (Cl.map ρ) C.t.dims := by
          rw [dC, hPQ]; exact inBox_map hρ
        have hlen : r1.data.length = C.t.data.length := g3
        have hadr : C.t.off + dot (Cl.map ρ) C.t.strides
            = C.t.off + rowMajor (P.map ρ) (P.map δ) * numel (Q.map δ) + rowMajor (Q.map ρ) (Q.map δ) := by
          rw [rC.strides, dot_strides_eq hb.length, dC, hPQ, List.map_append, List.map_append,
            rowMajor_append bP.length]
          omega
        refine read_congr (t := { C.t with data := r1.data }) (u := { C.t with data := r2.data }) rfl rfl rfl g2 hb
          (by simp only [hlen]; exact vC.wf.bound _ hb) ?_
        simp only [hadr]
        exact (g4 _ _ (rowMajor_lt bP) (rowMajor_lt bQ)).symm
    cases tc
    · refine main T U _ _ ta tb (by simpa using ec) ?_ h
      cases ta <;> simpa [opView, matView, Strided.viewAs, Strided.dim] using hk'
    · refine main U T _ _ (!tb) (!ta) (by simpa using ec) ?_ h
      cases tb <;> simpa [opView, matView, Strided.viewAs, Strided.dim] using hk'

/-- **C17 (gemv path, partial).** As for gemm, under the conditions of C20. -/
theorem C17_gemv_partial (δ : L → Nat) (Al Bl Cl : List L) (og check : Bool) (A B C : Operand R) (C' : Strided R)
    (d : List R) (cp ab : R) (h0 : (cp == 0) = true) (path : choosePath og Al Bl Cl = .gemvNormal)
    (dA : A.t.dims = Al.map δ) (dB : B.t.dims = Bl.map δ) (dC : C.t.dims = Cl.map δ)
    (vA : A.Valid) (vB : B.Valid) (vC : C.Valid) (hl : d.length = C.t.data.length)
    (coverA : ∀ l ∈ Al, l ∈ Cl ∨ l ∈ Bl) (coverB : ∀ l ∈ Bl, l ∈ Cl ∨ l ∈ Al)
    (coverC : ∀ l ∈ Cl, l ∈ Al ∨ l ∈ Bl) (hk : ∀ l ∈ Bl, δ l ≠ 0)
    (h : einsum og check cp Cl C ab Al A Bl B = .ok C') :
    ∃ C'', einsum og check cp Cl { C with t := { C.t with data := d } } ab Al A Bl B = .ok C'' ∧
      ∀ ρ, InRange δ Cl ρ → C''.read (toIdx (Cl.map ρ)) = C'.read (toIdx (Cl.map ρ)) := by
  have hg := choosePath_spec og Al Bl Cl
  rw [path] at hg
  obtain ⟨hAn, hBn, hCn, hC0, hB0, hlinks, hCB, f1, f2, sA⟩ := gemv_shape hg coverA coverB coverC
  have wd : ({ C.t with data := d } : Strided R).WF := ⟨vC.wf.len, by
    intro i hi; simp only [hl]; exact vC.wf.bound i hi, vC.wf.inj⟩
  rw [einsum_eq_path og check cp ab dA dB dC coverA coverB, path] at h
  rw [einsum_eq_path og check cp ab dA dB (C := { C with t := { C.t with data := d } }) dC coverA coverB, path]
  simp only at h ⊢
  by_cases hfull : (!C.full || !A.full || !B.full) = true
  · rw [if_pos hfull] at h ⊢
    obtain ⟨C'', e1, e2⟩ := C17_generic δ Al Bl Cl A.t B.t C.t { C.t with data := d } C' cp ab h0 dC dC vC.wf wd h
    exact ⟨C'', e1, fun ρ hρ => (e2 ρ hρ).symm⟩
  · rw [if_neg hfull] at h ⊢
    simp only [Bool.or_eq_true, Bool.not_eq_true', not_or, Bool.not_eq_false] at hfull
    have rA := vA.full hfull.1.2
    have rB := vB.full hfull.2
    have rC := vC.full hfull.1.1
    have rd : ({ C.t with data := d } : Strided R).RowMajor := ⟨rC.strides, by simp only [hl]; exact rC.fits⟩
    obtain ⟨ta, ea⟩ : ∃ ta : Bool, Al = if ta then Bl ++ Cl else Cl ++ Bl := by
      rcases sA with h | h
      · exact ⟨false, h⟩
      · exact ⟨true, h⟩
    rw [einsumGemv_eq (δ := δ) ta cp ab hAn hBn hCn hC0 hB0 hlinks f1 f2 ea dA dB dC rA rB rC] at h
    rw [einsumGemv_eq (C := { C.t with data := d }) (δ := δ) ta cp ab hAn hBn hCn hC0 hB0 hlinks f1 f2 ea dA dB dC
      rA rB rd]
    by_cases hz : numel (Cl.map δ) = 0
    · -- nothing to compute
      have : ∀ X : Strided R, gemv ta ab (opView A.t δ Cl Bl ta) (vecView B.t (Bl.map δ)) cp
          (vecView X (Cl.map δ)) = .ok (vecView X (Cl.map δ)) := by
        intro X
        unfold gemv vendorGemv
        rw [if_pos]
        · rfl
        · cases ta
          · left; simpa [opView, Strided.dim, matView, Strided.viewAs] using hz
          · right; simpa [opView, Strided.dim, matView, Strided.viewAs] using hz
      rw [this]
      refine ⟨_, rfl, ?_⟩
      intro ρ hρ
      have := rowMajor_lt (inBox_map hρ)
      omega
    · have hk' : numel (Bl.map δ) ≠ 0 := by
        clear hlinks hCB sA ea hB0 h hg path coverA coverB coverC dB hBn
        induction Bl with
        | nil => simp
        | cons a K ih =>
          simp only [List.map_cons, numel_cons, ne_eq, Nat.mul_eq_zero, not_or]
          exact ⟨hk a (by simp), ih fun l hl => hk l (by simp [hl])⟩
      cases hgm : gemv ta ab (opView A.t δ Cl Bl ta) (vecView B.t (Bl.map δ)) cp (vecView C.t (Cl.map δ)) with
      | error e => rw [hgm] at h; simp at h
      | ub e => rw [hgm] at h; simp at h
      | ok r1 =>
        rw [hgm] at h
        simp only [Outcome.ok_bind, Outcome.ok.injEq] at h
        subst h
        obtain ⟨r2, g1, g2, g3, g4⟩ := gemv_indep (A := opView A.t δ Cl Bl ta) (y1 := vecView C.t (Cl.map δ)) (d2 := d)
          (k := numel (Cl.map δ)) h0
          (by cases ta <;> simpa [opView, matView, Strided.viewAs, Strided.dim])
          (by cases ta <;> simpa [opView, matView, Strided.viewAs, Strided.dim])
          (by cases ta <;> simp [opView, matView, Strided.viewAs, Strided.dim]) rfl hl hgm
        have e2 : gemv ta ab (opView A.t δ Cl Bl ta) (vecView B.t (Bl.map δ)) cp
            (vecView { C.t with data := d } (Cl.map δ)) = .ok r2 := g1
        rw [e2]
        refine ⟨_, rfl, ?_⟩
        intro ρ hρ
        have bC := inBox_map hρ
        have hb : InBox (Cl.map ρ) C.t.dims := by rw [dC]; exact bC
        have hlen : r1.data.length = C.t.data.length := g3
        have hadr : C.t.off + dot (Cl.map ρ) C.t.strides = C.t.off + rowMajor (Cl.map ρ) (Cl.map δ) * 1 := by
          rw [rC.strides, dot_strides_eq hb.length, dC]; omega
        refine read_congr (t := { C.t with data := r1.data }) (u := { C.t with data := r2.data }) rfl rfl rfl g2 hb
          (by simp only [hlen]; exact vC.wf.bound _ hb) ?_
        simp only [hadr]
        exact (g4 _ (rowMajor_lt bC)).symm

end

/-- C17 on the gemm path with a `C` full of not-a-numbers. -/
example : einsum false true (NanInt.num 0) ["i", "j"] (tensorOp [.nan] [1, 1]) (.num 1)
      ["i", "k"] (tensorOp [.num 2] [1, 1]) ["k", "j"] (tensorOp [.num 3] [1, 1])
    = .ok ⟨[.num 6], 0, [1, 1], [1, 1]⟩ := by decide


end Einsums.Props
