import Verif.Proofs.Dispatch
/-
The gemm and gemv branches, from the label patterns to the contraction.
-/
namespace Einsums
open Spec Model

variable {L : Type} [DecidableEq L] {R : Type}

/-- Facts about a row-major operand whose labels are two nonempty blocks. -/
theorem two_block_facts {X : Strided R} {δ : L → Nat} {y z xs : List L} (e : xs = y ++ z)
    (hd : X.dims = xs.map δ) (hst : X.strides = (dimsToStrides X.dims).2) (hn : xs.Nodup)
    (hy : y ≠ []) (hz : z ≠ []) :
    firstPos (y.map fun l => (l, xs.idxOf l)) = 0 ∧ firstPos (z.map fun l => (l, xs.idxOf l)) ≠ 0 ∧
    lastStride (y.map fun l => (l, xs.idxOf l)) X = numel (z.map δ) ∧
    lastStride (z.map fun l => (l, xs.idxOf l)) X = 1 ∧
    productDims (y.map fun l => (l, xs.idxOf l)) X = numel (y.map δ) ∧
    productDims (z.map fun l => (l, xs.idxOf l)) X = numel (z.map δ) := by
  subst e
  have h1 : (([] : List L) ++ y ++ z).Nodup := by simpa using hn
  have h2 : (y ++ z ++ ([] : List L)).Nodup := by simpa using hn
  have f1 := firstPos_eq h1 hy
  have f2 := firstPos_eq h2 hz
  have g1 := lastStride_eq (X := X) (δ := δ) (by simpa using hd) hst h1 hy
  have g2 := lastStride_eq (X := X) (δ := δ) (by simpa using hd) hst h2 hz
  simp only [List.nil_append, List.append_nil] at f1 f2 g1 g2
  refine ⟨by simpa using f1, ?_, g1, by simpa using g2, productDims_eq hd (by simp +contextual),
    productDims_eq hd (by simp +contextual)⟩
  rw [f2]
  have := List.length_pos_iff.2 hy
  omega

theorem one_block_facts {X : Strided R} {δ : L → Nat} {xs : List L}
    (hd : X.dims = xs.map δ) (hst : X.strides = (dimsToStrides X.dims).2) (hn : xs.Nodup)
    (hy : xs ≠ []) :
    firstPos (xs.map fun l => (l, xs.idxOf l)) = 0 ∧
    lastStride (xs.map fun l => (l, xs.idxOf l)) X = 1 ∧
    productDims (xs.map fun l => (l, xs.idxOf l)) X = numel (xs.map δ) := by
  have h1 : (([] : List L) ++ xs ++ []).Nodup := by simpa using hn
  have f1 := firstPos_eq h1 hy
  have g1 := lastStride_eq (X := X) (δ := δ) (by simpa using hd) hst h1 hy
  simp only [List.nil_append, List.append_nil] at f1 g1
  exact ⟨by simpa using f1, by simpa using g1, productDims_eq hd (by simp)⟩

section lawfree
variable [Add R] [Mul R] [Zero R] [BEq R]

/-- The matrix view of a two-block operand, `P K` or (transposed) `K P`. -/
def opView (X : Strided R) (δ : L → Nat) (P K : List L) (t : Bool) : Strided R :=
  if t then matView X (K.map δ) (P.map δ) else matView X (P.map δ) (K.map δ)

omit [DecidableEq L] in
theorem numel_zero_mem {ds : List Nat} (h : 0 ∈ ds) : numel ds = 0 := by
  induction ds with
  | nil => simp at h
  | cons d ds ih =>
    rcases List.mem_cons.1 h with h | h
    · rw [numel, ← h, Nat.zero_mul]
    · rw [numel, ih h, Nat.mul_zero]

/-- The gemm branch is one call of `gemm` on matrix views. -/
theorem einsumGemm_eq {δ : L → Nat} {T U K Al Bl Cl : List L} (ta tb tc : Bool) {A B C : Strided R}
    (cp ab : R)
    (hAn : Al.Nodup) (hBn : Bl.Nodup) (hCn : Cl.Nodup) (hT0 : T ≠ []) (hU0 : U ≠ []) (hK0 : K ≠ [])
    (hlinks : links Al Bl Cl = K)
    (fCA : Cl.filter (· ∈ Al) = T) (fCB : Cl.filter (· ∈ Bl) = U)
    (fAC : Al.filter (· ∈ Cl) = T) (fBC : Bl.filter (· ∈ Cl) = U)
    (eA : Al = if ta then K ++ T else T ++ K) (eB : Bl = if tb then U ++ K else K ++ U)
    (eC : Cl = if tc then U ++ T else T ++ U)
    (dA : A.dims = Al.map δ) (dB : B.dims = Bl.map δ) (dC : C.dims = Cl.map δ)
    (rA : A.RowMajor) (rB : B.RowMajor) (rC : C.RowMajor) :
    einsumGemm cp Cl C ab Al A Bl B =
      (if tc then gemm (!tb) (!ta) ab (opView B δ U K (!tb)) (opView A δ K T (!ta)) cp
          (matView C (U.map δ) (T.map δ))
       else gemm ta tb ab (opView A δ T K ta) (opView B δ K U tb) cp (matView C (T.map δ) (U.map δ)))
      >>= fun r => .ok { C with data := r.data } := by
  have pA := linkPosA_eq (Bl := Bl) (Cl := Cl) hAn
  have pB := linkPosB_eq (Cl := Cl) hAn hBn
  have tA := targetPos_eq hCn hAn
  have tB := targetPos_eq hCn hBn
  have cA := posInC_eq (Xl := Al) hCn
  have cB := posInC_eq (Xl := Bl) hCn
  rw [hlinks] at pA pB
  rw [fCA] at tA
  rw [fCB] at tB
  rw [fAC] at cA
  rw [fBC] at cB
  obtain ⟨fA1, gA1, gA2, gA3⟩ : (decide (firstPos (linkPosA Al Bl Cl) = 0) = ta) ∧
      productDims (linkPosA Al Bl Cl) A = numel (K.map δ) ∧
      lastStride (linkPosA Al Bl Cl) A = (if ta then numel (T.map δ) else 1) ∧
      lastStride (targetPos Cl Al) A = (if ta then 1 else numel (K.map δ)) := by
    rw [pA, tA]
    cases ta
    · obtain ⟨a1, a2, a3, a4, a5, a6⟩ := two_block_facts (y := T) (z := K) (by simpa using eA) dA rA.strides hAn hT0 hK0
      exact ⟨by simpa using a2, a6, by simpa using a4, by simpa using a3⟩
    · obtain ⟨a1, a2, a3, a4, a5, a6⟩ := two_block_facts (y := K) (z := T) (by simpa using eA) dA rA.strides hAn hK0 hT0
      exact ⟨by simpa using a1, a5, by simpa using a3, by simpa using a4⟩
  obtain ⟨fB1, gB1, gB2, gB3⟩ : (decide (firstPos (linkPosB Al Bl Cl) ≠ 0) = tb) ∧
      productDims (linkPosB Al Bl Cl) B = numel (K.map δ) ∧
      lastStride (linkPosB Al Bl Cl) B = (if tb then 1 else numel (U.map δ)) ∧
      lastStride (targetPos Cl Bl) B = (if tb then numel (K.map δ) else 1) := by
    rw [pB, tB]
    cases tb
    · obtain ⟨a1, a2, a3, a4, a5, a6⟩ := two_block_facts (y := K) (z := U) (by simpa using eB) dB rB.strides hBn hK0 hU0
      exact ⟨by simpa using a1, a5, by simpa using a3, by simpa using a4⟩
    · obtain ⟨a1, a2, a3, a4, a5, a6⟩ := two_block_facts (y := U) (z := K) (by simpa using eB) dB rB.strides hBn hU0 hK0
      exact ⟨by simpa using a2, a6, by simpa using a4, by simpa using a3⟩
  obtain ⟨fC1, gC1, gC2, gC3, gC4⟩ : (decide (firstPos (posInC Al Cl) ≠ 0) = tc) ∧
      productDims (posInC Al Cl) C = numel (T.map δ) ∧ productDims (posInC Bl Cl) C = numel (U.map δ) ∧
      lastStride (posInC Al Cl) C = (if tc then 1 else numel (U.map δ)) ∧
      lastStride (posInC Bl Cl) C = (if tc then numel (T.map δ) else 1) := by
    rw [cA, cB]
    cases tc
    · obtain ⟨a1, a2, a3, a4, a5, a6⟩ := two_block_facts (y := T) (z := U) (by simpa using eC) dC rC.strides hCn hT0 hU0
      exact ⟨by simpa using a1, a5, a6, by simpa using a3, by simpa using a4⟩
    · obtain ⟨a1, a2, a3, a4, a5, a6⟩ := two_block_facts (y := U) (z := T) (by simpa using eC) dC rC.strides hCn hU0 hT0
      exact ⟨by simpa using a2, a6, a5, by simpa using a4, by simpa using a3⟩
  unfold einsumGemm
  simp only [fA1, fB1, fC1, gA1, gA2, gA3, gB1, gB2, gB3, gC1, gC2, gC3, gC4]
  cases tc <;> cases ta <;> cases tb <;> rfl

end lawfree

variable [CommSemiring R] [BEq R] [LawfulBEq R] [Div R]

omit [BEq R] [LawfulBEq R] [Div R] in
theorem contraction_comm (δ : L → Nat) (ls Al Bl : List L) (fA fB : List Nat → R) (ρ : L → Nat) :
    contraction δ ls Al Bl fA fB ρ = contraction δ ls Bl Al fB fA ρ := by
  unfold contraction
  congr 1
  funext σ
  exact mul_comm _ _

omit [Div R] in
theorem einsumGemm_shape {δ : L → Nat} {T U K Al Bl Cl : List L} (ta tb tc : Bool) {A B C : Strided R}
    {fA fB fC : List Nat → R} (cp ab : R)
    (hAn : Al.Nodup) (hBn : Bl.Nodup) (hCn : Cl.Nodup) (hT0 : T ≠ []) (hU0 : U ≠ []) (hK0 : K ≠ [])
    (hlinks : links Al Bl Cl = K) (hTK : ∀ l ∈ T, l ∉ K) (hUK : ∀ l ∈ U, l ∉ K)
    (fCA : Cl.filter (· ∈ Al) = T) (fCB : Cl.filter (· ∈ Bl) = U)
    (fAC : Al.filter (· ∈ Cl) = T) (fBC : Bl.filter (· ∈ Cl) = U)
    (eA : Al = if ta then K ++ T else T ++ K) (eB : Bl = if tb then U ++ K else K ++ U)
    (eC : Cl = if tc then U ++ T else T ++ U)
    (dA : A.dims = Al.map δ) (dB : B.dims = Bl.map δ) (dC : C.dims = Cl.map δ)
    (rA : A.RowMajor) (rB : B.RowMajor) (rC : C.RowMajor)
    (hA : A.Represents fA) (hB : B.Represents fB) (hC : C.Represents fC)
    (hk : (∀ l ∈ K, δ l ≠ 0) ∨ ∃ l ∈ Cl, δ l = 0) :
    ∃ C', einsumGemm cp Cl C ab Al A Bl B = .ok C' ∧ C.Frame C' ∧
      ∀ ρ, InRange δ Cl ρ → C'.read (toIdx (Cl.map ρ))
        = .ok (cp * fC (Cl.map ρ) + ab * contraction δ K Al Bl fA fB ρ) := by
  have hK : K.Nodup := by rw [← hlinks]; exact links_nodup hAn
  rw [einsumGemm_eq (δ := δ) ta tb tc cp ab hAn hBn hCn hT0 hU0 hK0 hlinks fCA fCB fAC fBC eA eB eC dA dB dC
    rA rB rC]
  rcases hk with hk | ⟨z, hz, h0⟩
  rotate_left
  · have hz' : numel (T.map δ) = 0 ∨ numel (U.map δ) = 0 := by
      have : z ∈ T ∨ z ∈ U := by rw [eC] at hz; cases tc <;> simp at hz <;> tauto
      exact this.imp (fun h => numel_zero_mem (List.mem_map.2 ⟨z, h, h0⟩)) (fun h => numel_zero_mem (List.mem_map.2 ⟨z, h, h0⟩))
    refine ⟨C, ?_, .refl C, fun ρ hρ => absurd (hρ z hz) (by omega)⟩
    have e : ∀ (x y : Bool) (X Y : Strided R) (d0 d1 : Nat) (ss : List Nat), d0 = 0 ∨ d1 = 0 →
        gemm x y ab X Y cp (C.viewAs [d0, d1] ss) = .ok (C.viewAs [d0, d1] ss) := by
      intro x y X Y d0 d1 ss h
      have h' : (C.viewAs [d0, d1] ss).dim 0 = 0 ∨ (C.viewAs [d0, d1] ss).dim 1 = 0 ∨ (if x then X.dim 0 else X.dim 1) = 0 := by
        rcases h with rfl | rfl
        · exact .inl rfl
        · exact .inr (.inl rfl)
      unfold gemm vendorGemm
      simp only [if_pos h']
      rfl
    cases tc
    · simp only [Bool.false_eq_true, if_false, matView]
      rw [e _ _ _ _ _ _ _ hz']
      rfl
    · simp only [if_true, matView]
      rw [e _ _ _ _ _ _ _ hz'.symm]
      rfl
  cases tc
  · obtain ⟨r, h1, fr, h2⟩ := gemm_blocks (P := T) (Q := U) ta tb cp ab rA rB rC (by rw [dA, eA]) (by rw [dB, eB])
      (by rw [dC, eC]; rfl) hA hB hC hK hTK hUK hk
    simp only [← eA, ← eB] at h2
    simp only [Bool.false_eq_true, if_false] at eC
    rw [← eC] at h2
    refine ⟨_, ?_, fr, h2⟩
    simp only [Bool.false_eq_true, if_false, opView, h1, Outcome.ok_bind]
  · obtain ⟨r, h1, fr, h2⟩ := gemm_blocks (P := U) (Q := T) (!tb) (!ta) cp ab rB rA rC
      (by rw [dB, eB]; cases tb <;> rfl) (by rw [dA, eA]; cases ta <;> rfl)
      (by rw [dC, eC]; rfl) hB hA hC hK hUK hTK hk
    have e1 : (if (!tb) = true then K ++ U else U ++ K) = Bl := by rw [eB]; cases tb <;> rfl
    have e2 : (if (!ta) = true then T ++ K else K ++ T) = Al := by rw [eA]; cases ta <;> rfl
    simp only [if_true] at eC
    rw [← eC, e1, e2] at h2
    refine ⟨_, ?_, fr, ?_⟩
    rotate_left
    · intro ρ hρ
      rw [contraction_comm]
      exact h2 ρ hρ
    · simp only [if_true, opView, h1, Outcome.ok_bind]

/-- When gemv is selected and every label of `C` is in an operand. -/
theorem gemv_shape {Al Bl Cl : List L} (h : isGemvNormalPossible Al Bl Cl = true)
    (coverA : ∀ l ∈ Al, l ∈ Cl ∨ l ∈ Bl) (coverB : ∀ l ∈ Bl, l ∈ Cl ∨ l ∈ Al)
    (coverC : ∀ l ∈ Cl, l ∈ Al ∨ l ∈ Bl) :
    Al.Nodup ∧ Bl.Nodup ∧ Cl.Nodup ∧ Cl ≠ [] ∧ Bl ≠ [] ∧ links Al Bl Cl = Bl ∧ (∀ l ∈ Cl, l ∉ Bl) ∧
      Cl.filter (· ∈ Al) = Cl ∧ Al.filter (· ∈ Cl) = Cl ∧ (Al = Cl ++ Bl ∨ Al = Bl ++ Cl) := by
  simp only [isGemvNormalPossible, Bool.and_eq_true, decide_eq_true_eq] at h
  obtain ⟨⟨⟨⟨⟨⟨⟨cLA, cLB⟩, cTA⟩, sAB⟩, sCA⟩, _⟩, z⟩, hh⟩ := h
  obtain ⟨hA, hB, hC⟩ := noHadamard_iff.1 hh
  rw [linkPosA_eq hA] at cLA sAB
  rw [linkPosB_eq hA hB] at cLB sAB
  rw [targetPos_eq hC hA] at cTA sCA
  rw [posInC_eq hC] at sCA z
  have hBC : ∀ l ∈ Bl, l ∉ Cl := by
    have : Bl.filter (· ∈ Cl) = [] := by simpa using z
    intro l hl
    simpa using List.filter_eq_nil_iff.1 this l hl
  have hCB : ∀ l ∈ Cl, l ∉ Bl := fun l h1 h2 => hBC l h2 h1
  have hCA : ∀ l ∈ Cl, l ∈ Al := fun l hl => (coverC l hl).resolve_right (hCB l hl)
  have hf : Cl.filter (· ∈ Al) = Cl := List.filter_eq_self.2 fun l hl => by simpa using hCA l hl
  have hC0 : Cl ≠ [] := by
    have := (isSameOrdering_ne sCA).1
    rintro e; simp [e] at this
  have hK0 : links Al Bl Cl ≠ [] := by
    have := (isSameOrdering_ne sAB).1
    rintro e; simp [e] at this
  have hK : Bl = links Al Bl Cl := by
    apply one_block hB (block_of_contiguous (fun y hy => (mem_links.1 hy).2.1) cLB)
    intro a ha
    exact mem_links.2 ⟨(coverB a ha).resolve_left (hBC a ha), ha, hBC a ha⟩
  have hB0 : Bl ≠ [] := by rw [hK]; exact hK0
  rw [← hK] at cLA
  rw [hf] at cTA
  have sA : Al = Cl ++ Bl ∨ Al = Bl ++ Cl := by
    apply two_blocks hA (block_of_contiguous hCA cTA)
      (block_of_contiguous (fun y hy => (coverB y hy).resolve_left (hBC y hy)) cLA) hC0 hB0 hCB coverA
  have fA : Al.filter (· ∈ Cl) = Cl := by
    have f := filter_append_mem (P := Cl) (K := Bl) (Cl := Cl) (fun l h => h) hBC
    rcases sA with e | e
    · rw [← e] at f; exact f.1
    · rw [← e] at f; exact f.2
  exact ⟨hA, hB, hC, hC0, hB0, hK.symm, hCB, hf, fA, sA⟩

/-- The gemv branch is one call of `gemv` on a matrix and two vector views. -/
theorem einsumGemv_eq {R : Type} [Add R] [Mul R] [Zero R] [BEq R]
    {δ : L → Nat} {Al Bl Cl : List L} (ta : Bool) {A B C : Strided R} (cp ab : R)
    (hAn : Al.Nodup) (hBn : Bl.Nodup) (hCn : Cl.Nodup) (hC0 : Cl ≠ []) (hB0 : Bl ≠ [])
    (hlinks : links Al Bl Cl = Bl)
    (fCA : Cl.filter (· ∈ Al) = Cl) (fAC : Al.filter (· ∈ Cl) = Cl)
    (eA : Al = if ta then Bl ++ Cl else Cl ++ Bl)
    (dA : A.dims = Al.map δ) (dB : B.dims = Bl.map δ) (dC : C.dims = Cl.map δ)
    (rA : A.RowMajor) (rB : B.RowMajor) (rC : C.RowMajor) :
    einsumGemvNormal cp Cl C ab Al A Bl B =
      gemv ta ab (opView A δ Cl Bl ta) (vecView B (Bl.map δ)) cp (vecView C (Cl.map δ)) >>=
        fun r => .ok { C with data := r.data } := by
  have pA := linkPosA_eq (Bl := Bl) (Cl := Cl) hAn
  have pB := linkPosB_eq (Cl := Cl) hAn hBn
  have tA := targetPos_eq hCn hAn
  have cA := posInC_eq (Xl := Al) hCn
  rw [hlinks] at pA pB
  rw [fCA] at tA
  rw [fAC] at cA
  obtain ⟨fA1, gA1, gA2, gA3⟩ : (decide (firstPos (linkPosA Al Bl Cl) = 0) = ta) ∧
      productDims (linkPosA Al Bl Cl) A = numel (Bl.map δ) ∧
      lastStride (linkPosA Al Bl Cl) A = (if ta then numel (Cl.map δ) else 1) ∧
      lastStride (targetPos Cl Al) A = (if ta then 1 else numel (Bl.map δ)) := by
    rw [pA, tA]
    cases ta
    · obtain ⟨a1, a2, a3, a4, a5, a6⟩ := two_block_facts (y := Cl) (z := Bl) (by simpa using eA) dA rA.strides hAn hC0 hB0
      exact ⟨by simpa using a2, a6, by simpa using a4, by simpa using a3⟩
    · obtain ⟨a1, a2, a3, a4, a5, a6⟩ := two_block_facts (y := Bl) (z := Cl) (by simpa using eA) dA rA.strides hAn hB0 hC0
      exact ⟨by simpa using a1, a5, by simpa using a3, by simpa using a4⟩
  obtain ⟨_, gB1, gB2⟩ := one_block_facts dB rB.strides hBn hB0
  obtain ⟨_, gC1, gC2⟩ := one_block_facts dC rC.strides hCn hC0
  unfold einsumGemvNormal
  have fA2 : (firstPos (linkPosA Al Bl Cl) = 0) = (ta = true) := by
    rw [← fA1]; simp
  simp only [fA2, gA1, gA2, gA3]
  simp only [pB, cA, gB1, gB2, gC1, gC2]
  cases ta <;> rfl

omit [Div R] in
theorem einsumGemv_shape {δ : L → Nat} {Al Bl Cl : List L} (ta : Bool) {A B C : Strided R}
    {fA fB fC : List Nat → R} (cp ab : R)
    (hAn : Al.Nodup) (hBn : Bl.Nodup) (hCn : Cl.Nodup) (hC0 : Cl ≠ []) (hB0 : Bl ≠ [])
    (hlinks : links Al Bl Cl = Bl) (hCB : ∀ l ∈ Cl, l ∉ Bl)
    (fCA : Cl.filter (· ∈ Al) = Cl) (fAC : Al.filter (· ∈ Cl) = Cl)
    (eA : Al = if ta then Bl ++ Cl else Cl ++ Bl)
    (dA : A.dims = Al.map δ) (dB : B.dims = Bl.map δ) (dC : C.dims = Cl.map δ)
    (rA : A.RowMajor) (rB : B.RowMajor) (rC : C.RowMajor)
    (hA : A.Represents fA) (hB : B.Represents fB) (hC : C.Represents fC)
    (hk : (∀ l ∈ Bl, δ l ≠ 0) ∨ ∃ l ∈ Cl, δ l = 0) :
    ∃ C', einsumGemvNormal cp Cl C ab Al A Bl B = .ok C' ∧ C.Frame C' ∧
      ∀ ρ, InRange δ Cl ρ → C'.read (toIdx (Cl.map ρ))
        = .ok (cp * fC (Cl.map ρ) + ab * contraction δ Bl Al Bl fA fB ρ) := by
  rcases hk with hk | ⟨z, hz, h0⟩
  rotate_left
  · have hz' : numel (Cl.map δ) = 0 := numel_zero_mem (List.mem_map.2 ⟨z, hz, h0⟩)
    refine ⟨C, ?_, .refl C, fun ρ hρ => absurd (hρ z hz) (by omega)⟩
    rw [einsumGemv_eq (δ := δ) ta cp ab hAn hBn hCn hC0 hB0 hlinks fCA fAC eA dA dB dC rA rB rC]
    unfold gemv vendorGemv
    rw [if_pos (by cases ta <;> simp [opView, matView, Strided.viewAs, Strided.dim, hz'])]
    rfl
  obtain ⟨r, h1, fr, h2⟩ := gemv_blocks (P := Cl) (K := Bl) ta cp ab rA rB rC (by rw [dA, eA]) dB dC hA hB hC
    hBn hCB hk
  rw [← eA] at h2
  refine ⟨_, ?_, fr, h2⟩
  rw [einsumGemv_eq (δ := δ) ta cp ab hAn hBn hCn hC0 hB0 hlinks fCA fAC eA dA dB dC rA rB rC]
  simp only [opView, h1, Outcome.ok_bind]

/-- Dispatch.hpp 138–141: the second gemv test never succeeds: it asks the labels of `A` in `C` to be
in the same order and also to be none. -/
theorem gemvSwap_never (Al Bl Cl : List L) : isGemvSwapPossible Al Bl Cl = false := by
  by_contra h
  simp only [Bool.not_eq_false, isGemvSwapPossible, Bool.and_eq_true, decide_eq_true_eq] at h
  obtain ⟨⟨⟨⟨_, s⟩, _⟩, z⟩, _⟩ := h
  exact (isSameOrdering_ne s).2 (List.length_eq_zero_iff.1 z)

end Einsums
