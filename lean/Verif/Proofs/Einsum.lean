import Verif.Proofs.Labels
import Verif.Proofs.Tensor
import Mathlib.Data.List.Nodup
/-
The generic einsum algorithm computes the contraction.
-/
namespace Einsums
open Spec Model

variable {L : Type} [DecidableEq L]

/-- A loop of element updates at distinct indices. -/
theorem updateLoop {R β : Type} {C : Strided R} (w : C.WF) {f : List Nat → R} (hf : C.Represents f)
    (κ : β → List Nat) (step : Strided R → β → Outcome (Strided R)) (h : β → R → R) (l : List β)
    (hn : (l.map κ).Nodup)
    (hstep : ∀ b ∈ l, ∀ C1 f1, C1.dims = C.dims → C1.WF → C1.Represents f1 →
      ∃ C2, step C1 b = .ok C2 ∧ C1.Frame C2 ∧
        C2.Represents fun i => if i = κ b then h b (f1 (κ b)) else f1 i) :
    ∃ C' f', l.foldlM step C = .ok C' ∧ C.Frame C' ∧ C'.Represents f' ∧
      (∀ b ∈ l, f' (κ b) = h b (f (κ b))) ∧ (∀ i, i ∉ l.map κ → f' i = f i) := by
  induction l generalizing C f with
  | nil => exact ⟨C, f, rfl, Strided.Frame.refl _, hf, by simp, by simp⟩
  | cons b l ih =>
    obtain ⟨C1, h1, fr1, r1⟩ := hstep b (by simp) C f rfl w hf
    rw [List.map_cons, List.nodup_cons] at hn
    obtain ⟨C', f', h2, fr2, r2, k1, k2⟩ := ih (fr1.wf w) r1 hn.2 (by
      intro b' hb' C1' f1 hd
      exact hstep b' (by simp [hb']) C1' f1 (by rw [hd, fr1.dims]))
    refine ⟨C', f', ?_, fr1.trans fr2, r2, ?_, ?_⟩
    · rw [List.foldlM_cons, h1]; exact h2
    · intro b' hb'
      rcases List.mem_cons.1 hb' with e | e
      · subst e
        rw [k2 _ hn.1]; simp
      · rw [k1 b' e]
        have : κ b' ≠ κ b := fun e2 => hn.1 (e2 ▸ List.mem_map_of_mem e)
        simp [this]
    · intro i hi
      simp only [List.map_cons, List.mem_cons, not_or] at hi
      rw [k2 i hi.2, if_neg hi.1]

/-- The index of `C` addressed by a target combination. -/
def targetKey (Cl : List L) (tc : List Nat) : List Nat := Cl.map (bindEnv (unique Cl) tc fun _ => 0)

theorem targetKey_inBox {δ : L → Nat} {Cl : List L} {tc : List Nat} (htc : InBox tc ((unique Cl).map δ)) :
    InBox (targetKey Cl tc) (Cl.map δ) :=
  inBox_map fun _ hl => box_bindEnv_inBox htc (mem_unique.2 hl)

theorem bindEnv_inj {ρ0 : L → Nat} (ls : List L) (a b : List Nat) (hn : ls.Nodup) (h1 : a.length = ls.length)
    (h2 : b.length = ls.length) (h3 : ∀ l ∈ ls, bindEnv ls a ρ0 l = bindEnv ls b ρ0 l) : a = b := by
  induction ls generalizing a b with
  | nil => simp_all
  | cons m ls ih =>
    cases a with
    | nil => simp at h1
    | cons x a => cases b with
      | nil => simp at h2
      | cons y b =>
        have e1 := h3 m (by simp)
        simp only [bindEnv, if_true] at e1
        rw [ih a b hn.of_cons (by simpa using h1) (by simpa using h2), e1]
        intro l hl
        have := h3 l (by simp [hl])
        have hne : l ≠ m := by rintro rfl; exact (List.nodup_cons.1 hn).1 hl
        simpa [bindEnv, hne] using this

theorem targetKey_inj {Cl : List L} {a b : List Nat} (ha : a.length = (unique Cl).length)
    (hb : b.length = (unique Cl).length) (e : targetKey Cl a = targetKey Cl b) : a = b :=
  bindEnv_inj (unique Cl) a b (nodup_unique _) ha hb fun l hl =>
    (List.map_inj_left.1 e) l (mem_unique.1 hl)

theorem constructIndices_target {Cl : List L} {tc : List Nat} (h : tc.length = (unique Cl).length) :
    constructIndices (unique Cl) tc [] [] Cl = .ok (targetKey Cl tc) :=
  constructIndices_eq (Lu := ([] : List L)) (lc := []) h rfl _ Cl fun _ hl => .inl (mem_unique.2 hl)

theorem targetDims_eq (δ : L → Nat) (Cl : List L) :
    dimsFor (Cl.map δ) (uniqueFindTypeWithPosition (unique Cl) Cl) = (unique Cl).map δ :=
  dimsFor_uniqueFind δ _ _ fun _ hl => mem_unique.1 hl

section
variable {R : Type} [Add R] [Mul R] [Zero R] [BEq R]

theorem targetLoop_eq_foldlM (cp ab : R) (Cu Lu Cl Al Bl : List L) (A B : Strided R)
    (linkDims : List Nat) (tcs : List (List Nat)) (C : Strided R) :
    targetLoop cp ab Cu Lu Cl Al Bl A B linkDims tcs C
      = tcs.foldlM (fun C tc => targetStep cp ab Cu Lu Cl Al Bl A B linkDims tc C) C := by
  induction tcs generalizing C with
  | nil => rfl
  | cons tc tcs ih =>
    rw [List.foldlM_cons, targetLoop]
    congr 1
    funext C'
    exact ih C'

omit [BEq R] [Zero R] in
theorem linkLoop_eq (ab : R) (Cu : List L) (tc : List Nat) (Lu Al Bl : List L) (A B : Strided R)
    (lcs : List (List Nat)) (s : R) (v : List Nat → R)
    (h : ∀ lc ∈ lcs, ∃ ia ib a b, constructIndices Cu tc Lu lc Al = .ok ia ∧
      constructIndices Cu tc Lu lc Bl = .ok ib ∧ A.read (toIdx ia) = .ok a ∧ B.read (toIdx ib) = .ok b ∧
      v lc = ab * a * b) :
    linkLoop ab Cu tc Lu Al Bl A B lcs s = .ok (lcs.foldl (fun s lc => s + v lc) s) := by
  induction lcs generalizing s with
  | nil => rfl
  | cons lc lcs ih =>
    obtain ⟨ia, ib, a, b, h1, h2, h3, h4, h5⟩ := h lc (by simp)
    simp only [linkLoop, h1, h2, h3, h4, Outcome.ok_bind, List.foldl_cons]
    rw [ih _ (fun x hx => h x (by simp [hx])), h5]

/-- One term of the accumulation for the assignment `σ`. -/
def term (ab : R) (Al Bl : List L) (fA fB : List Nat → R) (σ : L → Nat) : R :=
  ab * fA (Al.map σ) * fB (Bl.map σ)

/-- The value `targetSum` computes for target values `ρ`. -/
def targetValue (ab : R) (δ : L → Nat) (Lu Al Bl : List L) (fA fB : List Nat → R) (ρ : L → Nat) : R :=
  if Lu = [] then term ab Al Bl fA fB ρ
  else (box (Lu.map δ)).foldl (fun s lc => s + term ab Al Bl fA fB (bindEnv Lu lc ρ)) 0

end

/-- Hypotheses shared by the generic theorems: shapes given by label dimensions, and every label of
an operand is in `C` or a link, links occurring once in `A`. -/
structure Compat (δ : L → Nat) (Al Bl Cl : List L) (A B C : Strided R) : Prop where
  dimsA : A.dims = Al.map δ
  dimsB : B.dims = Bl.map δ
  dimsC : C.dims = Cl.map δ
  coverA : ∀ l ∈ Al, l ∈ Cl ∨ l ∈ Bl
  coverB : ∀ l ∈ Bl, l ∈ Cl ∨ l ∈ Al
  once : ∀ l ∈ Al, l ∈ Bl → l ∉ Cl → Al.count l = 1

section
variable {R : Type} [Add R] [Mul R] [Zero R] [BEq R]

omit [BEq R] in
theorem targetSum_eq {δ : L → Nat} {Al Bl Cl : List L} {A B C : Strided R}
    (hc : Compat δ Al Bl Cl A B C) {fA fB : List Nat → R} (hA : A.Represents fA)
    (hB : B.Represents fB) (ab : R) {tc : List Nat} (htc : InBox tc ((unique Cl).map δ)) (ρ0 : L → Nat) :
    targetSum ab (unique Cl) tc (unique (links Al Bl Cl)) Al Bl A B
      (dimsFor A.dims (findTypeWithPosition (unique (links Al Bl Cl)) Al))
    = .ok (targetValue ab δ (unique (links Al Bl Cl)) Al Bl fA fB (bindEnv (unique Cl) tc ρ0)) := by
  generalize hLu : unique (links Al Bl Cl) = Lu
  have memLu : ∀ l, l ∈ Lu ↔ l ∈ Al ∧ l ∈ Bl ∧ l ∉ Cl := by
    intro l; rw [← hLu, mem_unique, mem_links]
  have hld : dimsFor A.dims (findTypeWithPosition Lu Al) = Lu.map δ := by
    rw [hc.dimsA]
    apply dimsFor_find_once
    intro l hl
    obtain ⟨h1, h2, h3⟩ := (memLu l).1 hl
    exact hc.once l h1 h2 h3
  have htl : tc.length = (unique Cl).length := by simpa using htc.length
  have hA' : ∀ l ∈ Al, l ∈ unique Cl ∨ l ∈ Lu := by
    intro l hl
    rw [mem_unique, memLu]
    by_cases h : l ∈ Cl
    · exact .inl h
    · exact .inr ⟨hl, (hc.coverA l hl).resolve_left h, h⟩
  have hB' : ∀ l ∈ Bl, l ∈ unique Cl ∨ l ∈ Lu := by
    intro l hl
    rw [mem_unique, memLu]
    by_cases h : l ∈ Cl
    · exact .inl h
    · exact .inr ⟨(hc.coverB l hl).resolve_left h, hl, h⟩
  -- an assignment built from in-range combinations is in range on all labels of A and B
  have hrange : ∀ lc, InBox lc (Lu.map δ) → ∀ l, l ∈ unique Cl ∨ l ∈ Lu →
      bindEnv (unique Cl) tc (bindEnv Lu lc ρ0) l < δ l := by
    intro lc hlc l hl
    by_cases h : l ∈ unique Cl
    · exact box_bindEnv_inBox htc h
    · rw [bindEnv_not_mem h]
      exact box_bindEnv_inBox hlc (hl.resolve_left h)
  -- the two orders of binding agree on labels of C and links
  have hswap : ∀ lc, lc.length = Lu.length → ∀ l, l ∈ unique Cl ∨ l ∈ Lu →
      bindEnv (unique Cl) tc (bindEnv Lu lc ρ0) l = bindEnv Lu lc (bindEnv (unique Cl) tc ρ0) l := by
    intro lc hlc l hl
    by_cases h : l ∈ Lu
    · have h' : l ∉ unique Cl := by rw [mem_unique]; exact ((memLu l).1 h).2.2
      rw [bindEnv_not_mem h', bindEnv_congr hlc.symm h]
    · rw [bindEnv_not_mem h]
      exact bindEnv_congr htl.symm (hl.resolve_right h)
  have hread : ∀ lc, InBox lc (Lu.map δ) →
      ∃ ia ib a b, constructIndices (unique Cl) tc Lu lc Al = .ok ia ∧
      constructIndices (unique Cl) tc Lu lc Bl = .ok ib ∧ A.read (toIdx ia) = .ok a ∧
      B.read (toIdx ib) = .ok b ∧
      term ab Al Bl fA fB (bindEnv Lu lc (bindEnv (unique Cl) tc ρ0)) = ab * a * b := by
    intro lc hlc
    have hll : lc.length = Lu.length := by simpa using hlc.length
    refine ⟨_, _, _, _, constructIndices_eq htl hll ρ0 Al hA', constructIndices_eq htl hll ρ0 Bl hB',
      hA _ ?_, hB _ ?_, ?_⟩
    · rw [hc.dimsA]; exact inBox_map fun l hl => hrange lc hlc l (hA' l hl)
    · rw [hc.dimsB]; exact inBox_map fun l hl => hrange lc hlc l (hB' l hl)
    · unfold term
      rw [List.map_congr_left fun l hl => (hswap lc hll l (hA' l hl)).symm,
        List.map_congr_left fun l hl => (hswap lc hll l (hB' l hl)).symm]
  unfold targetSum targetValue
  rw [hld]
  by_cases he : Lu = []
  · subst he
    simp only [List.map_nil, List.length_nil, ne_eq, not_true_eq_false, if_false, if_true]
    obtain ⟨ia, ib, a, b, h1, h2, h3, h4, h5⟩ := hread [] trivial
    rw [h1, h2]
    simp only [Outcome.ok_bind, h3, h4]
    rw [show bindEnv ([] : List L) ([] : List Nat) (bindEnv (unique Cl) tc ρ0) = bindEnv (unique Cl) tc ρ0 from rfl]
      at h5
    rw [h5]; rfl
  · have : (Lu.map δ).length ≠ 0 := by simpa using he
    rw [if_pos this, if_neg he, cartesian_eq_box]
    apply linkLoop_eq
    intro lc hlc
    exact hread lc (mem_box.1 hlc)

/-- The generic algorithm without algebraic laws: every target element becomes `updateTarget` of the
accumulated value and its old content; other elements are unchanged. -/
theorem einsumGeneric_lawfree {δ : L → Nat} {Al Bl Cl : List L} {A B C : Strided R}
    (hc : Compat δ Al Bl Cl A B C) {fA fB fC : List Nat → R} (hA : A.Represents fA)
    (hB : B.Represents fB) (w : C.WF) (hC : C.Represents fC) (cp ab : R) :
    ∃ C' f', einsumGeneric cp Cl C ab Al A Bl B = .ok C' ∧ C.Frame C' ∧ C'.Represents f' ∧
      (∀ ρ, InRange δ Cl ρ → f' (Cl.map ρ) =
        updateTarget cp (targetValue ab δ (unique (links Al Bl Cl)) Al Bl fA fB ρ) (fC (Cl.map ρ))) ∧
      (∀ i, (∀ ρ, InRange δ Cl ρ → i ≠ Cl.map ρ) → f' i = fC i) := by
  have htd : dimsFor C.dims (uniqueFindTypeWithPosition (unique Cl) Cl) = (unique Cl).map δ := by
    rw [hc.dimsC]
    exact dimsFor_uniqueFind δ _ _ fun l hl => mem_unique.1 hl
  have hok : labelsOk (unique Cl) (unique (links Al Bl Cl)) Al Bl = true := by
    simp only [labelsOk, List.all_eq_true, List.mem_append, Bool.or_eq_true, decide_eq_true_eq,
      mem_unique, mem_links]
    intro l hl
    by_cases h : l ∈ Cl
    · exact .inl h
    · right
      rcases hl with hl | hl
      · exact ⟨hl, (hc.coverA l hl).resolve_left h, h⟩
      · exact ⟨(hc.coverB l hl).resolve_left h, hl, h⟩
  let ρ0 : L → Nat := fun _ => 0
  let κ : List Nat → List Nat := targetKey Cl
  have hκ : ∀ tc, InBox tc ((unique Cl).map δ) → InBox (κ tc) C.dims := by
    intro tc htc
    rw [hc.dimsC]
    exact targetKey_inBox htc
  have hnd : ((box ((unique Cl).map δ)).map κ).Nodup := by
    rw [List.nodup_map_iff_inj_on (nodup_box _)]
    intro a ha b hb e
    exact targetKey_inj (by simpa using (mem_box.1 ha).length) (by simpa using (mem_box.1 hb).length) e
  have hloop := updateLoop w hC κ
    (fun C tc => targetStep cp ab (unique Cl) (unique (links Al Bl Cl)) Cl Al Bl A B
      (dimsFor A.dims (findTypeWithPosition (unique (links Al Bl Cl)) Al)) tc C)
    (fun tc old => updateTarget cp (targetValue ab δ (unique (links Al Bl Cl)) Al Bl fA fB
      (bindEnv (unique Cl) tc ρ0)) old)
    (box ((unique Cl).map δ)) hnd (by
      intro tc htc C1 f1 hd w1 hf1
      have htc := mem_box.1 htc
      have hbx := hκ tc htc
      rw [← hd] at hbx
      have hci : constructIndices (unique Cl) tc [] [] Cl = .ok (κ tc) :=
        constructIndices_eq (Lu := ([] : List L)) (lc := []) (by simpa using htc.length) rfl ρ0 Cl fun l hl => .inl (mem_unique.2 hl)
      obtain ⟨C2, h1, fr, r⟩ := write_represents w1 hf1 hbx (updateTarget cp
        (targetValue ab δ (unique (links Al Bl Cl)) Al Bl fA fB (bindEnv (unique Cl) tc ρ0)) (f1 (κ tc)))
      refine ⟨C2, ?_, fr, r⟩
      unfold targetStep
      rw [hci, targetSum_eq hc hA hB ab htc ρ0]
      simp only [Outcome.ok_bind]
      rw [hf1 _ hbx]
      exact h1)
  obtain ⟨C', f', h1, h2, h3, h4, h5⟩ := hloop
  have key : ∀ ρ, InRange δ Cl ρ → InBox ((unique Cl).map ρ) ((unique Cl).map δ) ∧
      κ ((unique Cl).map ρ) = Cl.map ρ := by
    intro ρ hρ
    refine ⟨inBox_map fun l hl => hρ l (mem_unique.1 hl), ?_⟩
    apply List.map_congr_left
    intro l hl
    rw [bindEnv_map, if_pos (mem_unique.2 hl)]
  refine ⟨C', f', ?_, h2, h3, ?_, ?_⟩
  · unfold einsumGeneric
    simp only [hok, Bool.true_eq_false, if_false]
    rw [targetLoop_eq_foldlM, htd, cartesian_eq_box]
    exact h1
  · intro ρ hρ
    obtain ⟨k1, k2⟩ := key ρ hρ
    have := h4 _ (mem_box.2 k1)
    rw [k2] at this
    rw [this]
    congr 1
    -- the accumulated value depends only on the labels of C (and the links)
    have hdep : ∀ σ σ' : L → Nat, (∀ l ∈ Cl, σ l = σ' l) →
        targetValue ab δ (unique (links Al Bl Cl)) Al Bl fA fB σ
          = targetValue ab δ (unique (links Al Bl Cl)) Al Bl fA fB σ' := by
      intro σ σ' hσ
      have hterm : ∀ lc, lc.length = (unique (links Al Bl Cl)).length →
          term ab Al Bl fA fB (bindEnv (unique (links Al Bl Cl)) lc σ)
            = term ab Al Bl fA fB (bindEnv (unique (links Al Bl Cl)) lc σ') := by
        intro lc hlc
        have hl : ∀ l, (l ∈ Cl ∨ l ∈ unique (links Al Bl Cl)) →
            bindEnv (unique (links Al Bl Cl)) lc σ l = bindEnv (unique (links Al Bl Cl)) lc σ' l := by
          intro l hl
          by_cases h : l ∈ unique (links Al Bl Cl)
          · exact bindEnv_congr hlc.symm h
          · rw [bindEnv_not_mem h, bindEnv_not_mem h]; exact hσ l (hl.resolve_right h)
        unfold term
        congr 1
        · congr 1
          congr 1
          apply List.map_congr_left
          intro l hm
          apply hl
          rw [mem_unique, mem_links]
          by_cases h : l ∈ Cl
          · exact .inl h
          · exact .inr ⟨hm, (hc.coverA l hm).resolve_left h, h⟩
        · congr 1
          apply List.map_congr_left
          intro l hm
          apply hl
          rw [mem_unique, mem_links]
          by_cases h : l ∈ Cl
          · exact .inl h
          · exact .inr ⟨(hc.coverB l hm).resolve_left h, hm, h⟩
      unfold targetValue
      split
      · rename_i h
        have := hterm [] (by rw [h]; rfl)
        rw [h] at this
        exact this
      · apply List.foldl_ext
        intro s lc hlc
        rw [hterm lc (by simpa using (mem_box.1 hlc).length)]
    apply hdep
    intro l hl
    rw [bindEnv_map, if_pos (mem_unique.2 hl)]
  · intro i hi
    apply h5
    intro hm
    obtain ⟨tc, htc, e⟩ := List.mem_map.1 hm
    have htc := mem_box.1 htc
    exact hi (bindEnv (unique Cl) tc ρ0)
      (fun l hl => box_bindEnv_inBox htc (mem_unique.2 hl)) e.symm

end

section
variable {R : Type} [CommSemiring R]

theorem foldl_add_eq {β : Type} (l : List β) (v : β → R) (s : R) :
    l.foldl (fun s x => s + v x) s = s + (l.map v).sum := by
  induction l generalizing s with
  | nil => simp
  | cons x l ih => simp [ih, add_assoc]

theorem targetValue_eq (ab : R) (δ : L → Nat) {Al Bl Cl ls : List L} (hls : Contracted Al Bl Cl ls)
    (fA fB : List Nat → R) (ρ : L → Nat) :
    targetValue ab δ (unique (links Al Bl Cl)) Al Bl fA fB ρ = ab * contraction δ ls Al Bl fA fB ρ := by
  have e1 : contraction δ ls Al Bl fA fB ρ
      = contraction δ (unique (links Al Bl Cl)) Al Bl fA fB ρ :=
    (sumOver_perm δ hls.perm (nodup_unique _) ρ _).symm
  rw [e1]
  unfold contraction targetValue
  rw [← sumOver_mul]
  split
  · rename_i h
    rw [h]; simp [sumOver, term, mul_assoc]
  · rw [sumOver_eq δ _ (nodup_unique _), foldl_add_eq, zero_add]
    simp [term, mul_assoc]

theorem updateTarget_eq [BEq R] [LawfulBEq R] (cp s old : R) : updateTarget cp s old = cp * old + s := by
  unfold updateTarget
  simp only
  split
  · rename_i h
    have := eq_of_beq h
    simp [this]
  · rw [mul_comm]

end

end Einsums
