import Verif.Proofs.PyGeneric
import Verif.Proofs.Decomposition
import Verif.Spec.PyEinsum
/-
The dot-product and element-wise plans, and the choice of a plan.
-/
namespace Einsums
open Spec Model

section
variable {R : Type} [CommSemiring R] [BEq R] [LawfulBEq R]

omit [BEq R] [LawfulBEq R] in
theorem dot_parts (g : Nat → Outcome R) (v : Nat → R) (parts : List (List Nat))
    (h : ∀ p ∈ parts, ∀ s ∈ p, g s = .ok (v s)) (c : R) :
    parts.foldlM (fun c part => do
        let t ← sumLoop g part 0
        return c + t) c = .ok (c + (parts.flatten.map v).sum) := by
  induction parts generalizing c with
  | nil => simp
  | cons p parts ih =>
    rw [List.foldlM_cons, sumLoop_eq v (h p (by simp)), foldl_add_sum, zero_add]
    simp only [Outcome.ok_bind]
    have := ih (fun q hq => h q (by simp [hq])) (c + (p.map v).sum)
    rw [List.flatten_cons, List.map_append, List.sum_append, ← add_assoc]
    exact this

theorem pyExecDot_ok {A B C : Strided R} {fA fB fC : List Nat → R} (cp ab : R)
    (h0 : A.dims ≠ []) (hd : B.dims = A.dims) (hA : A.Represents fA) (hB : B.Represents fB)
    (dC : C.dims = []) (w : C.WF) (hC : C.Represents fC)
    {parts : List (List Nat)} (hp : parts.flatten.Perm (List.range (pyDotCount A.dims))) :
    ∃ C', pyExecDot parts cp C ab A B = .ok C' ∧ C.Frame C' ∧
      C'.Represents fun i => cp * fC i + ab * ((box A.dims).map fun i => fA i * fB i).sum := by
  have hc : pyDotCount A.dims = numel A.dims := head_mul_stride h0
  rw [hc] at hp
  have hget : ∀ s < numel A.dims,
      (do
        let u := pyDivMod s (dimsToStrides A.dims).2
        let x ← memGet A.data (A.off + pyAddr u A.strides)
        let y ← memGet B.data (B.off + pyAddr u B.strides)
        return ab * x * y : Outcome R)
      = .ok (ab * fA (unflat A.dims s) * fB (unflat A.dims s)) := by
    intro s hs
    have hb := unflat_inBox hs
    simp only [pyDivMod_unflat, pyAddr_eq]
    have e1 : memGet A.data (A.off + dot (unflat A.dims s) A.strides) = .ok (fA (unflat A.dims s)) := by
      unfold memGet; rw [represents_get hA hb]
    have e2 : memGet B.data (B.off + dot (unflat A.dims s) B.strides) = .ok (fB (unflat A.dims s)) := by
      unfold memGet; rw [represents_get hB (by rw [hd]; exact hb)]
    rw [e1, e2]; rfl
  have hb0 : InBox [] C.dims := by rw [dC]; trivial
  have hc0 := represents_get hC hb0
  simp only [dot, Nat.add_zero] at hc0
  have hval : ((parts.flatten.map fun s => ab * fA (unflat A.dims s) * fB (unflat A.dims s))).sum
      = ab * ((box A.dims).map fun i => fA i * fB i).sum := by
    rw [(hp.map _).sum_eq, ← map_unflat_range, List.map_map, ← List.sum_map_mul_left]
    congr 1
    apply List.map_congr_left
    intro s _
    simp only [Function.comp_apply, mul_assoc]
  have hsum := dot_parts _ (fun s => ab * fA (unflat A.dims s) * fB (unflat A.dims s)) parts (by
    intro p hp' s hs
    exact hget s (List.mem_range.1 (hp.mem_iff.1 (List.mem_flatten.2 ⟨p, hp', hs⟩))))
    (if cp == 0 then 0 else fC [] * cp)
  have hlt : C.off < C.data.length := by
    have := w.bound [] hb0
    simpa [dot] using this
  obtain ⟨fr, rp⟩ := frame_of_mem w (d := C.data.set C.off
      (cp * fC [] + ab * ((box A.dims).map fun i => fA i * fB i).sum))
    (f' := fun i => cp * fC i + ab * ((box A.dims).map fun i => fA i * fB i).sum) (by simp)
    (by
      intro j hj
      rw [dC] at hj
      have : j = [] := by cases j with
        | nil => rfl
        | cons _ _ => exact hj.elim
      subst this
      simp only [dot, Nat.add_zero]
      rw [List.getElem?_set_self hlt])
    (by
      intro p hp'
      rw [List.getElem?_set_ne]
      intro e
      exact hp' [] hb0 (by simp [dot, e]))
  refine ⟨_, ?_, fr, rp⟩
  unfold pyExecDot
  rw [if_neg (by simp [hd])]
  cases hA' : A.dims with
  | nil => exact (h0 hA').elim
  | cons d ds =>
    rw [hA'] at hsum hval
    simp only
    unfold memUpd
    rw [hc0]
    simp only
    rw [hsum, hval]
    simp only [Outcome.ok_bind]
    congr 3
    congr 1
    split
    · rename_i h; rw [eq_of_beq h, zero_mul]
    · rw [mul_comm]

theorem pyExecDirect_ok {A B C : Strided R} {fA fB fC : List Nat → R} (cp ab : R) {b : PyBase}
    (hnum : A.dims.length = b.numInds) (dB : B.dims = A.dims) (dC : C.dims = A.dims)
    (hA : A.Represents fA) (hB : B.Represents fB) (w : C.WF) (hC : C.Represents fC) :
    ∃ C', pyExecDirect b cp C ab A B = .ok C' ∧ C.Frame C' ∧
      C'.Represents fun i => cp * fC i + ab * (fA i * fB i) := by
  obtain ⟨m, h1, h2, h3, h4⟩ := memLoop (List.range (numel A.dims))
    (fun s => C.off + dot (unflat A.dims s) C.strides)
    (fun s old => .ok (if cp == 0 then ab * fA (unflat A.dims s) * fB (unflat A.dims s)
      else cp * old + ab * fA (unflat A.dims s) * fB (unflat A.dims s)))
    (fun s old => if cp == 0 then ab * fA (unflat A.dims s) * fB (unflat A.dims s)
      else cp * old + ab * fA (unflat A.dims s) * fB (unflat A.dims s)) C.data
    (by
      rw [List.nodup_map_iff_inj_on List.nodup_range]
      intro x hx y hy e
      have hx := List.mem_range.1 hx
      have hy := List.mem_range.1 hy
      have := w.inj _ _ (by rw [dC]; exact unflat_inBox hx) (by rw [dC]; exact unflat_inBox hy) (by omega)
      rw [← rowMajor_unflat hx, ← rowMajor_unflat hy, this])
    (by
      intro s hs
      exact w.bound _ (by rw [dC]; exact unflat_inBox (List.mem_range.1 hs)))
    (fun _ _ _ _ => rfl)
  obtain ⟨fr, rp⟩ := frame_of_mem w h2 (f' := fun i => cp * fC i + ab * (fA i * fB i)) (by
      intro j hj
      have hj' := hj
      rw [dC] at hj'
      have := h3 (rowMajor j A.dims) (List.mem_range.2 (rowMajor_lt hj'))
      simp only [unflat_rowMajor hj'] at this
      rw [this, represents_get hC hj]
      simp only [Option.map_some, Option.some.injEq]
      split
      · rename_i h; rw [eq_of_beq h, zero_mul, zero_add, mul_assoc]
      · rw [mul_assoc])
    (by
      intro p hp
      apply h4
      intro hm
      obtain ⟨s, hs, rfl⟩ := List.mem_map.1 hm
      exact hp _ (by rw [dC]; exact unflat_inBox (List.mem_range.1 hs)) rfl)
  refine ⟨_, ?_, fr, rp⟩
  unfold pyExecDirect
  rw [if_neg (by simp [dB, dC, hnum]), dimsToStrides_fst]
  simp only
  have : ∀ (mem : List R) (s : Nat), s ∈ List.range (numel A.dims) → (do
      let x ← memGet A.data (A.off + pyAddr (pyDivMod s (dimsToStrides A.dims).2) A.strides)
      let y ← memGet B.data (B.off + pyAddr (pyDivMod s (dimsToStrides A.dims).2) B.strides)
      memUpd mem (C.off + pyAddr (pyDivMod s (dimsToStrides A.dims).2) C.strides) fun old =>
        .ok (if cp == 0 then ab * x * y else cp * old + ab * x * y))
      = memUpd mem (C.off + dot (unflat A.dims s) C.strides)
        (fun old => .ok (if cp == 0 then ab * fA (unflat A.dims s) * fB (unflat A.dims s)
          else cp * old + ab * fA (unflat A.dims s) * fB (unflat A.dims s))) := by
    intro mem s hs
    have hb := unflat_inBox (List.mem_range.1 hs)
    simp only [pyDivMod_unflat, pyAddr_eq]
    have e1 : memGet A.data (A.off + dot (unflat A.dims s) A.strides) = .ok (fA (unflat A.dims s)) := by
      unfold memGet; rw [represents_get hA hb]
    have e2 : memGet B.data (B.off + dot (unflat A.dims s) B.strides) = .ok (fB (unflat A.dims s)) := by
      unfold memGet; rw [represents_get hB (by rw [dB]; exact hb)]
    rw [e1, e2]; rfl
  rw [foldlM_congr_mem this, h1]
  rfl

end

/-- One thread runs in its own order. -/
theorem schedule_single {t s : List α} (h : Schedule [t] s) : s = t := by
  generalize hts : [t] = ts at h
  induction h generalizing t with
  | done h => subst hts; exact (h t (by simp)).symm
  | @step ts i x xs s hi _ ih =>
    subst hts
    cases i with
    | zero =>
      simp only [List.getElem?_cons_zero, Option.some.injEq] at hi
      rw [hi, ih (t := xs) rfl]
    | succ i => simp at hi

theorem pyBase_numInds_self {L : Type} [DecidableEq L] {Al : List L} (h : Al.Nodup) :
    (pyBase Al Al Al).numInds = Al.length := by
  simp only [pyBase, pyUnique_eq]
  apply List.Perm.length_eq
  rw [List.perm_ext_iff_of_nodup (nodup_unique _) h]
  intro l
  rw [mem_unique]; simp

/-! ### Which plan -/

section
variable {L : Type} [DecidableEq L]

theorem plan_dot {Al : List L} (h : Al.Nodup) : compilePlan ([] : List L) Al Al = .ok .dot := by
  unfold compilePlan
  rw [pyIsDot_eq]
  have : isDotProduct Al Al [] = true := by
    have := noHadamard_iff.2 ⟨h, h, List.nodup_nil⟩
    simp [isDotProduct, this]
  simp [this]

theorem plan_direct {Al : List L} (h : Al.Nodup) (h0 : Al ≠ []) : compilePlan Al Al Al = .ok .direct := by
  unfold compilePlan
  rw [pyIsDot_eq, pyIsElementWise_eq]
  have e1 : isDotProduct Al Al Al = false := by simp [isDotProduct, h0]
  have e2 : isElementWise Al Al Al = true := by
    have := noHadamard_iff.2 ⟨h, h, h⟩
    simp [isElementWise, this]
  simp [e1, e2]

omit [DecidableEq L] in
theorem pyMaxPos_ok {ps : List (L × Nat)} (h : ps ≠ []) : ∃ n, pyMaxPos ps = .ok n := by
  cases ps with
  | nil => exact (h rfl).elim
  | cons p ps => exact ⟨_, rfl⟩

omit [DecidableEq L] in
theorem pyFirstPos_ok {ps : List (L × Nat)} (h : ps ≠ []) : ∃ n, pyFirstPos ps = .ok n := by
  cases ps with
  | nil => exact (h rfl).elim
  | cons p ps => exact ⟨_, rfl⟩

theorem pySameOrdering_ne {x y : List (L × Nat)} (h : pySameOrdering x y = true) : x ≠ [] ∧ y ≠ [] := by
  unfold pySameOrdering at h
  constructor
  · rintro rfl
    cases y <;> simp at h
  · rintro rfl
    cases x <;> simp at h

theorem pyFind_ne {s t : List L} (h : pyFind s t ≠ []) : ∃ l, l ∈ s ∧ l ∈ t := by
  obtain ⟨p, hp⟩ := List.exists_mem_of_ne_nil _ h
  unfold pyFind at hp
  obtain ⟨c, hc, hp⟩ := List.mem_flatMap.1 hp
  obtain ⟨d, hd, he⟩ := List.mem_filterMap.1 hp
  split at he
  · rename_i e
    exact ⟨c, hc, by rw [e]; exact (List.mem_zipIdx hd).2.2 ▸ List.getElem_mem _⟩
  · simp at he

theorem pyFind_of_mem {s t : List L} {l : L} (h1 : l ∈ s) (h2 : l ∈ t) : pyFind s t ≠ [] := by
  intro h
  obtain ⟨k, hk⟩ := List.mem_iff_getElem?.1 h2
  have : (l, k) ∈ pyFind s t := by
    unfold pyFind
    refine List.mem_flatMap.2 ⟨l, h1, List.mem_filterMap.2 ⟨(l, k), ?_, by simp⟩⟩
    rw [List.mem_zipIdx_iff_getElem?]
    exact hk
  rw [h] at this
  simp at this

theorem pyGemvPlan_ok {lu Xl Yl Cl : List L} (sw : Bool) (h1 : pyFind (pyUnique Cl) Xl ≠ [])
    (h2 : pyFind lu Xl ≠ []) (h3 : pyFind lu Yl ≠ []) : ∃ p, pyGemvPlan lu Xl Yl Cl sw = .ok p := by
  obtain ⟨l, hl, _⟩ := pyFind_ne h1
  have h4 : pyFind (pyUnique Cl) Cl ≠ [] :=
    pyFind_of_mem hl (by rw [pyUnique_eq] at hl; exact mem_unique.1 hl)
  obtain ⟨a, ha⟩ := pyMaxPos_ok h1
  obtain ⟨b, hb⟩ := pyMaxPos_ok h2
  obtain ⟨c, hc⟩ := pyMaxPos_ok h3
  obtain ⟨d, hd⟩ := pyMaxPos_ok h4
  obtain ⟨e, he⟩ := pyFirstPos_ok h2
  unfold pyGemvPlan
  simp only [ha, hb, hc, hd, he, Outcome.ok_bind]
  exact ⟨_, rfl⟩

/-- Compilation succeeds as soon as a label of `A` occurs in `C`, or the operands share one. -/
theorem compile_ok {Al Bl Cl : List L} (h : (∃ l ∈ Al, l ∈ Cl) ∨ ∃ l ∈ Al, l ∈ Bl) :
    ∃ p, compilePlan Cl Al Bl = .ok p := by
  unfold compilePlan
  simp only
  split
  · exact ⟨_, rfl⟩
  split
  · exact ⟨_, rfl⟩
  split
  · rename_i ho
    have : ∃ l ∈ Al, l ∈ Cl := by
      rcases h with h | ⟨l, h1, h2⟩
      · exact h
      · exfalso
        simp only [pyIsOuter, Bool.and_eq_true, decide_eq_true_eq] at ho
        have hm := mem_pyIntersect.2 ⟨h1, h2⟩
        rw [List.length_eq_zero_iff.1 ho.1.1.1] at hm
        simp at hm
    obtain ⟨l, h1, h2⟩ := this
    obtain ⟨n, hn⟩ := pyFirstPos_ok (pyFind_of_mem h1 h2)
    rw [hn]
    exact ⟨_, rfl⟩
  split
  · split
    · rename_i hg
      simp only [pyIsGemvBA, Bool.and_eq_true] at hg
      obtain ⟨⟨⟨⟨⟨⟨_, s1⟩, s2⟩, _⟩, _⟩, _⟩, _⟩ := hg
      exact pyGemvPlan_ok _ (pySameOrdering_ne s2).1 (pySameOrdering_ne s1).2 (pySameOrdering_ne s1).1
    · rename_i hg hb
      have : pyIsGemvAB Al Bl Cl = true := by
        cases h1 : pyIsGemvAB Al Bl Cl with
        | true => rfl
        | false => simp [h1] at hg hb; simp [hg] at hb
      simp only [pyIsGemvAB, Bool.and_eq_true] at this
      obtain ⟨⟨⟨⟨⟨_, s1⟩, s2⟩, _⟩, _⟩, _⟩ := this
      exact pyGemvPlan_ok _ (pySameOrdering_ne s2).1 (pySameOrdering_ne s1).1 (pySameOrdering_ne s1).2
  split
  · rename_i hg
    simp only [pyIsGemm, Bool.and_eq_true] at hg
    obtain ⟨⟨⟨⟨_, s1⟩, s2⟩, s3⟩, _⟩ := hg
    obtain ⟨a1, h1⟩ := pyMaxPos_ok (pySameOrdering_ne s2).1
    obtain ⟨a2, h2⟩ := pyMaxPos_ok (pySameOrdering_ne s1).1
    obtain ⟨a3, h3⟩ := pyMaxPos_ok (pySameOrdering_ne s3).1
    obtain ⟨a4, h4⟩ := pyMaxPos_ok (pySameOrdering_ne s1).2
    obtain ⟨a5, h5⟩ := pyMaxPos_ok (pySameOrdering_ne s2).2
    obtain ⟨a6, h6⟩ := pyMaxPos_ok (pySameOrdering_ne s3).2
    obtain ⟨a7, h7⟩ := pyFirstPos_ok (pySameOrdering_ne s1).1
    obtain ⟨a8, h8⟩ := pyFirstPos_ok (pySameOrdering_ne s1).2
    obtain ⟨a9, h9⟩ := pyFirstPos_ok (pySameOrdering_ne s2).2
    unfold pyGemmPlan
    simp only [h1, h2, h3, h4, h5, h6, h7, h8, h9, Outcome.ok_bind]
    exact ⟨_, rfl⟩
  · exact ⟨_, rfl⟩

/-- An operand `A` all of whose labels are summed over alone: the compiler reads the first of no positions. -/
theorem compile_undefined {Al Bl : List L} (hn : (Al ++ Bl).Nodup) (hne : Al ≠ [] ∨ Bl ≠ []) :
    compilePlan Bl Al Bl = .ub "deque index out of range" := by
  obtain ⟨nA, nB, dAB⟩ := List.nodup_append.1 hn
  have hAB : ∀ l ∈ Al, l ∉ Bl := fun l h1 h2 => dAB l h1 l h2 rfl
  have hne' : Al ≠ Bl := by
    intro e
    subst e
    cases Al with
    | nil => simp at hne
    | cons a Al => exact hAB a (by simp) (by simp)
  have q1 : isDotProduct Al Bl Bl = false := by simp [isDotProduct, hne']
  have q2 : isElementWise Al Bl Bl = false := by
    unfold isElementWise
    rw [decide_eq_false (Ne.symm hne')]; simp
  have fBA : Bl.filter (fun l => decide (l ∈ Al)) = [] :=
    List.filter_eq_nil_iff.2 fun l hl => by simpa using fun h => hAB l h hl
  have fBB : Bl.filter (fun l => decide (l ∈ Bl)) = Bl := List.filter_eq_self.2 (by simp)
  have fAB : Al.filter (fun l => decide (l ∈ Bl)) = [] := List.filter_eq_nil_iff.2 (by simpa using hAB)
  have tA := targetPos_eq nB nA
  have tB := targetPos_eq nB nB
  rw [fBA] at tA
  rw [fBB] at tB
  have q3 : isOuterProduct Al Bl Bl = true := by
    have h1 : intersect Al Bl = [] := fAB
    have h2 : noHadamard Al Bl Bl = true := noHadamard_iff.2 ⟨nA, nB, nB⟩
    have h3 := contiguous_block (p := []) (ys := Bl) (q := []) (by simpa using nB)
    simp only [List.nil_append, List.append_nil] at h3
    simp only [isOuterProduct, h1, h2, tA, tB, h3, List.map_nil]
    rfl
  have cA := posInC_eq (Xl := Al) nB
  rw [fAB] at cA
  unfold compilePlan
  simp only [pyIsDot_eq, pyIsElementWise_eq, pyIsOuter_eq, q1, q2, q3, Bool.false_eq_true, if_false, if_true]
  have : pyFind Al Bl = [] := by
    rw [pyFind_eq]; exact cA
  rw [this]; rfl

end
end Einsums
