import Verif.Proofs.Einsum
import Verif.Proofs.Schedule
import Verif.Model.EinsumPar
/-
Every interleaving of the parallel target loop gives the sequential result.
-/
namespace Einsums
open Spec Model

variable {L : Type} [DecidableEq L] {R : Type} [Add R] [Mul R] [Zero R] [BEq R]

/-- Effect of one memory operation of an iteration on its own (target element, register). -/
def localStep (cp sum : R) (s : R × R) : MicroOp → R × R
  | .zeroStore => (if cp == 0 then 0 else s.1, s.2)
  | .load => (s.1, s.1)
  | .mulStore => (s.2 * cp, s.2)
  | .addStore => (s.2 + sum, s.2)

omit [Add R] [Mul R] [Zero R] [BEq R] in
/-- Two states framed by the same `C` with the same elements are equal. -/
theorem frame_ext {C C1 C2 : Strided R} {f1 f2 : List Nat → R} (w : C.WF) (fr1 : C.Frame C1)
    (fr2 : C.Frame C2) (h1 : C1.Represents f1) (h2 : C2.Represents f2)
    (h : ∀ i, InBox i C.dims → f1 i = f2 i) : C1 = C2 := by
  have hd : C1.data = C2.data := by
    apply List.ext_getElem?
    intro p
    by_cases hp : ∃ j, InBox j C.dims ∧ p = C.off + dot j C.strides
    · obtain ⟨j, hj, rfl⟩ := hp
      have w1 := fr1.wf w
      have w2 := fr2.wf w
      have e1 := (represents_iff w1).1 h1 j (by rw [fr1.dims]; exact hj)
      have e2 := (represents_iff w2).1 h2 j (by rw [fr2.dims]; exact hj)
      rw [fr1.off, fr1.strides] at e1
      rw [fr2.off, fr2.strides] at e2
      rw [e1, e2, h j hj]
    · have : ∀ j, InBox j C.dims → p ≠ C.off + dot j C.strides := fun j hj e => hp ⟨j, hj, e⟩
      rw [fr1.outside p this, fr2.outside p this]
  cases C1; cases C2
  have := fr1.off; have := fr1.dims; have := fr1.strides
  have := fr2.off; have := fr2.dims; have := fr2.strides
  simp_all

theorem microStep_ok {cp ab : R} {Lu Cl Al Bl : List L} {A B : Strided R} {linkDims : List Nat}
    {s : ParState R} (w : s.C.WF) {f : List Nat → R} (hf : s.C.Represents f) {tc : List Nat} {sum : R}
    (hl : tc.length = (unique Cl).length) (hk : InBox (targetKey Cl tc) s.C.dims)
    (hs : targetSum ab (unique Cl) tc Lu Al Bl A B linkDims = .ok sum) (op : MicroOp) :
    ∃ s' f', microStep cp ab (unique Cl) Lu Cl Al Bl A B linkDims s (tc, op) = .ok s' ∧
      s.C.Frame s'.C ∧ s'.C.Represents f' ∧
      (f' (targetKey Cl tc), s'.reg tc) = localStep cp sum (f (targetKey Cl tc), s.reg tc) op ∧
      (∀ i, i ≠ targetKey Cl tc → f' i = f i) ∧ (∀ t, t ≠ tc → s'.reg t = s.reg t) := by
  have hw : ∀ v, ∃ C', s.C.write (toIdx (targetKey Cl tc)) v = .ok C' ∧ s.C.Frame C' ∧
      C'.Represents (fun i => if i = targetKey Cl tc then v else f i) := write_represents w hf hk
  unfold microStep
  simp only [constructIndices_target hl, Outcome.ok_bind]
  cases op with
  | zeroStore =>
    simp only
    by_cases h : (cp == 0) = true
    · obtain ⟨C', h1, h2, h3⟩ := hw 0
      rw [if_pos h, h1]
      refine ⟨{ s with C := C' }, _, rfl, h2, h3, ?_, ?_, ?_⟩
      · simp [localStep, h]
      · intro i hi; simp [hi]
      · intros; rfl
    · rw [if_neg h]
      refine ⟨s, f, rfl, Strided.Frame.refl _, hf, ?_, ?_, ?_⟩
      · simp [localStep, h]
      · intros; rfl
      · intros; rfl
  | load =>
    simp only [hf _ hk, Outcome.ok_bind]
    refine ⟨{ s with reg := _ }, f, rfl, Strided.Frame.refl _, hf, ?_, ?_, ?_⟩
    · simp [localStep]
    · intros; rfl
    · intro t ht; simp [ht]
  | mulStore =>
    obtain ⟨C', h1, h2, h3⟩ := hw (s.reg tc * cp)
    simp only [h1, Outcome.ok_bind]
    refine ⟨{ s with C := C' }, _, rfl, h2, h3, ?_, ?_, ?_⟩
    · simp [localStep]
    · intro i hi; simp [hi]
    · intros; rfl
  | addStore =>
    obtain ⟨C', h1, h2, h3⟩ := hw (s.reg tc + sum)
    simp only [hs, h1, Outcome.ok_bind]
    refine ⟨{ s with C := C' }, _, rfl, h2, h3, ?_, ?_, ?_⟩
    · simp [localStep]
    · intro i hi; simp [hi]
    · intros; rfl

/-- Running any list of operations: each iteration sees exactly its own operations, in order. -/
theorem runOps {cp ab : R} {Lu Cl Al Bl : List L} {A B : Strided R} {linkDims : List Nat}
    (sum : List Nat → R) (acts : List (List Nat × MicroOp)) (s : ParState R) (w : s.C.WF)
    {f : List Nat → R} (hf : s.C.Represents f)
    (ha : ∀ a ∈ acts, a.1.length = (unique Cl).length ∧ InBox (targetKey Cl a.1) s.C.dims ∧
      targetSum ab (unique Cl) a.1 Lu Al Bl A B linkDims = .ok (sum a.1)) :
    ∃ s' f', acts.foldlM (microStep cp ab (unique Cl) Lu Cl Al Bl A B linkDims) s = .ok s' ∧
      s.C.Frame s'.C ∧ s'.C.Represents f' ∧
      (∀ tc, tc.length = (unique Cl).length → (f' (targetKey Cl tc), s'.reg tc)
        = ((acts.filter (·.1 = tc)).map (·.2)).foldl (localStep cp (sum tc)) (f (targetKey Cl tc), s.reg tc)) ∧
      (∀ i, i ∉ acts.map (fun a => targetKey Cl a.1) → f' i = f i) := by
  induction acts generalizing s f with
  | nil => exact ⟨s, f, rfl, Strided.Frame.refl _, hf, by simp, by simp⟩
  | cons a acts ih =>
    obtain ⟨t, op⟩ := a
    obtain ⟨hl, hk, hs⟩ := ha (t, op) (by simp)
    obtain ⟨s1, f1, h1, fr1, r1, k1, k2, k3⟩ := microStep_ok (cp := cp) w hf hl hk hs op
    obtain ⟨s2, f2, h2, fr2, r2, k4, k5⟩ := ih s1 (fr1.wf w) r1 (by
      intro a h; rw [fr1.dims]; exact ha a (by simp [h]))
    refine ⟨s2, f2, ?_, fr1.trans fr2, r2, ?_, ?_⟩
    · rw [List.foldlM_cons, h1]; exact h2
    · intro tc htc
      rw [k4 tc htc]
      by_cases e : t = tc
      · subst e
        rw [k1]
        simp
      · have : targetKey Cl tc ≠ targetKey Cl t := fun h => e (targetKey_inj hl htc h.symm)
        rw [k2 _ this, k3 tc (Ne.symm e)]
        simp [e]
    · intro i hi
      simp only [List.map_cons, List.mem_cons, not_or] at hi
      rw [k5 i hi.2, k2 i hi.1]

theorem filter_iterationOps (tc : List Nat) (l : List (List Nat)) (hn : l.Nodup) (h : tc ∈ l) :
    (l.flatMap iterationOps).filter (·.1 = tc) = iterationOps tc := by
  induction l with
  | nil => simp at h
  | cons x l ih =>
    rw [List.flatMap_cons, List.filter_append]
    have hx := (List.nodup_cons.1 hn).1
    by_cases e : x = tc
    · subst e
      have : (l.flatMap iterationOps).filter (·.1 = x) = [] := by
        rw [List.filter_eq_nil_iff]
        intro a ha
        obtain ⟨y, hy, hay⟩ := List.mem_flatMap.1 ha
        have : a.1 = y := by
          simp only [iterationOps, List.mem_cons, List.not_mem_nil, or_false] at hay
          rcases hay with e | e | e | e | e <;> rw [e]
        intro h'
        simp only [decide_eq_true_eq] at h'
        exact hx (h' ▸ this ▸ hy)
      rw [this]
      simp [iterationOps]
    · rw [ih hn.of_cons (by simpa [Ne.symm e] using h)]
      simp [iterationOps, e]

theorem key_of_mem_iterationOps {a : List Nat × MicroOp} {l : List (List Nat)}
    (h : a ∈ l.flatMap iterationOps) : a.1 ∈ l := by
  obtain ⟨y, hy, hay⟩ := List.mem_flatMap.1 h
  have : a.1 = y := by
    simp only [iterationOps, List.mem_cons, List.not_mem_nil, or_false] at hay
    rcases hay with e | e | e | e | e <;> rw [e]
  rw [this]; exact hy

theorem oneThread_iterations (tc : List Nat) {d : List (List (List Nat))} (hn : d.flatten.Nodup) :
    OneThread (fun a : List Nat × MicroOp => decide (a.1 = tc)) (d.map (·.flatMap iterationOps)) := by
  intro i j a b hi hj hij
  rw [List.getElem?_map, Option.map_eq_some_iff] at hi hj
  obtain ⟨x, hx, rfl⟩ := hi
  obtain ⟨y, hy, rfl⟩ := hj
  have hdisj : List.Disjoint x y := by
    have hp := (List.nodup_flatten.1 hn).2
    obtain ⟨hi', rfl⟩ := List.getElem?_eq_some_iff.1 hx
    obtain ⟨hj', rfl⟩ := List.getElem?_eq_some_iff.1 hy
    rw [List.pairwise_iff_getElem] at hp
    rcases Nat.lt_or_gt_of_ne hij with h | h
    · exact hp i j hi' hj' h
    · exact fun a ha hb => hp j i hj' hi' h hb ha
  by_cases hx' : tc ∈ x
  · right
    rw [List.filter_eq_nil_iff]
    intro a ha h
    exact hdisj hx' (of_decide_eq_true h ▸ key_of_mem_iterationOps ha)
  · left
    rw [List.filter_eq_nil_iff]
    intro a ha h
    exact hx' (of_decide_eq_true h ▸ key_of_mem_iterationOps ha)

/-- If the sequential loop succeeds, every iteration's local sum is defined. -/
theorem foldlM_step_ok {β σ : Type} {step : σ → β → Outcome σ} {l : List β} {s s' : σ}
    (h : l.foldlM step s = .ok s') : ∀ b ∈ l, ∃ s1 s2, step s1 b = .ok s2 := by
  induction l generalizing s with
  | nil => simp
  | cons b l ih =>
    rw [List.foldlM_cons] at h
    cases h1 : step s b with
    | ok s1 =>
      rw [h1] at h
      intro b' hb'
      rcases List.mem_cons.1 hb' with e | e
      · exact e ▸ ⟨s, s1, h1⟩
      · exact ih h b' e
    | error e => rw [h1] at h; cases h
    | ub e => rw [h1] at h; cases h

theorem targetStep_ok {cp ab : R} {Lu Cl Al Bl : List L} {A B C C' : Strided R} {linkDims : List Nat}
    {tc : List Nat} (h : targetStep cp ab (unique Cl) Lu Cl Al Bl A B linkDims tc C = .ok C') :
    ∃ v, targetSum ab (unique Cl) tc Lu Al Bl A B linkDims = .ok v := by
  unfold targetStep at h
  cases h1 : constructIndices (unique Cl) tc [] [] Cl with
  | ok ic =>
    rw [h1] at h
    simp only [Outcome.ok_bind] at h
    cases h2 : targetSum ab (unique Cl) tc Lu Al Bl A B linkDims with
    | ok v => exact ⟨v, rfl⟩
    | error e => rw [h2] at h; cases h
    | ub e => rw [h2] at h; cases h
  | error e => rw [h1] at h; cases h
  | ub e => rw [h1] at h; cases h

/-- A successful sequential run, described through the local sums. -/
theorem einsumGeneric_of_ok {δ : L → Nat} {Cl Al Bl : List L} {A B C C' : Strided R} {cp ab : R}
    (hd : C.dims = Cl.map δ) (hseq : einsumGeneric cp Cl C ab Al A Bl B = .ok C') :
    labelsOk (unique Cl) (unique (links Al Bl Cl)) Al Bl = true ∧
    ∃ sum : List Nat → R, ∀ tc ∈ box ((unique Cl).map δ),
      targetSum ab (unique Cl) tc (unique (links Al Bl Cl)) Al Bl A B
        (dimsFor A.dims (findTypeWithPosition (unique (links Al Bl Cl)) Al)) = .ok (sum tc) := by
  unfold einsumGeneric at hseq
  simp only at hseq
  by_cases hok : labelsOk (unique Cl) (unique (links Al Bl Cl)) Al Bl = false
  · rw [if_pos hok] at hseq; cases hseq
  rw [if_neg hok] at hseq
  refine ⟨by simpa using hok, ?_⟩
  rw [targetLoop_eq_foldlM, hd, targetDims_eq, cartesian_eq_box] at hseq
  refine ⟨fun tc => match targetSum ab (unique Cl) tc (unique (links Al Bl Cl)) Al Bl A B
    (dimsFor A.dims (findTypeWithPosition (unique (links Al Bl Cl)) Al)) with
    | .ok v => v
    | _ => 0, ?_⟩
  intro tc htc
  obtain ⟨s1, s2, h⟩ := foldlM_step_ok hseq tc htc
  obtain ⟨v, hv⟩ := targetStep_ok h
  simp only [hv]

/-- The sequential loop, described through the local sums. -/
theorem einsumGeneric_of_sums {δ : L → Nat} {Cl Al Bl : List L} {A B C : Strided R} {cp ab : R}
    (w : C.WF) {f : List Nat → R} (hf : C.Represents f) (hd : C.dims = Cl.map δ)
    (hok : labelsOk (unique Cl) (unique (links Al Bl Cl)) Al Bl = true) (sum : List Nat → R)
    (hsum : ∀ tc ∈ box ((unique Cl).map δ),
      targetSum ab (unique Cl) tc (unique (links Al Bl Cl)) Al Bl A B
        (dimsFor A.dims (findTypeWithPosition (unique (links Al Bl Cl)) Al)) = .ok (sum tc)) :
    ∃ C' f', einsumGeneric cp Cl C ab Al A Bl B = .ok C' ∧ C.Frame C' ∧ C'.Represents f' ∧
      (∀ tc ∈ box ((unique Cl).map δ),
        f' (targetKey Cl tc) = updateTarget cp (sum tc) (f (targetKey Cl tc))) ∧
      (∀ i, i ∉ (box ((unique Cl).map δ)).map (targetKey Cl) → f' i = f i) := by
  have hlen : ∀ tc ∈ box ((unique Cl).map δ), tc.length = (unique Cl).length := by
    intro tc htc; simpa using (mem_box.1 htc).length
  have hkey : ∀ tc ∈ box ((unique Cl).map δ), InBox (targetKey Cl tc) C.dims := by
    intro tc htc; rw [hd]; exact targetKey_inBox (mem_box.1 htc)
  obtain ⟨C1, f1, e1, fr1, r1, k1, k2⟩ := updateLoop w hf (targetKey Cl)
    (fun C tc => targetStep cp ab (unique Cl) (unique (links Al Bl Cl)) Cl Al Bl A B
      (dimsFor A.dims (findTypeWithPosition (unique (links Al Bl Cl)) Al)) tc C)
    (fun tc old => updateTarget cp (sum tc) old) (box ((unique Cl).map δ)) (by
      rw [List.nodup_map_iff_inj_on (nodup_box _)]
      intro a ha b hb e
      exact targetKey_inj (hlen a ha) (hlen b hb) e) (by
      intro tc htc C1 f1 hd1 w1 hf1
      have hbx := hkey tc htc
      rw [← hd1] at hbx
      obtain ⟨C2, h1, fr, r⟩ := write_represents w1 hf1 hbx (updateTarget cp (sum tc) (f1 (targetKey Cl tc)))
      refine ⟨C2, ?_, fr, r⟩
      simp only [targetStep, constructIndices_target (hlen tc htc), hsum tc htc, Outcome.ok_bind, hf1 _ hbx]
      exact h1)
  refine ⟨C1, f1, ?_, fr1, r1, k1, k2⟩
  unfold einsumGeneric
  simp only [hok, Bool.true_eq_false, if_false]
  rw [targetLoop_eq_foldlM, hd, targetDims_eq, cartesian_eq_box]
  exact e1

theorem einsumGenericPar_eq {δ : L → Nat} {Cl Al Bl : List L} {A B C C' : Strided R} (w : C.WF)
    (hd : C.dims = Cl.map δ) {cp ab : R} (hseq : einsumGeneric cp Cl C ab Al A Bl B = .ok C')
    {d : List (List (List Nat))} (hp : d.flatten.Perm (targetCombinations Cl C))
    {s : List (List Nat × MicroOp)} (hs : Schedule (d.map (·.flatMap iterationOps)) s) :
    einsumGenericPar cp Cl C ab Al A Bl B s = .ok C' := by
  have : Inhabited R := ⟨0⟩
  obtain ⟨f, hf⟩ := exists_represents w
  unfold targetCombinations at hp
  rw [hd, targetDims_eq, cartesian_eq_box] at hp
  obtain ⟨hok, sum, hsum⟩ := einsumGeneric_of_ok hd hseq
  obtain ⟨C1, f1, e1, fr1, r1, k1, k2⟩ := einsumGeneric_of_sums (cp := cp) w hf hd hok sum hsum
  have : C1 = C' := by rw [e1] at hseq; injection hseq
  subst this
  unfold einsumGenericPar
  simp only [hok, Bool.true_eq_false, if_false]
  have hlen : ∀ tc ∈ box ((unique Cl).map δ), tc.length = (unique Cl).length := by
    intro tc htc; simpa using (mem_box.1 htc).length
  have hkey : ∀ tc ∈ box ((unique Cl).map δ), InBox (targetKey Cl tc) C.dims := by
    intro tc htc; rw [hd]; exact targetKey_inBox (mem_box.1 htc)
  -- the parallel result
  have hnd : d.flatten.Nodup := hp.nodup_iff.2 (nodup_box _)
  have hmem : ∀ a ∈ s, a.1 ∈ box ((unique Cl).map δ) := by
    intro a ha
    have := hs.perm.mem_iff.1 ha
    obtain ⟨t, ht, hat⟩ := List.mem_flatten.1 this
    obtain ⟨x, hx, rfl⟩ := List.mem_map.1 ht
    exact hp.mem_iff.1 (List.mem_flatten.2 ⟨x, hx, key_of_mem_iterationOps hat⟩)
  obtain ⟨s2, f2, e2, fr2, r2, k3, k4⟩ := runOps (cp := cp) (Lu := unique (links Al Bl Cl)) (Al := Al) (Bl := Bl) (Cl := Cl)
    (A := A) (B := B) (ab := ab) (linkDims := dimsFor A.dims (findTypeWithPosition (unique (links Al Bl Cl)) Al)) sum s { C := C, reg := fun _ => 0 } w hf (by
      intro a ha
      exact ⟨hlen _ (hmem a ha), hkey _ (hmem a ha), hsum _ (hmem a ha)⟩)
  rw [e2]
  simp only [Outcome.ok_bind]
  congr 1
  refine frame_ext w fr2 fr1 r2 r1 ?_
  intro i _
  by_cases hi : i ∈ (box ((unique Cl).map δ)).map (targetKey Cl)
  · obtain ⟨tc, htc, rfl⟩ := List.mem_map.1 hi
    rw [k1 tc htc]
    have := k3 tc (hlen tc htc)
    rw [hs.filter (oneThread_iterations tc hnd)] at this
    have e3 : (d.map (·.flatMap iterationOps)).flatten = d.flatten.flatMap iterationOps := by
      clear * -
      induction d with
      | nil => rfl
      | cons x d ih => simp [ih]
    rw [e3, filter_iterationOps tc _ hnd (hp.mem_iff.2 htc)] at this
    have := congrArg Prod.fst this
    simp only at this
    rw [this]
    rfl
  · rw [k2 i hi, k4 i]
    intro h
    obtain ⟨a, ha, rfl⟩ := List.mem_map.1 h
    exact hi (List.mem_map_of_mem (hmem a ha))

end Einsums
