import Verif.Model.GpuLinear
import Verif.Proofs.Gpu
import Verif.Proofs.TileAlgebra
import Verif.Proofs.Dispatch
import Verif.Proofs.Blas
/-
Lemmas about `sort` and the element-wise linear algebra of device tensors.
-/
namespace Einsums
open Spec Model

/-- The decoding of a number with row-major strides. -/
theorem sentinel_wrapIdx {ds : List Nat} {c : Nat} (hc : c < numel ds) : sentinelToIndices c (dimsToStrides ds).2 = wrapIdx ds c := by
  obtain ⟨h1, h2⟩ := sentinelToIndices_spec hc
  have h0 : 0 < numel ds := by omega
  exact rowMajor_inj h1 (wrapIdx_inBox h0 c) (by rw [h2, rowMajor_wrapIdx h0, Nat.mod_eq_of_lt hc])

section
variable {K L : Type} [CommSemiring K] [DecidableEq L]

/-! ### sort -/

/-- The memory operation that processes element `q` in a state with enough memory. -/
theorem sortStep_eq {beta alpha : K} {Cl Al : List L} {C A : Strided K} {q pa pc : Nat} {x : K}
    (ha : sortAddrs Cl C Al A q = .ok (pa, pc)) (hx : A.data[pa]? = some x) (s : RmwState K) (w : Nat) (v : K)
    (hm : s.mem[pc]? = some v) :
    sortStep beta Cl C alpha Al A s (w, q, .load) = .ok { s with reg := fun w' => if w' = w then v else s.reg w' } ∧
    sortStep beta Cl C alpha Al A s (w, q, .store) = .ok { s with mem := s.mem.set pc (beta * s.reg w + alpha * x) } := by
  constructor
  · simp only [sortStep, ha, Outcome.ok_bind, memGet, hm]; rfl
  · simp only [sortStep, ha, Outcome.ok_bind, memGet, hx, memUpd, hm]; rfl

/-- Every interleaving when the old value does not matter. -/
theorem sort_stores {alpha : K} {Cl Al : List L} {C A : Strided K} {n : Nat} {pa pc : Nat → Nat} {x : Nat → K}
    (ha : ∀ q, q < n → sortAddrs Cl C Al A q = .ok (pa q, pc q)) (hx : ∀ q, q < n → A.data[pa q]? = some (x q))
    (hi : ∀ q q', q < n → q' < n → pc q = pc q' → q = q') (sched : List (Nat × Nat × RmwOp)) (hs : ∀ a ∈ sched, a.2.1 < n)
    (s : RmwState K) (hb : ∀ q, q < n → pc q < s.mem.length) :
    ∃ s', sched.foldlM (sortStep 0 Cl C alpha Al A) s = .ok s' ∧ s'.mem.length = s.mem.length ∧
      (∀ p, (∀ q, q < n → p ≠ pc q) → s'.mem[p]? = s.mem[p]?) ∧
      ∀ q, q < n → ((∃ w, (w, q, RmwOp.store) ∈ sched) ∧ s'.mem[pc q]? = some (alpha * x q)) ∨
        ((∀ w, (w, q, RmwOp.store) ∉ sched) ∧ s'.mem[pc q]? = s.mem[pc q]?) := by
  induction sched generalizing s with
  | nil => exact ⟨s, rfl, rfl, fun _ _ => rfl, by simp⟩
  | cons a sched ih =>
    obtain ⟨w, q, op⟩ := a
    have hq : q < n := hs (w, q, op) (by simp)
    have hpq := hb q hq
    obtain ⟨e1, e2⟩ := sortStep_eq (beta := 0) (alpha := alpha) (ha q hq) (hx q hq) s w _ (List.getElem?_eq_getElem hpq)
    cases op with
    | load =>
      obtain ⟨s', e, h1, h2, h3⟩ := ih (fun a ha => hs a (by simp [ha]))
        { s with reg := fun w' => if w' = w then s.mem[pc q] else s.reg w' } hb
      refine ⟨s', by rw [List.foldlM_cons, e1, Outcome.ok_bind]; exact e, h1, h2, ?_⟩
      intro q' hq'
      simpa using h3 q' hq'
    | store =>
      obtain ⟨s', e, h1, h2, h3⟩ := ih (fun a ha => hs a (by simp [ha]))
        { s with mem := s.mem.set (pc q) (0 * s.reg w + alpha * x q) } (by simp only [List.length_set]; exact hb)
      refine ⟨s', by rw [List.foldlM_cons, e2, Outcome.ok_bind]; exact e, by simpa using h1, ?_, ?_⟩
      · intro p hp
        rw [h2 p hp, List.getElem?_set_ne (Ne.symm (hp q hq))]
      · intro q' hq'
        rcases h3 q' hq' with ⟨⟨w', h⟩, h4⟩ | ⟨h, h4⟩
        · exact Or.inl ⟨⟨w', by simp [h]⟩, h4⟩
        · by_cases e3 : q' = q
          · subst e3
            refine Or.inl ⟨⟨w, by simp⟩, ?_⟩
            rw [h4, List.getElem?_set_self hpq, zero_mul, zero_add]
          · refine Or.inr ⟨?_, ?_⟩
            · intro w' h'
              rcases List.mem_cons.1 h' with h' | h'
              · exact e3 (by injection h' with _ h'; injection h')
              · exact h w' h'
            · rw [h4, List.getElem?_set_ne (fun e => e3 (hi _ _ hq hq' e).symm)]

/-- Executions in which every load is followed by its store. -/
theorem sort_atomic {beta alpha : K} {Cl Al : List L} {C A : Strided K} {n : Nat} {pa pc : Nat → Nat} {x : Nat → K}
    (ha : ∀ q, q < n → sortAddrs Cl C Al A q = .ok (pa q, pc q)) (hx : ∀ q, q < n → A.data[pa q]? = some (x q))
    (hi : ∀ q q', q < n → q' < n → pc q = pc q' → q = q') (ps : List (Nat × Nat)) (hs : ∀ a ∈ ps, a.2 < n)
    (s : RmwState K) (hb : ∀ q, q < n → pc q < s.mem.length) :
    ∃ s', (ps.flatMap fun a => [(a.1, a.2, RmwOp.load), (a.1, a.2, RmwOp.store)]).foldlM (sortStep beta Cl C alpha Al A) s = .ok s' ∧
      s'.mem.length = s.mem.length ∧
      (∀ p, (∀ q, q < n → p ≠ pc q) → s'.mem[p]? = s.mem[p]?) ∧
      ∀ q, q < n → s'.mem[pc q]? =
        s.mem[pc q]?.map ((fun v => beta * v + alpha * x q)^[ps.countP fun a => decide (a.2 = q)]) := by
  induction ps generalizing s with
  | nil => exact ⟨s, rfl, rfl, fun _ _ => rfl, by simp⟩
  | cons a ps ih =>
    obtain ⟨w, q⟩ := a
    have hq : q < n := hs (w, q) (by simp)
    have hpq := hb q hq
    have hm := List.getElem?_eq_getElem hpq
    obtain ⟨e1, _⟩ := sortStep_eq (beta := beta) (alpha := alpha) (ha q hq) (hx q hq) s w _ hm
    obtain ⟨_, e2⟩ := sortStep_eq (beta := beta) (alpha := alpha) (ha q hq) (hx q hq)
      { s with reg := fun w' => if w' = w then s.mem[pc q] else s.reg w' } w _ hm
    obtain ⟨s', e, h1, h2, h3⟩ := ih (fun a ha => hs a (by simp [ha]))
      { mem := s.mem.set (pc q) (beta * s.mem[pc q] + alpha * x q), reg := fun w' => if w' = w then s.mem[pc q] else s.reg w' }
        (by simp only [List.length_set]; exact hb)
    refine ⟨s', ?_, h1.trans (by simp), ?_, ?_⟩
    · rw [List.flatMap_cons]
      simp only [List.cons_append, List.nil_append]
      rw [List.foldlM_cons, e1, Outcome.ok_bind, List.foldlM_cons, e2, Outcome.ok_bind]
      simp only [if_true]
      exact e
    · intro p hp
      rw [h2 p hp, List.getElem?_set_ne (Ne.symm (hp q hq))]
    · intro q' hq'
      rw [h3 q' hq', List.countP_cons]
      by_cases e3 : q' = q
      · subst e3
        rw [List.getElem?_set_self hpq, hm]
        simp
      · rw [List.getElem?_set_ne (fun e => e3 (hi _ _ hq hq' e).symm)]
        simp [Ne.symm e3]

omit [CommSemiring K] in
/-- The positions of the elements for a row-major `A`. -/
theorem sortAddrs_eq (δ : L → Nat) {Al Cl : List L} (hp : Cl.Perm Al) {A : Strided K} (tA : A.RowMajor)
    (dA : A.dims = Al.map δ) (C : Strided K) {q : Nat} (hq : q < numel A.dims) :
    sortAddrs Cl C Al A q = .ok (A.off + q, C.off + dot (Cl.map (bindEnv Al (wrapIdx A.dims q) fun _ => 0)) C.strides) := by
  obtain ⟨h1, h2⟩ := sentinelToIndices_spec hq
  have hl : (sentinelToIndices q (dimsToStrides A.dims).2).length = Al.length := by rw [h1.length, dA, List.length_map]
  unfold sortAddrs
  rw [tA.strides]
  simp only
  rw [tableIndex_eq hl (fun _ => 0) (fun l hl => hp.mem_iff.1 hl), Outcome.ok_bind, combinationToIndex_eq, combinationToIndex_eq,
    dot_strides_eq h1.length, h2, sentinel_wrapIdx hq]
  rfl

omit [CommSemiring K] in
theorem sortThreads_eq {A : Strided K} (hn : numel A.dims < 2 ^ 31) :
    sortThreads A = (List.range (launchStraight (numel A.dims)).size).map fun w =>
      (List.range' w (numel A.dims - w)).flatMap fun q => [(w, q, .load), (w, q, .store)] := by
  unfold sortThreads
  rw [sizeMethod_small hn, threads_eq]

theorem sort_count (size n q : Nat) (hq : q < n) :
    (((List.range size).map fun w => (List.range' w (n - w)).map fun q => (w, q)).flatten).countP (fun a => decide (a.2 = q)) =
      min (q + 1) size := by
  induction size with
  | zero => simp
  | succ m ih =>
    rw [List.range_succ, List.map_append, List.flatten_append, List.countP_append, ih]
    simp only [List.map_cons, List.map_nil, List.flatten_cons, List.flatten_nil, List.append_nil, List.countP_map]
    have : (List.range' m (n - m)).countP ((fun a : Nat × Nat => decide (a.2 = q)) ∘ fun q => (m, q)) =
        if m ≤ q then 1 else 0 := by
      rw [show ((fun a : Nat × Nat => decide (a.2 = q)) ∘ fun q => (m, q)) = fun c => c == q from by
        funext c; exact (beq_eq_decide c q).symm]
      rw [show (List.range' m (n - m)).countP (fun c => c == q) = (List.range' m (n - m)).count q from rfl]
      rw [List.Nodup.count List.nodup_range']
      simp only [List.mem_range'_1]
      congr 1
      exact propext ⟨fun h => h.1, fun h => ⟨h, by omega⟩⟩
    rw [this]
    split <;> omega

end

/-! ### Kernels that agree on their iterations -/

section
variable {K : Type}

theorem runKernel_congr {t : Strided K} {addr addr' : Nat → Outcome Nat} {f f' : Nat → K → Outcome K} {r : Nat → K}
    {sched : List (Nat × RmwOp)} (h : ∀ a ∈ sched, addr a.1 = addr' a.1 ∧ ∀ v, f a.1 v = f' a.1 v) :
    runKernel t addr f r sched = runKernel t addr' f' r sched := by
  unfold runKernel
  congr 1
  generalize (⟨t.data, r⟩ : RmwState K) = s
  induction sched generalizing s with
  | nil => rfl
  | cons a sched ih =>
    rw [List.foldlM_cons, List.foldlM_cons]
    have e : rmwStep addr f s a = rmwStep addr' f' s a := by
      unfold rmwStep
      rw [(h a (by simp)).1]
      congr 1
      funext p
      cases a.2 with
      | load => rfl
      | store => simp only [(h a (by simp)).2]
    rw [e]
    congr 1
    funext s'
    exact ih (fun b hb => h b (by simp [hb])) s'

theorem productAddr_eq {ds : List Nat} {c : Nat} (hc : c < numel ds) (t : Strided K) :
    productAddr ds t c = t.off + dot (wrapIdx ds c) t.strides := by
  unfold productAddr
  rw [sentinel_wrapIdx hc, combinationToIndex_eq]

theorem update_sched_lt {l : Launch} (hl : 0 < l.size) {n : Nat} {sched : List (Nat × RmwOp)}
    (hs : Schedule (updateThreads l n) sched) : ∀ a ∈ sched, a.1 < n := by
  rw [updateThreads_eq] at hs
  exact (gridStride_filter hl (by simp) hs).2

theorem store_sched_lt {l : Launch} (hl : 0 < l.size) {n : Nat} {sched : List (Nat × RmwOp)}
    (hs : Schedule (storeThreads l n) sched) : ∀ a ∈ sched, a.1 < n := by
  rw [storeThreads_eq] at hs
  exact (gridStride_filter hl (by simp) hs).2

/-- A step that is undefined in every state of an invariant. -/
theorem foldlM_ubInv {S A : Type} {step : S → A → Outcome S} (Inv : S → Prop) (hne : ∀ s a, (step s a).isError = false)
    (hinv : ∀ s a s', Inv s → step s a = .ok s' → Inv s') {bad : A} (hbad : ∀ s, Inv s → (step s bad).isUb = true) :
    ∀ (sched : List A) (s : S), Inv s → bad ∈ sched → (sched.foldlM step s).isUb = true
  | [], _, _, h => by simp at h
  | a :: sched, s, hs, h => by
    rw [List.foldlM_cons]
    rcases List.mem_cons.1 h with rfl | h
    · have := hbad s hs
      cases e : step s bad with
      | ok s' => rw [e] at this; cases this
      | error m => rw [e] at this; cases this
      | ub m => rfl
    · cases e : step s a with
      | ok s' => exact foldlM_ubInv Inv hne hinv hbad sched s' (hinv s a s' hs e) h
      | error m => have := hne s a; rw [e] at this; cases this
      | ub m => rfl

theorem memUpd_length {m m' : List K} {p : Nat} {g : K → Outcome K} (h : memUpd m p g = .ok m') : m'.length = m.length := by
  unfold memUpd at h
  cases e : m[p]? with
  | none => rw [e] at h; cases h
  | some x =>
    rw [e] at h
    simp only at h
    cases e2 : g x with
    | ok v => rw [e2] at h; cases h; simp
    | error _ => rw [e2] at h; cases h
    | ub _ => rw [e2] at h; cases h

end

section
variable {K L : Type} [CommSemiring K] [DecidableEq L]

theorem tableIndex_noError (table : List Nat) (ps : List Int) : (tableIndex table ps).isError = false := by
  induction ps with
  | nil => rfl
  | cons p ps ih =>
    unfold tableIndex
    split
    · rfl
    · split
      · rfl
      · exact bind_noError ih fun _ => rfl

theorem sortStep_noError (beta alpha : K) (Cl Al : List L) (C A : Strided K) (s : RmwState K) (a : Nat × Nat × RmwOp) :
    (sortStep beta Cl C alpha Al A s a).isError = false := by
  obtain ⟨w, q, op⟩ := a
  unfold sortStep
  apply bind_noError
  · unfold sortAddrs
    exact bind_noError (tableIndex_noError _ _) fun _ => rfl
  · rintro ⟨pa, pc⟩
    cases op with
    | load => exact bind_noError (memGet_noError _ _) fun _ => rfl
    | store => exact bind_noError (memGet_noError _ _) fun _ => bind_noError (memUpd_noError fun _ => rfl) fun _ => rfl

theorem sortStep_length {beta alpha : K} {Cl Al : List L} {C A : Strided K} {s s' : RmwState K} {a : Nat × Nat × RmwOp}
    (e : sortStep beta Cl C alpha Al A s a = .ok s') : s'.mem.length = s.mem.length := by
  obtain ⟨w, q, op⟩ := a
  unfold sortStep at e
  simp only at e
  cases e1 : sortAddrs Cl C Al A q with
  | error _ => rw [e1] at e; cases e
  | ub _ => rw [e1] at e; cases e
  | ok p =>
    obtain ⟨pa, pc⟩ := p
    rw [e1, Outcome.ok_bind] at e
    cases op with
    | load =>
      simp only at e
      cases e2 : memGet s.mem pc with
      | error _ => rw [e2] at e; cases e
      | ub _ => rw [e2] at e; cases e
      | ok v => rw [e2] at e; cases e; rfl
    | store =>
      simp only at e
      cases e2 : memGet A.data pa with
      | error _ => rw [e2] at e; cases e
      | ub _ => rw [e2] at e; cases e
      | ok v =>
        rw [e2, Outcome.ok_bind] at e
        cases e3 : memUpd s.mem pc fun _ => .ok (beta * s.reg w + alpha * v) with
        | error _ => rw [e3] at e; cases e
        | ub _ => rw [e3] at e; cases e
        | ok m => rw [e3] at e; cases e; exact memUpd_length e3

/-- An element whose target lies outside the memory of `C`. -/
theorem sort_ub {beta alpha : K} {Cl Al : List L} {C A : Strided K} (hn : numel A.dims < 2 ^ 31) {q pa pc : Nat}
    (hq : q < numel A.dims) (ha : sortAddrs Cl C Al A q = .ok (pa, pc)) (hc : C.data.length ≤ pc) (r : Nat → K)
    {sched : List (Nat × Nat × RmwOp)} (hs : Schedule (sortThreads A) sched) :
    (deviceSort beta Cl C alpha Al A r sched).isUb = true := by
  have hm : (0, q, RmwOp.load) ∈ sched := by
    rw [hs.perm.mem_iff, sortThreads_eq hn, List.mem_flatten]
    refine ⟨_, List.mem_map.2 ⟨0, List.mem_range.2 (launchStraight_pos _), rfl⟩, ?_⟩
    rw [List.mem_flatMap]
    exact ⟨q, by simp [List.mem_range'_1, hq], by simp⟩
  have := foldlM_ubInv (fun s : RmwState K => s.mem.length = C.data.length) (sortStep_noError beta alpha Cl Al C A)
    (fun s a s' h e => (sortStep_length e).trans h) (bad := (0, q, RmwOp.load)) (by
      intro s hs
      have hs : s.mem.length = C.data.length := hs
      simp only [sortStep, ha, Outcome.ok_bind, memGet]
      rw [List.getElem?_eq_none (by omega)]; rfl) sched ⟨C.data, r⟩ rfl hm
  unfold deviceSort
  cases e : sched.foldlM (sortStep beta Cl C alpha Al A) ⟨C.data, r⟩ with
  | ok s => rw [e] at this; cases this
  | error m => rw [e] at this; cases this
  | ub m => rfl

omit [CommSemiring K] in
/-- The positions, in terms of the indices: what the two correctness statements about `sort` share. -/
theorem sort_setup (δ : L → Nat) {Al Cl : List L} (hA : Al.Nodup) (hp : Cl.Perm Al) {A C : Strided K} (tA : A.RowMajor)
    (dA : A.dims = Al.map δ) (dC : C.dims = Cl.map δ) {fA : List Nat → K} (rA : A.Represents fA) :
    (∀ q, q < numel A.dims → A.data[A.off + q]? = some (fA (wrapIdx A.dims q))) ∧
    (∀ q, q < numel A.dims → InBox (Cl.map (bindEnv Al (wrapIdx A.dims q) fun _ => 0)) C.dims) ∧
    (∀ q q', q < numel A.dims → q' < numel A.dims →
      Cl.map (bindEnv Al (wrapIdx A.dims q) fun _ => 0) = Cl.map (bindEnv Al (wrapIdx A.dims q') fun _ => 0) → q = q') ∧
    ∀ ρ, InRange δ Cl ρ → rowMajor (Al.map ρ) A.dims < numel A.dims ∧ wrapIdx A.dims (rowMajor (Al.map ρ) A.dims) = Al.map ρ ∧
      Cl.map (bindEnv Al (Al.map ρ) fun _ => 0) = Cl.map ρ := by
  have hbox : ∀ q, q < numel A.dims → InBox (wrapIdx A.dims q) A.dims := fun q hq => wrapIdx_inBox (by omega) q
  refine ⟨?_, ?_, ?_, ?_⟩
  · intro q hq
    have := (represents_iff tA.wf).1 rA _ (hbox q hq)
    rw [tA.strides, dot_strides_eq (hbox q hq).length, rowMajor_wrapIdx (by omega), Nat.mod_eq_of_lt hq] at this
    exact this
  · intro q hq
    rw [dC]
    apply inBox_map
    intro l hl
    exact box_bindEnv_inBox (dA ▸ hbox q hq) (hp.mem_iff.1 hl)
  · intro q q' hq hq' e
    have hl : (wrapIdx A.dims q).length = Al.length := by rw [(hbox q hq).length, dA, List.length_map]
    have hl' : (wrapIdx A.dims q').length = Al.length := by rw [(hbox q' hq').length, dA, List.length_map]
    have : wrapIdx A.dims q = wrapIdx A.dims q' := by
      rw [← map_bindEnv hA hl (fun _ => 0), ← map_bindEnv hA hl' (fun _ => 0)]
      apply List.map_congr_left
      intro l hl
      exact List.map_inj_left.1 e l (hp.mem_iff.2 hl)
    have h1 := rowMajor_wrapIdx (ds := A.dims) (by omega) q
    rw [this, rowMajor_wrapIdx (by omega), Nat.mod_eq_of_lt hq, Nat.mod_eq_of_lt hq'] at h1
    exact h1.symm
  · intro ρ hρ
    have hb : InBox (Al.map ρ) A.dims := by
      rw [dA]; exact inBox_map fun l hl => hρ l (hp.mem_iff.2 hl)
    refine ⟨rowMajor_lt hb, wrapIdx_rowMajor hb, ?_⟩
    apply List.map_congr_left
    intro l hl
    rw [bindEnv_map, if_pos (hp.mem_iff.1 hl)]

end

end Einsums
