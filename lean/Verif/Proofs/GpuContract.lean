import Verif.Model.GpuContract
import Verif.Spec.Gpu
import Verif.Spec.PyEinsum
import Verif.Proofs.Gpu
import Verif.Proofs.PyGeneric
import Verif.Proofs.TileAlgebra
/-
Dot products and contractions on the device.
-/
namespace Einsums
open Spec Model

/-! ### Schedules -/

section
variable {α : Type}

theorem flatten_set {tss : List (List (List α))} {ts : List (List α)} {i j : Nat} {t ys : List α} (hi : tss[i]? = some ts)
    (hj : ts[j]? = some t) : ∃ k, tss.flatten[k]? = some t ∧ tss.flatten.set k ys = (tss.set i (ts.set j ys)).flatten := by
  induction tss generalizing i with
  | nil => simp at hi
  | cons u tss ih =>
    cases i with
    | zero =>
      simp only [List.getElem?_cons_zero, Option.some.injEq] at hi
      subst hi
      obtain ⟨hj1, hj2⟩ := List.getElem?_eq_some_iff.1 hj
      refine ⟨j, ?_, ?_⟩
      · rw [List.flatten_cons, List.getElem?_append_left hj1, hj]
      · rw [List.flatten_cons, List.set_append_left _ _ hj1]; rfl
    | succ i =>
      simp only [List.getElem?_cons_succ] at hi
      obtain ⟨k, h1, h2⟩ := ih hi
      refine ⟨u.length + k, ?_, ?_⟩
      · rw [List.flatten_cons, List.getElem?_append_right (by omega), Nat.add_sub_cancel_left, h1]
      · rw [List.flatten_cons, List.set_append_right _ _ (by omega), Nat.add_sub_cancel_left, h2]; rfl

theorem forall₂_set {β γ : Type} {R : β → γ → Prop} {xs : List β} {ys : List γ} (h : List.Forall₂ R xs ys) {i : Nat} {y : γ}
    (hi : ys[i]? = some y) : ∃ x, xs[i]? = some x ∧ R x y ∧ ∀ x' y', R x' y' → List.Forall₂ R (xs.set i x') (ys.set i y') := by
  induction h generalizing i with
  | nil => simp at hi
  | cons hr h ih =>
    cases i with
    | zero =>
      simp only [List.getElem?_cons_zero, Option.some.injEq] at hi
      subst hi
      exact ⟨_, rfl, hr, fun x' y' hxy => .cons hxy h⟩
    | succ i =>
      simp only [List.getElem?_cons_succ] at hi
      obtain ⟨x, h1, h2, h3⟩ := ih hi
      exact ⟨x, h1, h2, fun x' y' hxy => .cons hr (h3 x' y' hxy)⟩

/-- Interleavings of interleavings are interleavings. -/
theorem schedule_refine {tss : List (List (List α))} {runs : List (List α)} (h : List.Forall₂ Schedule tss runs) {s : List α}
    (hs : Schedule runs s) : Schedule tss.flatten s := by
  induction hs generalizing tss with
  | done hd =>
    apply Schedule.done
    intro t ht
    obtain ⟨ts, hts, hm⟩ := List.mem_flatten.1 ht
    induction h with
    | nil => simp at hts
    | cons hr h ih =>
      rcases List.mem_cons.1 hts with rfl | hts
      · have e := hd _ List.mem_cons_self
        rw [e] at hr
        cases hr with
        | done hall => exact hall t hm
      · exact ih (fun t ht => hd t (by simp [ht])) (List.mem_flatten.2 ⟨ts, hts, hm⟩) hts
  | step hi _ ih =>
    obtain ⟨ts, h1, h2, h3⟩ := forall₂_set h hi
    cases h2 with
    | step hj hrest =>
      obtain ⟨k, k1, k2⟩ := flatten_set h1 hj
      refine .step k1 ?_
      rw [k2]
      exact ih (h3 _ _ hrest)

theorem schedule_filter (q : α → Bool) {ts : List (List α)} {s : List α} (h : Schedule ts s) :
    Schedule (ts.map (List.filter q)) (s.filter q) := by
  induction h with
  | done h =>
    apply Schedule.done
    intro t ht
    obtain ⟨u, hu, rfl⟩ := List.mem_map.1 ht
    rw [h u hu]; rfl
  | @step ts i x xs s hi _ ih =>
    have hset : (ts.set i xs).map (List.filter q) = (ts.map (List.filter q)).set i (xs.filter q) := by
      rw [List.map_set]
    rw [hset] at ih
    by_cases hq : q x = true
    · rw [List.filter_cons_of_pos hq]
      refine .step (i := i) (xs := xs.filter q) ?_ ih
      rw [List.getElem?_map, hi, Option.map_some, List.filter_cons_of_pos hq]
    · rw [List.filter_cons_of_neg hq]
      have : (ts.map (List.filter q)).set i (xs.filter q) = ts.map (List.filter q) := by
        apply List.ext_getElem?
        intro k
        rw [List.getElem?_set]
        split
        · rename_i hk
          subst hk
          have := (List.getElem?_eq_some_iff.1 hi).1
          rw [List.getElem?_map, hi, Option.map_some, List.filter_cons_of_neg hq]
          simp [this]
        · rfl
      rwa [this] at ih

/-- The operations of the two phases of all blocks, each phase for itself. -/
theorem gridRun_phases {β : Type} {bs : List β} {p1 p2 : β → List (List α)} {q : α → Bool}
    (h1 : ∀ b ∈ bs, ∀ t ∈ p1 b, ∀ a ∈ t, q a = true) (h2 : ∀ b ∈ bs, ∀ t ∈ p2 b, ∀ a ∈ t, q a = false) {sched : List α}
    (h : GridRun (bs.map fun b => [p1 b, p2 b]) sched) :
    Schedule (bs.map p1).flatten (sched.filter q) ∧ Schedule (bs.map p2).flatten (sched.filter fun a => !q a) := by
  obtain ⟨runs, hf, hs⟩ := h
  have key : List.Forall₂ Schedule (bs.map p1) (runs.map (List.filter q)) ∧
      List.Forall₂ Schedule (bs.map p2) (runs.map (List.filter fun a => !q a)) := by
    clear hs
    induction bs generalizing runs with
    | nil =>
      cases hf
      exact ⟨.nil, .nil⟩
    | cons b bs ih =>
      rw [List.map_cons] at hf
      cases hf with
      | cons hb hf =>
        obtain ⟨i1, i2⟩ := ih (fun b hb => h1 b (by simp [hb])) (fun b hb => h2 b (by simp [hb])) _ hf
        cases hb with
        | phase hs1 hr =>
          cases hr with
          | phase hs2 hr2 =>
            cases hr2
            have f1 := h1 b (by simp)
            have f2 := h2 b (by simp)
            have g1 : ∀ {s : List α} {p : List (List α)} {v : Bool}, Schedule p s → (∀ t ∈ p, ∀ a ∈ t, q a = v) →
                ∀ a ∈ s, q a = v := by
              intro s p v hsp hp a ha
              obtain ⟨t, ht, hat⟩ := List.mem_flatten.1 (hsp.perm.mem_iff.1 ha)
              exact hp t ht a hat
            have e1 := g1 hs1 f1
            have e2 := g1 hs2 f2
            refine ⟨.cons ?_ i1, .cons ?_ i2⟩
            · rw [List.append_nil, List.filter_append, List.filter_eq_self.2 e1,
                List.filter_eq_nil_iff.2 (by intro a ha; simp [e2 a ha]), List.append_nil]
              exact hs1
            · rw [List.append_nil, List.filter_append, List.filter_eq_nil_iff.2 (by intro a ha; simp [e1 a ha]),
                List.filter_eq_self.2 (by intro a ha; simp [e2 a ha]), List.nil_append]
              exact hs2
  exact ⟨schedule_refine key.1 (schedule_filter q hs), schedule_refine key.2 (schedule_filter _ hs)⟩

/-- When nothing of the second kind comes before something of the first kind. -/
theorem split_of_pairwise (q : α → Bool) {l : List α} (h : l.Pairwise fun a b => ¬ (q a = false ∧ q b = true)) :
    l = l.filter q ++ l.filter fun a => !q a := by
  induction l with
  | nil => rfl
  | cons x l ih =>
    rw [List.pairwise_cons] at h
    by_cases hx : q x = true
    · rw [List.filter_cons_of_pos hx, List.filter_cons_of_neg (by simp [hx]), List.cons_append, ← ih h.2]
    · have hx : q x = false := by simpa using hx
      have hl : ∀ a ∈ l, q a = false := by
        intro a ha
        have := h.1 a ha
        simp only [hx, true_and] at this
        simpa using this
      rw [List.filter_cons_of_neg (by simp [hx]), List.filter_cons_of_pos (by simp [hx]),
        List.filter_eq_nil_iff.2 (by intro a ha; simp [hl a ha]), List.nil_append,
        List.filter_eq_self.2 (by intro a ha; simp [hl a ha])]

end

/-! ### Addresses -/

theorem divAddr_eq {d xs : List Nat} (hl : xs.length = d.length) {q : Nat} (h : q < numel d) :
    divAddr (dimsToStrides d).2 xs q = .ok (dot (unflat d q) xs) := by
  induction d generalizing xs q with
  | nil => cases xs <;> rfl
  | cons x d ih =>
    cases xs with
    | nil => simp at hl
    | cons y xs =>
      have hp : 0 < numel d := by
        rcases Nat.eq_zero_or_pos (numel d) with e | e
        · rw [numel_cons, e] at h; omega
        · exact e
      unfold unflat
      rw [dimsToStrides_snd_cons]
      unfold divAddr sentinelToIndices
      rw [if_neg (by omega), if_pos (by omega)]
      rw [ih (by simpa using hl) (Nat.mod_lt _ hp)]
      rfl

section
variable {L : Type} [DecidableEq L] {K : Type}

/-- The values of the labels in an iteration. -/
def iterEnv (U : List L) (δ : L → Nat) (s : Nat) : L → Nat := bindEnv U (unflat (U.map δ) s) fun _ => 0

theorem operandAddr_eq {U Xl : List L} {δ : L → Nat} (h : ∀ l ∈ Xl, l ∈ U) (X : Strided K) {s : Nat} (hs : s < numel (U.map δ)) :
    operandAddr U (U.map δ) Xl X s = .ok (X.off + dot (Xl.map (iterEnv U δ s)) X.strides) := by
  unfold operandAddr
  rw [tileOfSentinel_eq (by simp) h hs]
  simp only [Outcome.ok_bind, combinationToIndex_eq]
  rfl

theorem iterEnv_lt {U : List L} {δ : L → Nat} {s : Nat} (hs : s < numel (U.map δ)) {l : L} (hl : l ∈ U) : iterEnv U δ s l < δ l :=
  box_bindEnv_inBox (unflat_inBox hs) hl

theorem operand_inBox {U Xl : List L} {δ : L → Nat} (h : ∀ l ∈ Xl, l ∈ U) {s : Nat} (hs : s < numel (U.map δ)) :
    InBox (Xl.map (iterEnv U δ s)) (Xl.map δ) := inBox_map fun l hl => iterEnv_lt hs (h l hl)

theorem operand_get {U Xl : List L} {δ : L → Nat} (h : ∀ l ∈ Xl, l ∈ U) {X : Strided K} (hd : X.dims = Xl.map δ) {f : List Nat → K}
    (hf : X.Represents f) {s : Nat} (hs : s < numel (U.map δ)) :
    memGet X.data (X.off + dot (Xl.map (iterEnv U δ s)) X.strides) = .ok (f (Xl.map (iterEnv U δ s))) := by
  unfold memGet
  rw [represents_get hf (by rw [hd]; exact operand_inBox h hs)]

theorem einsumCount_eq {d : List Nat} (h : d ≠ []) : einsumCount d = numel d := head_mul_stride h

variable [CommSemiring K]

theorem einsumTerm_eq {U Al Bl : List L} {δ : L → Nat} (mA : ∀ l ∈ Al, l ∈ U) (mB : ∀ l ∈ Bl, l ∈ U) {A B : Strided K}
    (dA : A.dims = Al.map δ) (dB : B.dims = Bl.map δ) {fA fB : List Nat → K} (hA : A.Represents fA) (hB : B.Represents fB) (ab : K)
    {s : Nat} (hs : s < numel (U.map δ)) :
    einsumTerm ab U (U.map δ) Al A Bl B s =
      .ok (ab * fA (Al.map (iterEnv U δ s)) * fB (Bl.map (iterEnv U δ s))) := by
  unfold einsumTerm
  rw [operandAddr_eq mA A hs, operandAddr_eq mB B hs]
  simp only [Outcome.ok_bind, operand_get mA dA hA hs, operand_get mB dB hB hs]
  rfl

/-- A sum over all iterations. -/
theorem sum_iterations {U : List L} (hU : U.Nodup) (δ : L → Nat) (F : (L → Nat) → K) :
    ((List.range (numel (U.map δ))).map fun s => F (iterEnv U δ s)).sum = sumOver δ U (fun _ => 0) F := by
  rw [sumOver_eq δ U hU, ← map_unflat_range, List.map_map]; rfl

omit [CommSemiring K] in
theorem labels_perm (Cl Al Bl : List L) : (uniqueLabels Cl Al Bl).Perm (pyLabels Al Bl Cl) := by
  refine (List.perm_ext_iff_of_nodup (nodup_unique _) (nodup_unique _)).2 ?_
  intro l
  have h1 : l ∈ unique (Cl ++ Al ++ Bl) ↔ _ := mem_uniqueLabels
  have h2 : l ∈ unique (Al ++ Bl ++ Cl) ↔ _ := mem_pyLabels
  rw [h1, h2]
  tauto

theorem sum_labels {δ : L → Nat} {Al Bl Cl ls : List L} (hls : Summed Al Bl Cl ls) (fA fB : List Nat → K) (ρ : L → Nat)
    (hρ : InRange δ Cl ρ) :
    sumOver δ (uniqueLabels Cl Al Bl) (fun _ => 0)
      (fun σ => if Cl.map σ = Cl.map ρ then fA (Al.map σ) * fB (Bl.map σ) else 0) = contraction δ ls Al Bl fA fB ρ := by
  rw [sumOver_perm δ (labels_perm Cl Al Bl) (nodup_unique _)]
  exact sum_regroup hls.1 hls.2 fA fB ρ hρ

end

/-! ### Dot products -/

section
variable {K : Type} [CommSemiring K]

theorem atomicRun {value : Nat → Outcome K} {v : Nat → K} (sched : List (Nat × AtomicOp))
    (hv : ∀ a ∈ sched, a.2 = .add → value a.1 = .ok (v a.1)) (c : K) :
    sched.foldlM (atomicStep value) c =
      .ok (sched.foldl (fun c a => match a.2 with | .zero => 0 | .add => c + v a.1) c) := by
  induction sched generalizing c with
  | nil => rfl
  | cons a sched ih =>
    obtain ⟨w, op⟩ := a
    rw [List.foldlM_cons]
    cases op with
    | zero =>
      simp only [atomicStep, Outcome.ok_bind, List.foldl_cons]
      exact ih (fun a ha => hv a (by simp [ha])) 0
    | add =>
      have := hv (w, .add) (by simp) rfl
      simp only at this
      simp only [atomicStep, this, Outcome.ok_bind, List.foldl_cons]
      exact ih (fun a ha => hv a (by simp [ha])) _

theorem foldl_adds {v : Nat → K} (l : List (Nat × AtomicOp)) (h : ∀ a ∈ l, a.2 = .add) (c : K) :
    l.foldl (fun c a => match a.2 with | .zero => 0 | .add => c + v a.1) c = c + (l.map fun a => v a.1).sum := by
  induction l generalizing c with
  | nil => simp
  | cons a l ih =>
    obtain ⟨w, op⟩ := a
    have := h (w, op) (by simp)
    simp only at this
    subst this
    simp only [List.foldl_cons]
    rw [ih (fun a ha => h a (by simp [ha])), List.map_cons, List.sum_cons, add_assoc]

omit [CommSemiring K] in
theorem dotThreads_eq (A : Strided K) : dotThreads A =
    (List.range (launchSwapped (sizeMethod A.dims)).size).map fun w =>
      if w = 0 then [(w, AtomicOp.zero), (w, .add)] else [(w, .add)] := by
  unfold dotThreads; rw [threads_eq]

theorem dot_flatten {size : Nat} (h : 0 < size) :
    ((List.range size).map fun w => if w = 0 then [(w, AtomicOp.zero), (w, .add)] else [(w, .add)]).flatten =
      (0, .zero) :: (List.range size).map fun w => (w, AtomicOp.add) := by
  obtain ⟨m, rfl⟩ : ∃ m, size = m + 1 := ⟨size - 1, by omega⟩
  rw [List.range_succ_eq_map]
  simp only [List.map_cons, List.flatten_cons, if_true, List.cons_append, List.nil_append, List.map_map]
  congr 2
  induction List.range m with
  | nil => rfl
  | cons x xs ih => simp [ih]

/-- Zeroing first. -/
theorem dot_ordered {A : Strided K} {value : Nat → Outcome K} {v : Nat → K}
    (hv : ∀ w, w < (launchSwapped (sizeMethod A.dims)).size → value w = .ok (v w)) (c : K) {sched : List (Nat × AtomicOp)}
    (hs : Schedule (dotThreads A) sched) (h0 : sched.head? = some (0, .zero)) :
    sched.foldlM (atomicStep value) c = .ok ((List.range (launchSwapped (sizeMethod A.dims)).size).map v).sum := by
  rw [dotThreads_eq] at hs
  have hp := hs.perm
  rw [dot_flatten (launchSwapped_pos _)] at hp
  generalize (launchSwapped (sizeMethod A.dims)).size = size at *
  cases sched with
  | nil => simp at h0
  | cons a sched =>
    simp only [List.head?_cons, Option.some.injEq] at h0
    subst h0
    have hp := (List.perm_cons _).1 hp
    have hadd : ∀ a ∈ sched, a.2 = .add ∧ a.1 < size := by
      intro a ha
      obtain ⟨w, hw, rfl⟩ := List.mem_map.1 (hp.mem_iff.1 ha)
      exact ⟨rfl, List.mem_range.1 hw⟩
    rw [atomicRun (v := v)]
    · rw [List.foldl_cons, foldl_adds _ fun a ha => (hadd a ha).1]
      rw [zero_add, (hp.map fun a => v a.1).sum_eq, List.map_map]
      rfl
    · intro a ha hop
      rcases List.mem_cons.1 ha with rfl | ha
      · simp at hop
      · exact hv _ (hadd a ha).2

/-- The contributions of worker `w` come too early. -/
theorem dot_lost {A : Strided K} {value : Nat → Outcome K} {v : Nat → K}
    (hv : ∀ w, w < (launchSwapped (sizeMethod A.dims)).size → value w = .ok (v w)) (c : K) {w : Nat} (hw0 : 0 < w)
    (hw : w < (launchSwapped (sizeMethod A.dims)).size) : ∃ sched, Schedule (dotThreads A) sched ∧
      sched.foldlM (atomicStep value) c =
        .ok (((List.range (launchSwapped (sizeMethod A.dims)).size).filter fun x => decide (x ≠ w)).map v).sum := by
  rw [dotThreads_eq]
  generalize (launchSwapped (sizeMethod A.dims)).size = size at *
  generalize hts : ((List.range size).map fun w => if w = 0 then [(w, AtomicOp.zero), (w, .add)] else [(w, .add)]) = ts
  have hi : ts[w]? = some [(w, .add)] := by
    rw [← hts, List.getElem?_map, List.getElem?_range hw, Option.map_some, if_neg (by omega)]
  refine ⟨(w, .add) :: (ts.set w []).flatten, .step hi (Schedule.sequential _), ?_⟩
  have hfl : (ts.set w []).flatten = (0, .zero) :: ((List.range size).filter fun x => decide (x ≠ w)).map fun w => (w, AtomicOp.add) := by
    have e1 : ts.set w [] = (List.range size).map fun x => if x = w then [] else
        if x = 0 then [(x, AtomicOp.zero), (x, .add)] else [(x, .add)] := by
      apply List.ext_getElem?
      intro k
      rw [List.getElem?_set, ← hts, List.getElem?_map, List.getElem?_map]
      by_cases hk : w = k
      · subst hk
        simp [hw]
      · rw [if_neg hk]
        by_cases hks : k < size
        · rw [List.getElem?_range hks]
          simp [Ne.symm hk]
        · rw [List.getElem?_eq_none (by simpa using hks)]; rfl
    rw [e1]
    obtain ⟨m, rfl⟩ : ∃ m, size = m + 1 := ⟨size - 1, by omega⟩
    rw [List.range_succ_eq_map]
    rw [List.map_cons, List.flatten_cons, if_neg (by omega), if_pos rfl, List.filter_cons_of_pos (by simp; omega)]
    simp only [List.map_cons, List.cons_append, List.nil_append, List.map_map]
    congr 2
    induction List.range m with
    | nil => rfl
    | cons x xs ih =>
      by_cases hx : x + 1 = w
      · simp only [List.map_cons, List.flatten_cons, Function.comp_apply, Nat.succ_eq_add_one, hx, if_true, List.nil_append, ih]
        rw [List.filter_cons_of_neg (by simp)]
      · simp only [List.map_cons, List.flatten_cons, Function.comp_apply, Nat.succ_eq_add_one, hx, if_false, ih]
        rw [List.filter_cons_of_pos (by simpa using hx)]
        simp
  rw [hfl, atomicRun (v := v)]
  · rw [List.foldl_cons, List.foldl_cons, foldl_adds]
    · rw [zero_add, List.map_map]; rfl
    · intro a ha
      obtain ⟨x, _, rfl⟩ := List.mem_map.1 ha
      rfl
  · intro a ha hop
    rcases List.mem_cons.1 ha with rfl | ha
    · exact hv _ hw
    · rcases List.mem_cons.1 ha with rfl | ha
      · simp at hop
      · obtain ⟨x, hx, rfl⟩ := List.mem_map.1 ha
        exact hv _ (List.mem_range.1 (List.mem_filter.1 hx).1)

theorem dotTemp_eq {A : Strided K} {term : Nat → Outcome K} {v : Nat → K} (hd : A.dims ≠ [])
    (h : ∀ i, i < numel A.dims → term i = .ok (v i)) {w : Nat} (hw : w < (launchSwapped (sizeMethod A.dims)).size) :
    dotTemp term A w = .ok ((countersOf (numel A.dims) (launchSwapped (sizeMethod A.dims)).size w).map v).sum := by
  unfold dotTemp
  rw [show dotCount A.dims = numel A.dims from head_mul_stride hd, sumLoop_eq v, foldl_add_sum, zero_add]
  intro i hi
  exact h i ((mem_countersOf hw).1 hi).1

theorem sum_workers {n size : Nat} (hs : 0 < size) (v : Nat → K) :
    ((List.range size).map fun w => ((countersOf n size w).map v).sum).sum = ((List.range n).map v).sum := by
  rw [← ((counters_perm (size := n) hs).map v).sum_eq, List.map_flatten, List.sum_flatten, List.map_map, List.map_map]
  rfl

theorem dotTerm_eq {A B : Strided K} (wA : A.WF) (wB : B.WF) (hd : B.dims = A.dims) {f g : List Nat → K} (hf : A.Represents f)
    (hg : B.Represents g) {i : Nat} (hi : i < numel A.dims) :
    dotTerm A B i = .ok (f (unflat A.dims i) * g (unflat A.dims i)) := by
  unfold dotTerm
  rw [divAddr_eq wA.len hi, divAddr_eq (by rw [← hd]; exact wB.len) hi]
  simp only [Outcome.ok_bind, memGet]
  rw [represents_get hf (unflat_inBox hi), represents_get hg (by rw [hd]; exact unflat_inBox hi)]
  rfl

theorem trueDotTerm_eq {A B : Strided K} (lA : A.strides.length = A.dims.length) (lB : B.strides.length = A.dims.length)
    (conj : K → K) {i : Nat} (hi : i < numel A.dims) {x y : K} (hx : A.data[A.off + i]? = some x) (hy : B.data[B.off + i]? = some y) :
    trueDotTerm conj A B i = .ok (conj x * y) := by
  unfold trueDotTerm
  rw [divAddr_eq lA hi, divAddr_eq lB hi]
  simp only [Outcome.ok_bind, memGet, hx, hy]
  rfl

end

theorem divAddr_noError (ss xs : List Nat) (q : Nat) : (divAddr ss xs q).isError = false := by
  induction ss generalizing xs q with
  | nil => rfl
  | cons s ss ih =>
    cases xs with
    | nil => rfl
    | cons x xs =>
      unfold divAddr
      split
      · rfl
      · exact bind_noError (ih _ _) fun _ => rfl

theorem sumLoop_noError {K : Type} [Add K] {term : Nat → Outcome K} (h : ∀ i, (term i).isError = false) (ls : List Nat) (s : K) :
    (sumLoop term ls s).isError = false := by
  induction ls generalizing s with
  | nil => rfl
  | cons l ls ih =>
    unfold sumLoop
    exact bind_noError (h l) fun _ => ih _

theorem sumLoop_ub {K : Type} [Add K] {term : Nat → Outcome K} (h : ∀ i, (term i).isError = false) {l : Nat}
    (hl : (term l).isUb = true) {ls : List Nat} (hm : l ∈ ls) (s : K) : (sumLoop term ls s).isUb = true := by
  induction ls generalizing s with
  | nil => simp at hm
  | cons m ls ih =>
    unfold sumLoop
    cases e : term m with
    | ub _ => rfl
    | error _ =>
      have := h m
      rw [e] at this
      cases this
    | ok v =>
      simp only [Outcome.ok_bind]
      rcases List.mem_cons.1 hm with rfl | hm
      · rw [e] at hl; cases hl
      · exact ih hm _

/-! ### Contractions -/

section
variable {K : Type} [CommSemiring K] [BEq K]

/-- Effect of an operation on an element and the registers. -/
def cellStep (cp : K) (v : Nat → K) (x : K × (Nat → K)) (a : Nat × EinOp) : K × (Nat → K) :=
  match a.2 with
  | .load => (x.1, fun t => if t = a.1 then x.1 else x.2 t)
  | .store => (if cp == 0 then 0 else x.2 a.1 * cp, x.2)
  | .add => (x.1 + v a.1, x.2)

theorem cellStep_congr (cp : K) (v : Nat → K) (q : Nat → Prop) (acts : List (Nat × EinOp))
    (h : ∀ a ∈ acts, a.2 ≠ .add → q a.1) (c : K) (r r' : Nat → K) (hr : ∀ t, q t → r t = r' t) :
    (acts.foldl (cellStep cp v) (c, r)).1 = (acts.foldl (cellStep cp v) (c, r')).1 ∧
    ∀ t, q t → (acts.foldl (cellStep cp v) (c, r)).2 t = (acts.foldl (cellStep cp v) (c, r')).2 t := by
  induction acts generalizing c r r' with
  | nil => exact ⟨rfl, hr⟩
  | cons a acts ih =>
    obtain ⟨s, op⟩ := a
    have hs := h (s, op) (by simp)
    have h' : ∀ a ∈ acts, a.2 ≠ .add → q a.1 := fun a ha => h a (by simp [ha])
    cases op with
    | load =>
      simp only [List.foldl_cons, cellStep]
      apply ih h'
      intro t ht
      split
      · rfl
      · exact hr t ht
    | store =>
      simp only [List.foldl_cons, cellStep]
      rw [hr s (hs (by simp))]
      exact ih h' _ _ _ hr
    | add =>
      simp only [List.foldl_cons, cellStep]
      exact ih h' _ _ _ hr

variable {L : Type} [DecidableEq L]

/-- Any sequence of operations: every element of `C` sees the operations that address it. -/
theorem einRun {cp : K} {C : Strided K} {addr : Nat × EinOp → Outcome Nat} {term : Nat → Outcome K} (w : C.WF) (key : Nat × EinOp → List Nat) (v : Nat → K)
    (hkey : ∀ t, key (t, .load) = key (t, .store))
    (acts : List (Nat × EinOp)) (st : RmwState K) (hl : st.mem.length = C.data.length)
    {f : List Nat → K} (hf : ({ C with data := st.mem } : Strided K).Represents f)
    (hk : ∀ a ∈ acts, InBox (key a) C.dims ∧ addr a = .ok (C.off + dot (key a) C.strides) ∧
      (a.2 = .add → term a.1 = .ok (v a.1))) :
    ∃ st' f', acts.foldlM (einStepBy cp addr term) st = .ok st' ∧
      ({ C with data := st.mem } : Strided K).Frame { C with data := st'.mem } ∧
      ({ C with data := st'.mem } : Strided K).Represents f' ∧
      ∀ i, f' i = ((acts.filter fun a => key a = i).foldl (cellStep cp v) (f i, st.reg)).1 ∧
        ∀ s, key (s, .load) = i →
          st'.reg s = ((acts.filter fun a => key a = i).foldl (cellStep cp v) (f i, st.reg)).2 s := by
  induction acts generalizing st f with
  | nil => exact ⟨st, f, rfl, Strided.Frame.refl _, hf, fun i => ⟨rfl, fun _ _ => rfl⟩⟩
  | cons a acts ih =>
    obtain ⟨s, op⟩ := a
    obtain ⟨kb, ko, hx⟩ := hk (s, op) (by simp)
    have wst : ({ C with data := st.mem } : Strided K).WF := by
      refine ⟨w.len, ?_, w.inj⟩
      intro idx hi
      have := w.bound idx hi
      simp only at this ⊢
      omega
    have hget := represents_get hf kb
    simp only at hget
    have put : ∀ y : K, ({ C with data := st.mem } : Strided K).Frame
          { C with data := st.mem.set (C.off + dot (key (s, op)) C.strides) y } ∧
        ({ C with data := st.mem.set (C.off + dot (key (s, op)) C.strides) y } : Strided K).Represents
          fun i => if i = key (s, op) then y else f i := by
      intro y
      refine frame_of_mem wst (by simp) ?_ ?_
      · intro j hj
        simp only at hj ⊢
        by_cases e : j = key (s, op)
        · subst e
          rw [if_pos rfl, List.getElem?_set_self]
          have := w.bound _ hj
          omega
        · rw [if_neg e, List.getElem?_set_ne]
          · exact represents_get hf hj
          · intro e2
            exact e (w.inj _ _ hj kb (by omega))
      · intro p hp
        simp only at hp ⊢
        rw [List.getElem?_set_ne]
        exact fun e => hp _ kb e.symm
    obtain ⟨st1, f1, h1, fr1, r1, hl1, k1, k2, k3⟩ : ∃ st1 f1, einStepBy cp addr term st (s, op) = .ok st1 ∧
        ({ C with data := st.mem } : Strided K).Frame { C with data := st1.mem } ∧
        ({ C with data := st1.mem } : Strided K).Represents f1 ∧ st1.mem.length = C.data.length ∧
        (f1 (key (s, op)), st1.reg) = cellStep cp v (f (key (s, op)), st.reg) (s, op) ∧
        (∀ i, i ≠ key (s, op) → f1 i = f i) ∧ ∀ t, (op = .add ∨ t ≠ s) → st1.reg t = st.reg t := by
      cases op with
      | load =>
        refine ⟨{ st with reg := fun t => if t = s then f (key (s, .load)) else st.reg t }, f, ?_, Strided.Frame.refl _, hf, hl,
          rfl, fun _ _ => rfl, ?_⟩
        · unfold einStepBy
          simp only [ko, Outcome.ok_bind]
          unfold memGet
          rw [hget]
          rfl
        · intro t ht
          have : t ≠ s := by simpa using ht
          simp [this]
      | store =>
        obtain ⟨fr, rp⟩ := put (if cp == 0 then 0 else st.reg s * cp)
        refine ⟨{ st with mem := st.mem.set (C.off + dot (key (s, .store)) C.strides) (if cp == 0 then 0 else st.reg s * cp) },
          _, ?_, fr, rp, by simpa using hl, ?_, ?_, ?_⟩
        · unfold einStepBy
          simp only [ko, Outcome.ok_bind]
          unfold memUpd
          rw [hget]
          rfl
        · simp [cellStep]
        · intro i hi
          simp [hi]
        · exact fun _ _ => rfl
      | add =>
        obtain ⟨fr, rp⟩ := put (f (key (s, .add)) + v s)
        have hx := hx rfl
        simp only at hx
        refine ⟨{ st with mem := st.mem.set (C.off + dot (key (s, .add)) C.strides) (f (key (s, .add)) + v s) },
          _, ?_, fr, rp, by simpa using hl, ?_, ?_, ?_⟩
        · unfold einStepBy
          simp only [ko, hx, Outcome.ok_bind]
          unfold memUpd
          rw [hget]
          rfl
        · simp [cellStep]
        · intro i hi
          simp [hi]
        · exact fun _ _ => rfl
    obtain ⟨st', f', h2, fr2, r2, k4⟩ := ih st1 hl1 r1 (fun a ha => hk a (by simp [ha]))
    refine ⟨st', f', ?_, fr1.trans fr2, r2, ?_⟩
    · rw [List.foldlM_cons, h1]; exact h2
    · intro i
      obtain ⟨g1, g2⟩ := k4 i
      by_cases e : key (s, op) = i
      · subst e
        rw [List.filter_cons_of_pos (by simp), List.foldl_cons, ← k1]
        exact ⟨g1, g2⟩
      · rw [List.filter_cons_of_neg (by simpa using e)]
        have e1 := k2 i (Ne.symm e)
        have hreg : ∀ t, key (t, .load) = i → st1.reg t = st.reg t := by
          intro t ht
          apply k3
          by_cases ho : op = .add
          · exact .inl ho
          · right
            rintro rfl
            apply e
            cases op with
            | load => exact ht
            | store => rw [← hkey]; exact ht
            | add => exact (ho rfl).elim
        have := cellStep_congr cp v (fun t => key (t, .load) = i) (acts.filter fun a => key a = i)
          (by
            intro a ha hne
            have hka : key a = i := by simpa using (List.mem_filter.1 ha).2
            obtain ⟨t, o⟩ := a
            cases o with
            | load => exact hka
            | store => rw [hkey]; exact hka
            | add => simp at hne) (f i) st1.reg st.reg hreg
        rw [e1] at g1 g2
        refine ⟨g1.trans this.1, ?_⟩
        intro t ht
        rw [g2 t ht]
        exact this.2 t ht

theorem cell_adds (cp : K) (v : Nat → K) (ks : List (Nat × EinOp)) (h : ∀ a ∈ ks, a.2 = .add) (c : K) (r : Nat → K) :
    (ks.foldl (cellStep cp v) (c, r)).1 = c + (ks.map fun a => v a.1).sum := by
  induction ks generalizing c r with
  | nil => simp
  | cons a ks ih =>
    obtain ⟨s, op⟩ := a
    have := h (s, op) (by simp)
    simp only at this
    subst this
    simp only [List.foldl_cons, cellStep, List.map_cons, List.sum_cons]
    rw [ih (fun a ha => h a (by simp [ha])), add_assoc]

/-! ### The kernels for contractions -/

theorem labels_ne_nil {Cl Al Bl : List L} (h : Cl ≠ [] ∨ Al ≠ [] ∨ Bl ≠ []) (δ : L → Nat) : (uniqueLabels Cl Al Bl).map δ ≠ [] := by
  have : ∃ l, l ∈ Cl ∨ l ∈ Al ∨ l ∈ Bl := by
    rcases h with h | h | h
    · obtain ⟨l, hl⟩ := List.exists_mem_of_ne_nil _ h
      exact ⟨l, .inl hl⟩
    · obtain ⟨l, hl⟩ := List.exists_mem_of_ne_nil _ h
      exact ⟨l, .inr (.inl hl)⟩
    · obtain ⟨l, hl⟩ := List.exists_mem_of_ne_nil _ h
      exact ⟨l, .inr (.inr hl)⟩
  obtain ⟨l, hl⟩ := this
  intro e
  rw [List.map_eq_nil_iff] at e
  have := mem_uniqueLabels.2 hl
  rw [e] at this
  simp at this

theorem einBlocks_filter {cp : K} {n count : Nat} {sched : List (Nat × EinOp)}
    (h : GridRun (einBlocksOf cp n count) sched) :
    Schedule ((launchSwapped (count)).threads fun w size => einFirst cp (n) size w)
      (sched.filter fun a => decide (a.2 ≠ .add)) ∧
    Schedule ((launchSwapped (count)).threads fun w size => einSecond (count) size w)
      (sched.filter fun a => !decide (a.2 ≠ .add)) := by
  unfold einBlocksOf at h
  obtain ⟨h1, h2⟩ := gridRun_phases (q := fun a : Nat × EinOp => decide (a.2 ≠ .add)) (by
      intro b _ t ht a ha
      obtain ⟨x, _, rfl⟩ := List.mem_map.1 ht
      unfold einFirst at ha
      obtain ⟨c, _, hc⟩ := List.mem_flatMap.1 ha
      split at hc
      · simp only [List.mem_singleton] at hc
        subst hc
        rfl
      · simp only [List.mem_cons, List.not_mem_nil, or_false] at hc
        rcases hc with rfl | rfl <;> rfl) (by
      intro b _ t ht a ha
      obtain ⟨x, _, rfl⟩ := List.mem_map.1 ht
      unfold einSecond at ha
      obtain ⟨c, _, rfl⟩ := List.mem_map.1 ha
      rfl) h
  unfold Launch.threads
  rw [List.flatMap_def, List.flatMap_def]
  exact ⟨h1, h2⟩

theorem contract_general [LawfulBEq K] {δ : L → Nat} {U : List L} (hUn : U.Nodup) {C : Strided K} {fC : List Nat → K}
    (cell : (L → Nat) → List Nat) (val : (L → Nat) → K) (cp ab : K)
    (hbox : ∀ s, s < numel (U.map δ) → InBox (cell (iterEnv U δ s)) C.dims) (hC : C.Represents fC) (w : C.WF)
    {addr : Nat × EinOp → Outcome Nat} {term : Nat → Outcome K}
    (hfirst' : ∀ a : Nat × EinOp, a.2 ≠ .add → a.1 < numel C.dims → addr a = .ok (C.off + dot (unflat C.dims a.1) C.strides))
    (hadd' : ∀ s, s < numel (U.map δ) → addr (s, .add) = .ok (C.off + dot (cell (iterEnv U δ s)) C.strides))
    (hterm : ∀ s, s < numel (U.map δ) → term s = .ok (ab * val (iterEnv U δ s)))
    (r : Nat → K) {sched : List (Nat × EinOp)} (hs : GridRun (einBlocksOf cp (numel C.dims) (numel (U.map δ))) sched)
    (ho : sched.Pairwise fun a b => a.2 = .add → b.2 ≠ .add → addr a ≠ addr b) :
    ∃ st' f', sched.foldlM (einStepBy cp addr term) ⟨C.data, r⟩ = .ok st' ∧ C.Frame { C with data := st'.mem } ∧
      ({ C with data := st'.mem } : Strided K).Represents f' ∧
      ∀ i, InBox i C.dims → f' i = cp * fC i + ab * sumOver δ U (fun _ => 0)
        (fun σ => if cell σ = i then val σ else 0) := by
  obtain ⟨s1, s2⟩ := einBlocks_filter hs
  rw [threads_eq] at s1 s2
  have hsize := launchSwapped_pos (numel (U.map δ))
  generalize (launchSwapped (numel (U.map δ))).size = size at *
  obtain ⟨g1, g2⟩ := gridStride_filter hsize (ops := fun i => if cp == 0 then [(i, EinOp.store)] else [(i, .load), (i, .store)])
    (by intro c a ha; split at ha <;> simp at ha <;> rcases ha with rfl | rfl <;> rfl) s1
  have p2 : (sched.filter fun a => !decide (a.2 ≠ .add)).Perm ((List.range (numel (U.map δ))).map fun s => (s, EinOp.add)) := by
    refine s2.perm.trans ?_
    unfold einSecond
    rw [show ((List.range size).map fun w => (countersOf (numel (U.map δ)) size w).map fun i => (i, EinOp.add)) =
      (((List.range size).map (countersOf (numel (U.map δ)) size)).map (List.map fun i => (i, EinOp.add))) by
        rw [List.map_map]; rfl, ← List.map_flatten]
    exact (counters_perm hsize).map _
  let key : Nat × EinOp → List Nat := fun a => match a.2 with
    | .add => cell (iterEnv U δ a.1)
    | _ => unflat C.dims a.1
  have hadd : ∀ a ∈ sched, a.2 = .add → a.1 < numel (U.map δ) := by
    intro a ha e
    have : a ∈ sched.filter fun a => !decide (a.2 ≠ .add) := List.mem_filter.2 ⟨ha, by simp [e]⟩
    obtain ⟨s, hs, rfl⟩ := List.mem_map.1 (p2.mem_iff.1 this)
    exact List.mem_range.1 hs
  have hfirst : ∀ a ∈ sched, a.2 ≠ .add → a.1 < numel C.dims := by
    intro a ha e
    exact g2 a (List.mem_filter.2 ⟨ha, by simp [e]⟩)
  have keyAdd : ∀ s, key (s, .add) = cell (iterEnv U δ s) := fun _ => rfl
  have keyOther : ∀ a : Nat × EinOp, a.2 ≠ .add → key a = unflat C.dims a.1 := by
    intro a ha
    obtain ⟨s, op⟩ := a
    cases op with
    | add => simp at ha
    | _ => rfl
  have hk : ∀ a ∈ sched, InBox (key a) C.dims ∧ addr a = .ok (C.off + dot (key a) C.strides) ∧
      (a.2 = .add → term a.1 = .ok (ab * val (iterEnv U δ a.1))) := by
    intro a ha
    by_cases e : a.2 = .add
    · have hlt := hadd a ha e
      obtain ⟨s, op⟩ := a
      simp only at e hlt
      subst e
      refine ⟨?_, ?_, fun _ => hterm s hlt⟩
      · rw [keyAdd]
        exact hbox s hlt
      · rw [hadd' s hlt, keyAdd]
    · have hlt := hfirst a ha e
      refine ⟨?_, ?_, fun h => (e h).elim⟩
      · rw [keyOther a e]; exact unflat_inBox hlt
      · rw [hfirst' a e hlt, keyOther a e]
  obtain ⟨st', f', h2, fr, rp, h3⟩ := einRun (cp := cp) (addr := addr) (term := term) w key
    (fun s => ab * val (iterEnv U δ s)) (fun _ => rfl) sched ⟨C.data, r⟩ rfl hC hk
  refine ⟨st', f', h2, fr, rp, ?_⟩
  · intro i hi
    rw [(h3 i).1]
    have hsplit := split_of_pairwise (fun a : Nat × EinOp => decide (a.2 ≠ .add)) (l := sched.filter fun a => key a = i) (by
      have hp := List.Pairwise.filter (fun a => decide (key a = i)) ho
      have hp2 := List.Pairwise.and_mem.1 hp
      refine hp2.imp ?_
      rintro a b ⟨ha, hb, hab⟩ ⟨q1, q2⟩
      obtain ⟨ha1, ha2⟩ := List.mem_filter.1 ha
      obtain ⟨hb1, hb2⟩ := List.mem_filter.1 hb
      simp only [decide_eq_true_eq] at ha2 hb2
      refine hab (by simpa using q1) (by simpa using q2) ?_
      rw [(hk a ha1).2.1, (hk b hb1).2.1, ha2, hb2])
    rw [hsplit, List.foldl_append]
    have e1 : (sched.filter fun a => key a = i).filter (fun a => decide (a.2 ≠ .add)) =
        if cp == 0 then [(rowMajor i C.dims, EinOp.store)] else [(rowMajor i C.dims, .load), (rowMajor i C.dims, .store)] := by
      rw [← g1 _ (rowMajor_lt hi), List.filter_comm]
      apply List.filter_congr
      intro a ha
      obtain ⟨ha1, ha2⟩ := List.mem_filter.1 ha
      simp only [decide_eq_true_eq] at ha2
      rw [keyOther a ha2, decide_eq_decide]
      constructor
      · intro h
        rw [← h, rowMajor_unflat (hfirst a ha1 ha2)]
      · intro h
        rw [h, unflat_rowMajor hi]
    have e2 : ((if cp == 0 then [(rowMajor i C.dims, EinOp.store)] else [(rowMajor i C.dims, .load), (rowMajor i C.dims, .store)]).foldl
        (cellStep cp fun s => ab * val (iterEnv U δ s)) (fC i, r)).1 = cp * fC i := by
      by_cases hcp : (cp == 0) = true
      · rw [if_pos hcp]
        simp only [List.foldl_cons, List.foldl_nil, cellStep]
        rw [if_pos hcp, eq_of_beq hcp, zero_mul]
      · rw [if_neg hcp]
        simp only [List.foldl_cons, List.foldl_nil, cellStep]
        rw [if_neg hcp, if_true, mul_comm]
    rw [e1]
    generalize ((if cp == 0 then [(rowMajor i C.dims, EinOp.store)] else [(rowMajor i C.dims, .load), (rowMajor i C.dims, .store)]).foldl
        (cellStep cp fun s => ab * val (iterEnv U δ s)) (fC i, r)) = x at e2 ⊢
    obtain ⟨c, rg⟩ := x
    simp only at e2
    subst e2
    rw [cell_adds _ _ _ (by intro a ha; simpa using (List.mem_filter.1 ha).2)]
    congr 1
    have e3 : ((sched.filter fun a => key a = i).filter fun a => !decide (a.2 ≠ .add)).Perm
        (((List.range (numel (U.map δ))).filter fun s => decide (cell (iterEnv U δ s) = i)).map fun s => (s, EinOp.add)) := by
      rw [List.filter_comm]
      refine (p2.filter _).trans ?_
      rw [List.filter_map]
      exact List.Perm.refl _
    rw [(e3.map _).sum_eq, List.map_map]
    simp only [Function.comp_def]
    rw [sum_filter_map, ← sumOver_mul, ← sum_iterations hUn]
    congr 1
    apply List.map_congr_left
    intro s _
    rw [mul_ite, mul_zero]

theorem contract_sem [LawfulBEq K] {δ : L → Nat} {Al Bl Cl : List L} {A B C : Strided K} {fA fB fC : List Nat → K}
    (cp ab : K) (dA : A.dims = Al.map δ) (dB : B.dims = Bl.map δ) (dC : C.dims = Cl.map δ)
    (hA : A.Represents fA) (hB : B.Represents fB) (hC : C.Represents fC) (w : C.WF) (hC0 : Cl ≠ []) (hn : numel C.dims < 2 ^ 31)
    (r : Nat → K) {sched : List (Nat × EinOp)} (hs : GridRun (einBlocks cp C (dimRanges Cl C.dims Al A.dims Bl B.dims)) sched)
    (ho : sched.Pairwise fun a b => a.2 = .add → b.2 ≠ .add → einAddr Cl C Al A Bl B a ≠ einAddr Cl C Al A Bl B b) :
    ∃ C' f', deviceContract cp Cl C ab Al A Bl B r sched = .ok C' ∧ C.Frame C' ∧ C'.Represents f' ∧
      ∀ i, InBox i C.dims → f' i = cp * fC i + ab * sumOver δ (uniqueLabels Cl Al Bl) (fun _ => 0)
        (fun σ => if Cl.map σ = i then fA (Al.map σ) * fB (Bl.map σ) else 0) := by
  have hUn : (uniqueLabels Cl Al Bl).Nodup := nodup_unique _
  have mC : ∀ l ∈ Cl, l ∈ uniqueLabels Cl Al Bl := fun l hl => mem_uniqueLabels.2 (.inl hl)
  have mA : ∀ l ∈ Al, l ∈ uniqueLabels Cl Al Bl := fun l hl => mem_uniqueLabels.2 (.inr (.inl hl))
  have mB : ∀ l ∈ Bl, l ∈ uniqueLabels Cl Al Bl := fun l hl => mem_uniqueLabels.2 (.inr (.inr hl))
  have hU0 : (uniqueLabels Cl Al Bl).map δ ≠ [] := labels_ne_nil (.inl hC0) δ
  have hdim : dimRanges Cl C.dims Al A.dims Bl B.dims = (uniqueLabels Cl Al Bl).map δ := by
    rw [dA, dB, dC]; exact gridRanges_eq δ Cl Al Bl
  unfold einBlocks at hs
  rw [hdim, einsumCount_eq hU0, sizeMethod_small hn] at hs
  obtain ⟨st', f', e, fr, rp, h⟩ := contract_general (addr := einAddr Cl C Al A Bl B)
    (term := einsumTerm ab (uniqueLabels Cl Al Bl) (dimRanges Cl C.dims Al A.dims Bl B.dims) Al A Bl B) hUn (fun σ => Cl.map σ)
    (fun σ => fA (Al.map σ) * fB (Bl.map σ)) cp ab (fun s hs => by rw [dC]; exact operand_inBox mC hs) hC w (by
      intro a e hlt
      have : einAddr Cl C Al A Bl B a = (do
          let i ← divAddr (dimsToStrides C.dims).2 C.strides a.1
          return C.off + i) := by
        obtain ⟨s, op⟩ := a
        cases op with
        | add => simp at e
        | _ => rfl
      rw [this, divAddr_eq w.len hlt]
      rfl) (by
      intro s hlt
      unfold einAddr
      simp only
      rw [hdim, operandAddr_eq mC C hlt]) (by
      intro s hlt
      rw [hdim]
      rw [← mul_assoc]
      exact einsumTerm_eq mA mB dA dB hA hB ab hlt) r hs ho
  refine ⟨_, f', ?_, fr, rp, h⟩
  unfold deviceContract einStep
  rw [e]; rfl

omit [CommSemiring K] [BEq K] in
/-- The labels of a direct product. -/
theorem directSwap_labels {Cl Al Bl : List L} (hn : Cl.Nodup) (h : directSwap Cl Al Bl = true) :
    (∀ l ∈ Al, l ∈ Cl) ∧ ∀ l ∈ Bl, l ∈ Cl := by
  unfold directSwap intersect at h
  simp only [Bool.and_eq_true, beq_iff_eq] at h
  obtain ⟨⟨⟨⟨h1, h2⟩, h3⟩, h4⟩, h5⟩ := h
  have hA : ∀ l ∈ Al, l ∈ Cl := by
    intro l hl
    have := List.length_filter_eq_length_iff.1 h4 l hl
    simpa using this
  refine ⟨hA, ?_⟩
  rw [h2] at h5
  have hCB : ∀ l ∈ Cl, l ∈ Bl := by
    intro l hl
    have := List.length_filter_eq_length_iff.1 h5 l hl
    simpa using this
  have hsub : Cl.Subperm Bl := List.subperm_of_subset hn hCB
  have hp := hsub.perm_of_length_le (by omega)
  intro l hl
  exact hp.mem_iff.2 hl

omit [CommSemiring K] [BEq K] in
theorem iterEnv_rowMajor {U : List L} {δ ρ : L → Nat} (h : InRange δ U ρ) {l : L} (hl : l ∈ U) :
    iterEnv U δ (rowMajor (U.map ρ) (U.map δ)) l = ρ l := by
  unfold iterEnv
  rw [unflat_rowMajor (inBox_map h), bindEnv_map, if_pos hl]

omit [CommSemiring K] [BEq K] in
theorem iterEnv_inj {U Cl : List L} (hU : U.Nodup) {δ : L → Nat} (h : ∀ l ∈ U, l ∈ Cl) {s t : Nat} (hs : s < numel (U.map δ))
    (ht : t < numel (U.map δ)) (e : Cl.map (iterEnv U δ s) = Cl.map (iterEnv U δ t)) : s = t := by
  have hl : ∀ l ∈ U, iterEnv U δ s l = iterEnv U δ t l := fun l hl => List.map_inj_left.1 e l (h l hl)
  have hm : ∀ s, s < numel (U.map δ) → U.map (iterEnv U δ s) = unflat (U.map δ) s := by
    intro s hs
    have hlen : (unflat (U.map δ) s).length = U.length := by simpa using (unflat_inBox hs).length
    exact map_bindEnv hU hlen _
  rw [← rowMajor_unflat hs, ← rowMajor_unflat ht, ← hm s hs, ← hm t ht, List.map_congr_left hl]

end
end Einsums
