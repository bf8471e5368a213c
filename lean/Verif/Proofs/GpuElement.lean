import Verif.Model.GpuElement
import Verif.Spec.Gpu
import Verif.Proofs.Gpu
/-
Lemmas about the device overloads of the element operations.
-/
namespace Einsums
open Spec Model

section
variable {K : Type}

/-! ### Functions that return a new tensor -/

theorem counterAddr_eq {ds ss : List Nat} (hl : ss.length = ds.length) {q : Nat} (hq : q < numel ds) (off : Nat) :
    counterAddr off ds ss q = .ok (off + dot (decode ds q) ss) := by
  unfold counterAddr
  rw [counterOffset_eq hl hq]; rfl

theorem exists_decode {ds i : List Nat} (h : InBox i ds) : ∃ c, c < numel ds ∧ decode ds c = i := by
  have := (decode_perm ds).mem_iff.2 (mem_box.2 h)
  obtain ⟨c, hc, e⟩ := List.mem_map.1 this
  exact ⟨c, List.mem_range.1 hc, e⟩

theorem counterOffset_noError (ds ss : List Nat) (q : Nat) : (counterOffset ds ss q).isError = false := by
  induction ds generalizing ss q with
  | nil => cases ss <;> rfl
  | cons d ds ih => cases ss with
    | nil => rfl
    | cons s ss =>
      unfold counterOffset
      split
      · rfl
      · exact bind_noError (ih _ _) fun _ => rfl

/-- One operation that is undefined in every state with a property that all operations preserve. -/
theorem foldlM_ub_inv {S A : Type} {step : S → A → Outcome S} (Inv : S → Prop) (hne : ∀ s a, (step s a).isError = false)
    (hk : ∀ s a s', Inv s → step s a = .ok s' → Inv s') {bad : A} (hbad : ∀ s, Inv s → (step s bad).isUb = true) :
    ∀ (sched : List A) (s : S), Inv s → bad ∈ sched → (sched.foldlM step s).isUb = true
  | [], _, _, h => by simp at h
  | a :: sched, s, hs, h => by
    rw [List.foldlM_cons]
    have h1 := hne s a
    cases e : step s a with
    | ok s' =>
      rcases List.mem_cons.1 h with rfl | h
      · have := hbad s hs
        rw [e] at this; cases this
      · exact foldlM_ub_inv Inv hne hk hbad sched s' (hk s a s' hs e) h
    | error m => rw [e] at h1; cases h1
    | ub m => rfl

theorem rmwStep_length {addr : Nat → Outcome Nat} {f : Nat → K → Outcome K} {s s' : RmwState K} {a : Nat × RmwOp}
    (e : rmwStep addr f s a = .ok s') : s'.mem.length = s.mem.length := by
  obtain ⟨c, op⟩ := a
  unfold rmwStep at e
  simp only at e
  cases e2 : addr c with
  | error m => rw [e2] at e; cases e
  | ub m => rw [e2] at e; cases e
  | ok q =>
    rw [e2] at e
    simp only [Outcome.ok_bind] at e
    cases op with
    | load =>
      simp only at e
      cases e3 : memGet s.mem q with
      | ok v => rw [e3] at e; cases e; rfl
      | error m => rw [e3] at e; cases e
      | ub m => rw [e3] at e; cases e
    | store =>
      simp only at e
      cases e3 : f c (s.reg c) with
      | error m => rw [e3] at e; cases e
      | ub m => rw [e3] at e; cases e
      | ok v =>
        rw [e3] at e
        simp only [Outcome.ok_bind, memUpd] at e
        cases e4 : s.mem[q]? with
        | none => rw [e4] at e; cases e
        | some x =>
          rw [e4] at e
          cases e
          simp

/-- An iteration that addresses something outside the memory makes every execution undefined. -/
theorem runKernel_addr_ub {t : Strided K} {addr : Nat → Outcome Nat} {f : Nat → K → Outcome K} {r : Nat → K}
    {sched : List (Nat × RmwOp)} (ha : ∀ c, (addr c).isError = false) (hf : ∀ c v, (f c v).isError = false) {c p : Nat}
    (hc : (c, RmwOp.load) ∈ sched) (hp : addr c = .ok p) (hb : t.data.length ≤ p) :
    (runKernel t addr f r sched).isUb = true := by
  have := foldlM_ub_inv (fun s : RmwState K => s.mem.length = t.data.length) (rmwStep_noError ha hf)
    (fun s a s' hs e => (rmwStep_length e).trans hs) (bad := (c, .load)) (by
      intro s hs
      unfold rmwStep
      simp only [hp, Outcome.ok_bind, memGet]
      rw [List.getElem?_eq_none (by omega)]; rfl) sched ⟨t.data, r⟩ rfl hc
  unfold runKernel
  cases e : sched.foldlM (rmwStep addr f) ⟨t.data, r⟩ with
  | ok v => rw [e] at this; cases this
  | error m => rw [e] at this; cases this
  | ub m => rfl

theorem mem_update_load {l : Launch} (hl : 0 < l.size) {n : Nat} {sched : List (Nat × RmwOp)}
    (hs : Schedule (updateThreads l n) sched) {c : Nat} (hc : c < n) : (c, RmwOp.load) ∈ sched := by
  rw [updateThreads_eq] at hs
  obtain ⟨h1, _⟩ := gridStride_filter hl (by simp) hs
  have : (c, RmwOp.load) ∈ sched.filter (fun b => decide (b.1 = c)) := by rw [h1 c hc]; simp
  exact (List.mem_filter.1 this).1

/-- An update kernel on a row-major tensor that addresses the elements in any order. -/
theorem update_permuted {l : Launch} (hl : 0 < l.size) {t : Strided K} (ht : t.IsTensor) {f : List Nat → K}
    (hf : t.Represents f) {addr : Nat → Outcome Nat} {pos : Nat → Nat} {op : K → K}
    (ha : ∀ c, c < numel t.dims → addr c = .ok (pos c)) (hb : ∀ c, c < numel t.dims → pos c < numel t.dims)
    (hi : ∀ c d, c < numel t.dims → d < numel t.dims → pos c = pos d → c = d) (r : Nat → K)
    {sched : List (Nat × RmwOp)} (hs : Schedule (updateThreads l (numel t.dims)) sched) :
    ∃ t', runKernel t addr (fun _ v => .ok (op v)) r sched = .ok t' ∧ t'.IsTensor ∧ t'.dims = t.dims ∧
      t'.Represents fun i => op (f i) := by
  obtain ⟨d, e, h1, h2, h3⟩ := update_run (t := t) (f := fun _ v => .ok (op v)) (h := fun _ => op) hl ha
    (fun c hc => by rw [ht.length]; exact hb c hc) hi (fun _ _ _ => rfl) r hs
  have hp : ((List.range (numel t.dims)).map pos).Perm (List.range (numel t.dims)) := by
    refine (List.subperm_of_subset (List.Nodup.map_on ?_ List.nodup_range) ?_).perm_of_length_le (by simp)
    · intro c hc d hd e
      exact hi c d (List.mem_range.1 hc) (List.mem_range.1 hd) e
    · intro x hx
      obtain ⟨c, hc, rfl⟩ := List.mem_map.1 hx
      exact List.mem_range.2 (hb c (List.mem_range.1 hc))
  have fr : t.Frame { t with data := d } := by
    refine ⟨rfl, rfl, rfl, h1, ?_⟩
    intro p hpp
    apply h2
    intro c hc e
    obtain ⟨i, hi, hr⟩ : ∃ i, InBox i t.dims ∧ rowMajor i t.dims = p := by
      refine ⟨wrapIdx t.dims p, wrapIdx_inBox (by omega) p, ?_⟩
      rw [rowMajor_wrapIdx (by omega), Nat.mod_eq_of_lt (by rw [e]; exact hb c hc)]
    apply hpp i hi
    rw [ht.off, ht.strides, dot_strides_eq hi.length, hr, Nat.zero_add]
  refine ⟨_, e, ⟨ht.off, ht.strides, by rw [← ht.length]; exact h1⟩, rfl, ?_⟩
  rw [represents_iff (fr.wf ht.wf)]
  intro j hj
  have hm : rowMajor j t.dims ∈ (List.range (numel t.dims)).map pos := hp.mem_iff.2 (List.mem_range.2 (rowMajor_lt hj))
  obtain ⟨c, hc, ec⟩ := List.mem_map.1 hm
  have h4 := h3 c (List.mem_range.1 hc)
  have h5 := (represents_iff ht.wf).1 hf j hj
  rw [ht.off, ht.strides, dot_strides_eq hj.length, Nat.zero_add] at h5
  show d[t.off + dot j t.strides]? = _
  rw [ht.off, ht.strides, dot_strides_eq hj.length, Nat.zero_add, ← ec, h4, ec, h5]; rfl

/-! ### Reductions -/

/-- The contents of the shared memory after the accumulation. -/
def accumulated (R : Reduction K) (g : Nat → K) (m n size : Nat) (z : Nat → K) (p : Nat) : K :=
  if p < m then ((countersOf n size p).map g).foldl R.acc R.init else z p

/-- The contents of the shared memory after one step of the combination by the `m` threads of a block. -/
def combined (comb : K → K → K) (m size s : Nat) (a : Nat → K) (p : Nat) : K :=
  if p % 2 ^ (s + 1) = 0 ∧ p / 2 ^ (s + 1) < m ∧ p + 2 ^ s < size then comb (a p) (a (p + 2 ^ s)) else a p

/-- The contents of the shared memory after the first `k` steps. -/
def tree (comb : K → K → K) (m size : Nat) : Nat → (Nat → K) → Nat → K
  | 0, a => a
  | k + 1, a => combined comb m size k (tree comb m size k a)

/-- The part of the state that belongs to a worker during the accumulation. -/
def accLocal (R : Reduction K) (g : Nat → K) (s : Option K × K × K) : RedOp → Option K × K × K
  | .put _ => (some R.init, s.2)
  | .ld _ => (s.1, s.1.getD s.2.1, s.2.2)
  | .ldData i => (s.1, s.2.1, g i)
  | .stAcc _ => (some (R.acc s.2.1 s.2.2), s.2)
  | _ => s

theorem accumulate_local (R : Reduction K) (g : Nat → K) (n size w : Nat) (s : Option K × K × K) :
    ((accumulate n size w).foldl (accLocal R g) s).1 = some (((countersOf n size w).map g).foldl R.acc R.init) := by
  unfold accumulate
  rw [List.foldl_cons]
  generalize hs : accLocal R g s (.put w) = s0
  have h0 : s0.1 = some R.init := by rw [← hs]; rfl
  clear hs
  generalize R.init = x at h0
  induction countersOf n size w generalizing s0 x with
  | nil => simpa using h0
  | cons i is ih =>
    rw [List.flatMap_cons, List.foldl_append, List.map_cons, List.foldl_cons]
    apply ih
    simp [accLocal, h0]

theorem accumulate_run {R : Reduction K} {t : Strided K} {g : Nat → K} {n size m : Nat} (hm : m ≤ size)
    (hg : ∀ i, i < n → (do let p ← counterAddr t.off t.dims t.strides i; memGet t.data p) = .ok (g i))
    (z : Nat → K) {s : RedState K} (hs : s.work = (List.range size).map z)
    {sched : List (Nat × RedOp)}
    (h : Schedule ((List.range m).map fun w => (accumulate n size w).map (w, ·)) sched) :
    ∃ s', sched.foldlM (redStep R t) s = .ok s' ∧ s'.work = (List.range size).map (accumulated R g m n size z) := by
  obtain ⟨h1, h2⟩ := phase_filter h
  obtain ⟨s', e, i, p⟩ := local_run_of (redStep R t)
    (fun s => s.work.length = size ∧ ∀ p, m ≤ p → s.work[p]? = ((List.range size).map z)[p]?)
    (fun w s => (s.work[w]?, s.fst w, s.snd w)) (fun _ => accLocal R g) m (fun a => a.2 ∈ accumulate n size a.1) (by
      intro s w op ⟨hl, ho⟩ hw hop
      have hpw : w < s.work.length := by omega
      have put : ∀ v : K, ∃ s', (do let mm ← memUpd s.work w fun _ => .ok v; return { s with work := mm } : Outcome (RedState K)) = .ok s' ∧
          (s'.work.length = size ∧ ∀ p, m ≤ p → s'.work[p]? = ((List.range size).map z)[p]?) ∧
          (s'.work[w]?, s'.fst w, s'.snd w) = (some v, s.fst w, s.snd w) ∧
          ∀ d, d ≠ w → d < m → (s'.work[d]?, s'.fst d, s'.snd d) = (s.work[d]?, s.fst d, s.snd d) := by
        intro v
        simp only [memUpd, List.getElem?_eq_getElem hpw, Outcome.ok_bind]
        refine ⟨_, rfl, ⟨by simpa using hl, ?_⟩, ?_, ?_⟩
        · intro p hp
          simp only
          rw [List.getElem?_set_ne (by omega)]; exact ho p hp
        · simp [hpw]
        · intro d hd _
          simp only
          rw [List.getElem?_set_ne (Ne.symm hd)]
      unfold accumulate at hop
      simp only [List.mem_cons, List.mem_flatMap, List.not_mem_nil, or_false] at hop
      rcases hop with rfl | ⟨i, hi, rfl | rfl | rfl⟩
      · exact put R.init
      · unfold redStep
        simp only [memGet, List.getElem?_eq_getElem hpw, Outcome.ok_bind]
        refine ⟨_, rfl, ⟨hl, ho⟩, ?_, ?_⟩
        · simp [accLocal, List.getElem?_eq_getElem hpw]
        · intro d hd _; simp [hd]
      · unfold redStep
        simp only
        have hin : i < n := ((mem_countersOf (by omega)).1 hi).1
        rw [← bind_assoc, hg i hin]
        refine ⟨_, rfl, ⟨hl, ho⟩, ?_, ?_⟩
        · simp [accLocal]
        · intro d hd _; simp [hd]
      · exact put _) sched h2 s ⟨by rw [hs]; simp, fun _ _ => by rw [hs]⟩
  refine ⟨s', e, ?_⟩
  apply List.ext_getElem?
  intro q
  by_cases hq : q < size
  · rw [List.getElem?_map, List.getElem?_range hq]
    by_cases hqm : q < m
    · have := congrArg Prod.fst (p q hqm)
      simp only at this
      rw [this, h1 q hqm, accumulate_local]
      simp [accumulated, hqm]
    · rw [i.2 q (by omega), List.getElem?_map, List.getElem?_range hq]
      simp [accumulated, hqm]
  · rw [List.getElem?_eq_none (by omega), List.getElem?_eq_none (by simp; omega)]

/-- The part of the state that belongs to a worker during a step of the combination. -/
def combLocal (comb : K → K → K) (s : Option K × Option K × K × K) : RedOp → Option K × Option K × K × K
  | .ld _ => (s.1, s.2.1, s.1.getD s.2.2.1, s.2.2.2)
  | .ldNext _ => (s.1, s.2.1, s.2.2.1, s.2.1.getD s.2.2.2)
  | .stComb _ => (some (comb s.2.2.1 s.2.2.2), s.2)
  | _ => s

theorem combine_run {R : Reduction K} {t : Strided K} {size m k : Nat} (a : Nat → K) {s : RedState K}
    (hs : s.work = (List.range size).map a) {sched : List (Nat × RedOp)}
    (h : Schedule ((List.range m).map fun w => (combine size k w).map (w, ·)) sched) :
    ∃ s', sched.foldlM (redStep R t) s = .ok s' ∧ s'.work = (List.range size).map (combined R.comb m size k a) := by
  obtain ⟨h1, h2⟩ := phase_filter h
  have hpow : 0 < 2 ^ k := Nat.pow_pos (by omega)
  have hsh : ∀ w, w <<< (k + 1) = w * (2 * 2 ^ k) := fun w => by rw [Nat.shiftLeft_eq, Nat.pow_succ, Nat.mul_comm (2 ^ k)]
  have hone : 1 <<< k = 2 ^ k := by rw [Nat.shiftLeft_eq, Nat.one_mul]
  have hidx : ∀ c d, c ≠ d → c * (2 * 2 ^ k) ≠ d * (2 * 2 ^ k) ∧ c * (2 * 2 ^ k) ≠ d * (2 * 2 ^ k) + 2 ^ k := by
    intro c d hcd
    constructor
    · intro e
      exact hcd (Nat.eq_of_mul_eq_mul_right (by omega) e)
    · intro e
      rcases Nat.lt_or_ge d c with hlt | hge
      · have := Nat.mul_le_mul_right (2 * 2 ^ k) (show d + 1 ≤ c from hlt)
        rw [Nat.add_mul] at this
        omega
      · have := Nat.mul_le_mul_right (2 * 2 ^ k) hge
        omega
  have hact : ∀ w, combine size k w = if w * (2 * 2 ^ k) + 2 ^ k < size
      then [.ld (w * (2 * 2 ^ k)), .ldNext (w * (2 * 2 ^ k) + 2 ^ k), .stComb (w * (2 * 2 ^ k))] else [] := by
    intro w
    unfold combine
    simp only [hsh, hone]
    by_cases hw : w * (2 * 2 ^ k) + 2 ^ k < size
    · rw [if_pos ⟨by omega, hw⟩, if_pos hw]
    · rw [if_neg (fun h => hw h.2), if_neg hw]
  obtain ⟨s', e, i, p⟩ := local_run_of (redStep R t)
    (fun s => s.work.length = size ∧ ∀ p, (∀ w, w < m → w * (2 * 2 ^ k) + 2 ^ k < size → p ≠ w * (2 * 2 ^ k)) →
      s.work[p]? = ((List.range size).map a)[p]?)
    (fun w s => (s.work[w * (2 * 2 ^ k)]?, s.work[w * (2 * 2 ^ k) + 2 ^ k]?, s.fst w, s.snd w)) (fun _ => combLocal R.comb) m
    (fun a => a.2 ∈ combine size k a.1) (by
      intro s w op ⟨hl, ho⟩ hw hop
      rw [hact] at hop
      by_cases hws : w * (2 * 2 ^ k) + 2 ^ k < size
      · rw [if_pos hws] at hop
        have hi1 : w * (2 * 2 ^ k) < s.work.length := by omega
        have hi2 : w * (2 * 2 ^ k) + 2 ^ k < s.work.length := by omega
        simp only [List.mem_cons, List.not_mem_nil, or_false] at hop
        rcases hop with rfl | rfl | rfl
        · unfold redStep
          simp only [memGet, List.getElem?_eq_getElem hi1, Outcome.ok_bind]
          refine ⟨_, rfl, ⟨hl, ho⟩, ?_, ?_⟩
          · simp [combLocal, List.getElem?_eq_getElem hi1]
          · intro d hd _; simp [hd]
        · unfold redStep
          simp only [memGet, List.getElem?_eq_getElem hi2, Outcome.ok_bind]
          refine ⟨_, rfl, ⟨hl, ho⟩, ?_, ?_⟩
          · simp [combLocal, List.getElem?_eq_getElem hi2]
          · intro d hd _; simp [hd]
        · unfold redStep
          simp only [memUpd, List.getElem?_eq_getElem hi1, Outcome.ok_bind]
          refine ⟨_, rfl, ⟨by simpa using hl, ?_⟩, ?_, ?_⟩
          · intro p hp
            simp only
            rw [List.getElem?_set_ne (Ne.symm (hp w hw hws))]
            exact ho p hp
          · simp only [combLocal]
            rw [List.getElem?_set_self hi1, List.getElem?_set_ne (by omega)]
          · intro d hd _
            simp only
            rw [List.getElem?_set_ne (hidx w d (Ne.symm hd)).1, List.getElem?_set_ne (hidx w d (Ne.symm hd)).2]
      · rw [if_neg hws] at hop
        simp at hop) sched h2 s ⟨by rw [hs]; simp, fun _ _ => by rw [hs]⟩
  refine ⟨s', e, ?_⟩
  apply List.ext_getElem?
  intro q
  by_cases hq : q < size
  · rw [List.getElem?_map, List.getElem?_range hq]
    simp only [Option.map_some]
    unfold combined
    have hp2 : 2 ^ (k + 1) = 2 * 2 ^ k := by rw [Nat.pow_succ, Nat.mul_comm]
    rw [hp2]
    by_cases hc : q % (2 * 2 ^ k) = 0 ∧ q / (2 * 2 ^ k) < m ∧ q + 2 ^ k < size
    · rw [if_pos hc]
      obtain ⟨c1, c2, c3⟩ := hc
      have hqe : q / (2 * 2 ^ k) * (2 * 2 ^ k) = q := Nat.div_mul_cancel (Nat.dvd_of_mod_eq_zero c1)
      have := congrArg Prod.fst (p _ c2)
      simp only at this
      rw [hqe] at this
      rw [this, h1 _ c2, hact, hqe, if_pos c3, hs, List.getElem?_map, List.getElem?_map, List.getElem?_range hq,
        List.getElem?_range c3]
      rfl
    · rw [if_neg hc, i.2 q, List.getElem?_map, List.getElem?_range hq]
      · rfl
      · intro w hw hws e
        apply hc
        subst e
        exact ⟨Nat.mul_mod_left _ _, by rw [Nat.mul_div_cancel _ (by omega)]; exact hw, hws⟩
  · rw [List.getElem?_eq_none (by omega), List.getElem?_eq_none (by simp; omega)]

theorem combine_phases {R : Reduction K} {t : Strided K} {size m : Nat} (a : Nat → K) (k0 k : Nat) {s : RedState K}
    (hs : s.work = (List.range size).map (tree R.comb m size k0 a)) {sched : List (Nat × RedOp)}
    (h : BlockRun ((List.range' k0 k).map fun j => (List.range m).map fun w => (combine size j w).map (w, ·)) sched) :
    ∃ s', sched.foldlM (redStep R t) s = .ok s' ∧ s'.work = (List.range size).map (tree R.comb m size (k0 + k) a) := by
  induction k generalizing k0 s sched with
  | zero =>
    cases h
    exact ⟨s, rfl, hs⟩
  | succ k ih =>
    rw [List.range'_succ, List.map_cons] at h
    cases h with
    | phase h1 h2 =>
      obtain ⟨s1, e1, w1⟩ := combine_run (R := R) (t := t) _ hs h1
      obtain ⟨s2, e2, w2⟩ := ih (k0 + 1) (s := s1) w1 h2
      refine ⟨s2, ?_, by rw [w2]; congr 2; omega⟩
      rw [List.foldlM_append, e1]; exact e2

/-- The result of the reduction, whatever the interleaving. -/
theorem deviceReduce_eq {R : Reduction K} {t : Strided K} {g : Nat → K} (z r r' : Nat → K)
    (hg : ∀ i, i < sizeMethod t.dims → (do let p ← counterAddr t.off t.dims t.strides i; memGet t.data p) = .ok (g i))
    {sched : List (Nat × RedOp)} (h : BlockRun (reducePhases t) sched) :
    deviceReduce R t z r r' sched = .ok (tree R.comb (blockSize (sizeMethod t.dims)).x
      (launchStraight (sizeMethod t.dims)).size (redSteps (launchStraight (sizeMethod t.dims)).size)
      (accumulated R g (blockSize (sizeMethod t.dims)).x (sizeMethod t.dims) (launchStraight (sizeMethod t.dims)).size z) 0) := by
  generalize hn : sizeMethod t.dims = n at *
  obtain ⟨b1, b2, b3, b4⟩ := blockSize_pos n
  obtain ⟨g1, g2, g3, g4⟩ := gpuBlocks_pos n
  have hsz := launchStraight_size n
  have hpos := launchStraight_pos n
  have hm : (blockSize n).x ≤ (launchStraight n).size := by rw [hsz]; exact Nat.le_mul_of_pos_right _ g1
  unfold reducePhases redPhases at h
  rw [hn] at h
  have hb : (launchStraight n).block.x * (launchStraight n).block.y * (launchStraight n).block.z = (blockSize n).x := by
    simp [launchStraight, b3, b4]
  simp only [hb] at h
  cases h with
  | phase h1 h2 =>
    obtain ⟨s1, e1, w1⟩ := accumulate_run (R := R) hm hg z
      (s := ⟨(List.range (launchStraight n).size).map z, r, r'⟩) rfl h1
    rw [List.range_eq_range' (n := redSteps (launchStraight n).size)] at h2
    obtain ⟨s2, e2, w2⟩ := combine_phases (R := R) (t := t) (m := (blockSize n).x)
      (accumulated R g (blockSize n).x n (launchStraight n).size z) 0 _ (s := s1) w1 h2
    unfold deviceReduce
    simp only [hn]
    rw [List.foldlM_append, e1]
    simp only [Outcome.ok_bind]
    rw [e2]
    simp only [Outcome.ok_bind, memGet, w2]
    rw [List.getElem?_map, List.getElem?_range hpos, Nat.zero_add]
    rfl

/-! ### What the reduction computes -/

/-- The two operations of the reduction are the same, commutative and associative, and the initial value is neutral. -/
structure Model.Reduction.Lawful (R : Reduction K) : Prop where
  same : ∀ a b, R.acc a b = R.comb a b
  comm : ∀ a b, R.comb a b = R.comb b a
  assoc : ∀ a b c, R.comb (R.comb a b) c = R.comb a (R.comb b c)
  unit : ∀ a, R.comb R.init a = a

/-- All the values of a list together. -/
def Model.Reduction.all (R : Reduction K) (xs : List K) : K := xs.foldr R.comb R.init

theorem Model.Reduction.Lawful.all_append {R : Reduction K} (h : R.Lawful) (xs ys : List K) :
    R.all (xs ++ ys) = R.comb (R.all xs) (R.all ys) := by
  unfold Reduction.all
  induction xs with
  | nil => simp [h.unit]
  | cons x xs ih => rw [List.cons_append, List.foldr_cons, ih, List.foldr_cons, h.assoc]

theorem Model.Reduction.Lawful.all_perm {R : Reduction K} (h : R.Lawful) {xs ys : List K} (p : xs.Perm ys) :
    R.all xs = R.all ys := by
  have : LeftCommutative R.comb := ⟨fun a b c => by rw [← h.assoc, h.comm a b, h.assoc]⟩
  exact p.foldr_eq _

theorem Model.Reduction.Lawful.foldl_acc {R : Reduction K} (h : R.Lawful) (xs : List K) (x : K) :
    xs.foldl R.acc x = R.comb x (R.all xs) := by
  induction xs generalizing x with
  | nil => rw [h.comm]; exact (h.unit x).symm
  | cons y xs ih =>
    rw [List.foldl_cons, ih, h.same]
    exact h.assoc _ _ _

theorem Model.Reduction.Lawful.all_flatten {R : Reduction K} (h : R.Lawful) (xss : List (List K)) :
    R.all (xss.map R.all) = R.all xss.flatten := by
  induction xss with
  | nil => rfl
  | cons xs xss ih =>
    rw [List.flatten_cons, h.all_append, ← ih]; rfl

theorem tree_eq {R : Reduction K} (h : R.Lawful) {m size : Nat} (a : Nat → K) (k i : Nat) (hi : i % 2 ^ k = 0)
    (h1 : i + 2 ^ k ≤ 2 * m) (h2 : i + 2 ^ k ≤ size) :
    tree R.comb m size k a i = R.all ((List.range' i (2 ^ k)).map a) := by
  induction k generalizing i with
  | zero =>
    simp only [tree, Nat.pow_zero, List.range'_one, List.map_cons, List.map_nil, Reduction.all, List.foldr_cons, List.foldr_nil]
    rw [h.comm, h.unit]
  | succ k ih =>
    have hpow : 0 < 2 ^ k := Nat.pow_pos (by omega)
    have hp2 : 2 ^ (k + 1) = 2 * 2 ^ k := by rw [Nat.pow_succ, Nat.mul_comm]
    have hdvd : 2 * 2 ^ k ∣ i := Nat.dvd_of_mod_eq_zero (by rw [← hp2]; exact hi)
    have hdvd' : 2 ^ k ∣ i := Nat.dvd_trans (Nat.dvd_mul_left _ _) hdvd
    have hj : i / (2 * 2 ^ k) < m := by
      rw [Nat.div_lt_iff_lt_mul (by omega)]
      have : m * 2 ≤ m * (2 * 2 ^ k) := Nat.mul_le_mul_left _ (by omega)
      omega
    simp only [tree, combined]
    rw [if_pos ⟨hi, by rw [hp2]; exact hj, by omega⟩,
      ih i (Nat.mod_eq_zero_of_dvd hdvd') (by omega) (by omega),
      ih (i + 2 ^ k) (Nat.mod_eq_zero_of_dvd ((Nat.dvd_add_right hdvd').2 (Nat.dvd_refl _))) (by omega) (by omega),
      ← h.all_append, ← List.map_append, hp2, Nat.two_mul, ← List.range'_append_1]

theorem redSteps_eq {size : Nat} (h : 2 ≤ size) (h2 : size < 2 ^ 32) : redSteps size = Nat.log2 size - 1 := by
  have h3 : Nat.log2 size < 32 := (Nat.log2_lt (by omega)).2 h2
  have h4 : 1 ≤ Nat.log2 size := (Nat.le_log2 (by omega)).2 h
  unfold redSteps clz32
  rw [if_neg (by omega)]
  omega

/-- The number of workers that take part in the result. -/
theorem redSteps_pow {n : Nat} :
    2 * 2 ^ redSteps (launchStraight n).size ≤ (launchStraight n).size ∧
      (launchStraight n).size < 4 * 2 ^ redSteps (launchStraight n).size := by
  obtain ⟨b1, b2, b3, b4⟩ := blockSize_pos n
  obtain ⟨g1, g2, g3, g4⟩ := gpuBlocks_pos n
  have hsz := launchStraight_size n
  have hb : 32 ≤ (blockSize n).x := by
    unfold blockSize dim3
    split
    · simp
    · split
      · rename_i h1 h2
        have : ∀ m, m < 256 → 32 ≤ m → 32 ≤ m &&& 0xf0 := by decide +kernel
        exact this n h2 (by omega)
      · simp
  have hs : 32 ≤ (launchStraight n).size := by
    rw [hsz]; exact Nat.le_trans hb (Nat.le_mul_of_pos_right _ g1)
  have hs2 : (launchStraight n).size ≤ 4096 := by
    rw [hsz]; exact Nat.mul_le_mul b2 g2
  generalize (launchStraight n).size = size at *
  rw [redSteps_eq (by omega) (by omega)]
  have h1 : 1 ≤ Nat.log2 size := (Nat.le_log2 (by omega)).2 (by omega)
  have h2 : 2 * 2 ^ (Nat.log2 size - 1) = 2 ^ Nat.log2 size := by
    rw [Nat.mul_comm, ← Nat.pow_succ]; congr 1; omega
  have h3 := Nat.log2_self_le (n := size) (by omega)
  have h4 := Nat.lt_log2_self (n := size)
  rw [Nat.pow_succ] at h4
  omega

end

end Einsums
