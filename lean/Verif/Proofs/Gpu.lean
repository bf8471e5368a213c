import Verif.Model.Gpu
import Verif.Proofs.ElementOps
/-
Lemmas about kernel launches: the numbering of the workers, the distribution of the iterations, and what holds for every
interleaving of kernels in which different iterations touch different elements.
-/
namespace Einsums
open Spec Model

/-! ### Numbering of the workers -/

theorem range_mul {β : Type} (L : List β) (g : β → Nat) (m n : Nat) (h : L.map g = List.range m) :
    L.flatMap (fun a => (List.range n).map fun i => i + n * g a) = List.range (n * m) := by
  have e : L.flatMap (fun a => (List.range n).map fun i => i + n * g a) =
      (L.map g).flatMap fun k => (List.range n).map fun i => i + n * k := by
    rw [List.flatMap_map]
  rw [e, h]
  clear e h
  induction m with
  | zero => simp
  | succ m ih =>
    rw [List.range_succ, List.flatMap_append, ih, Nat.mul_succ, List.range_add]
    congr 1
    simp [Nat.add_comm]

theorem coords_range (d : Dim3) :
    d.coords.map (fun c => c.x + d.x * (c.y + d.y * c.z)) = List.range (d.x * (d.y * d.z)) := by
  unfold Dim3.coords
  have h1 := range_mul (List.range d.z) id d.z d.y (by simp)
  have h2 := range_mul ((List.range d.z).flatMap fun z => (List.range d.y).map fun y => (y, z))
    (fun p => p.1 + d.y * p.2) (d.y * d.z) d.x (by
      rw [← h1, List.map_flatMap]; simp [Function.comp_def])
  rw [← h2, List.map_flatMap, List.flatMap_assoc]
  congr 1
  funext z
  rw [List.map_flatMap, List.flatMap_map]
  congr 1
  funext y
  simp [Function.comp_def]

theorem worker_split (l : Launch) (b t : Dim3) :
    l.worker b t = (t.x + l.block.x * (t.y + l.block.y * t.z)) +
      (l.block.x * (l.block.y * l.block.z)) * (b.x + l.grid.x * (b.y + l.grid.y * b.z)) := by
  unfold Launch.worker; ring

theorem workers_range (l : Launch) :
    (l.grid.coords.flatMap fun b => l.block.coords.map fun t => l.worker b t) = List.range l.size := by
  have h := range_mul l.grid.coords (fun b => b.x + l.grid.x * (b.y + l.grid.y * b.z)) _
    (l.block.x * (l.block.y * l.block.z)) (coords_range l.grid)
  rw [show l.size = l.block.x * (l.block.y * l.block.z) * (l.grid.x * (l.grid.y * l.grid.z)) by
    unfold Launch.size; ring, ← h]
  congr 1
  funext b
  rw [← coords_range l.block, List.map_map]
  congr 1
  funext t
  rw [worker_split]; rfl

theorem threads_eq (l : Launch) (body : Nat → Nat → List α) :
    l.threads body = (List.range l.size).map fun w => body w l.size := by
  unfold Launch.threads
  rw [← workers_range l, List.map_flatMap]
  congr 1
  funext b
  rw [List.map_map]; rfl

theorem blockSize_pos (n : Nat) : 0 < (blockSize n).x ∧ (blockSize n).x ≤ 256 ∧ (blockSize n).y = 1 ∧ (blockSize n).z = 1 := by
  unfold blockSize dim3
  split
  · simp
  · split
    · rename_i h1 h2
      have : ∀ m, m < 256 → 32 ≤ m → 0 < m &&& 0xf0 ∧ m &&& 0xf0 ≤ 256 := by decide +kernel
      have := this n h2 (by omega)
      exact ⟨this.1, this.2, rfl, rfl⟩
    · simp

theorem gpuBlocks_pos (n : Nat) : 0 < (gpuBlocks n).x ∧ (gpuBlocks n).x ≤ 16 ∧ (gpuBlocks n).y = 1 ∧ (gpuBlocks n).z = 1 := by
  unfold gpuBlocks dim3
  split
  · simp
  · split
    · rename_i h1 h2
      refine ⟨?_, ?_, rfl, rfl⟩
      · simp only; omega
      · simp only; omega
    · simp

theorem launchSwapped_size (n : Nat) : (launchSwapped n).size = (blockSize n).x * (gpuBlocks n).x := by
  obtain ⟨_, _, h1, h2⟩ := blockSize_pos n
  obtain ⟨_, _, h3, h4⟩ := gpuBlocks_pos n
  simp [Launch.size, launchSwapped, h1, h2, h3, h4]

theorem launchStraight_size (n : Nat) : (launchStraight n).size = (blockSize n).x * (gpuBlocks n).x := by
  obtain ⟨_, _, h1, h2⟩ := blockSize_pos n
  obtain ⟨_, _, h3, h4⟩ := gpuBlocks_pos n
  simp [Launch.size, launchStraight, h1, h2, h3, h4, Nat.mul_comm]

theorem launchSwapped_pos (n : Nat) : 0 < (launchSwapped n).size := by
  rw [launchSwapped_size]; exact Nat.mul_pos (blockSize_pos n).1 (gpuBlocks_pos n).1

theorem launchStraight_pos (n : Nat) : 0 < (launchStraight n).size := by
  rw [launchStraight_size]; exact Nat.mul_pos (blockSize_pos n).1 (gpuBlocks_pos n).1

/-! ### The iterations of a grid-stride loop -/

section
variable {Op : Type}

theorem filter_flatMap_ops {cs : List Nat} (hn : cs.Nodup) {ops : Nat → List (Nat × Op)} (ho : ∀ c, ∀ a ∈ ops c, a.1 = c)
    (c : Nat) : (cs.flatMap ops).filter (fun a => decide (a.1 = c)) = if c ∈ cs then ops c else [] := by
  induction cs with
  | nil => simp
  | cons d cs ih =>
    rw [List.flatMap_cons, List.filter_append, ih hn.of_cons]
    have hd : d ∉ cs := (List.nodup_cons.1 hn).1
    by_cases e : d = c
    · subst e
      rw [List.filter_eq_self.2 (by intro a ha; simp [ho d a ha])]
      simp [hd]
    · rw [List.filter_eq_nil_iff.2 (by intro a ha; simp [ho d a ha, e])]
      simp [Ne.symm e]

/-- Every iteration is done by exactly one worker, in the order of its program. -/
theorem gridStride_filter {n size : Nat} (hs : 0 < size) {ops : Nat → List (Nat × Op)} (ho : ∀ c, ∀ a ∈ ops c, a.1 = c)
    {sched : List (Nat × Op)}
    (h : Schedule ((List.range size).map fun w => (countersOf n size w).flatMap ops) sched) :
    (∀ c, c < n → sched.filter (fun a => decide (a.1 = c)) = ops c) ∧ ∀ a ∈ sched, a.1 < n := by
  have hf : ((List.range size).map fun w => (countersOf n size w).flatMap ops).flatten =
      (((List.range size).map (countersOf n size)).flatten).flatMap ops := by
    rw [List.flatMap_def, List.map_flatten, List.flatten_flatten, List.map_map, List.map_map]
    congr 1
  have hp := counters_perm (size := n) hs
  constructor
  · intro c hc
    rw [h.filter, hf, filter_flatMap_ops (hp.nodup_iff.2 List.nodup_range) ho, if_pos]
    · rw [hp.mem_iff]; exact List.mem_range.2 hc
    · intro i j a b ha hb hij
      rw [List.getElem?_map] at ha hb
      rw [Option.map_eq_some_iff] at ha hb
      obtain ⟨i', hi, rfl⟩ := ha
      obtain ⟨j', hj, rfl⟩ := hb
      obtain ⟨hi1, hi2⟩ := List.getElem?_eq_some_iff.1 hi
      obtain ⟨hj1, hj2⟩ := List.getElem?_eq_some_iff.1 hj
      simp only [List.length_range] at hi1 hj1
      simp only [List.getElem_range] at hi2 hj2
      subst hi2; subst hj2
      rw [filter_flatMap_ops (nodup_countersOf hs) ho, filter_flatMap_ops (nodup_countersOf hs) ho]
      by_cases e : c % size = i
      · right
        rw [if_neg]
        rw [mem_countersOf hj1]; omega
      · left
        rw [if_neg]
        rw [mem_countersOf hi1]; omega
  · intro a ha
    have := h.perm.mem_iff.1 ha
    rw [hf, List.mem_flatMap] at this
    obtain ⟨c, hc, hac⟩ := this
    rw [ho c a hac]
    exact List.mem_range.1 (hp.mem_iff.1 hc)

/-- An execution in which every operation works on the part of the state that belongs to its iteration. -/
theorem local_run_of {S L : Type} (step : S → Nat × Op → Outcome S) (Inv : S → Prop) (part : Nat → S → L)
    (lstep : Nat → L → Op → L) (n : Nat) (P : Nat × Op → Prop)
    (h : ∀ s c op, Inv s → c < n → P (c, op) → ∃ s', step s (c, op) = .ok s' ∧ Inv s' ∧ part c s' = lstep c (part c s) op ∧
      ∀ d, d ≠ c → d < n → part d s' = part d s)
    (sched : List (Nat × Op)) (hd : ∀ a ∈ sched, a.1 < n ∧ P a) (s : S) (hs : Inv s) :
    ∃ s', sched.foldlM step s = .ok s' ∧ Inv s' ∧ ∀ c, c < n →
      part c s' = ((sched.filter (fun a => decide (a.1 = c))).map (·.2)).foldl (lstep c) (part c s) := by
  induction sched generalizing s with
  | nil => exact ⟨s, rfl, hs, fun _ _ => rfl⟩
  | cons a sched ih =>
    obtain ⟨c, op⟩ := a
    obtain ⟨s1, e1, i1, p1, q1⟩ := h s c op hs (hd (c, op) (by simp)).1 (hd (c, op) (by simp)).2
    obtain ⟨s2, e2, i2, p2⟩ := ih (fun a ha => hd a (by simp [ha])) s1 i1
    refine ⟨s2, ?_, i2, ?_⟩
    · rw [List.foldlM_cons, e1]; exact e2
    · intro d hdn
      rw [p2 d hdn]
      by_cases e : c = d
      · subst e
        rw [List.filter_cons_of_pos (by simp)]
        simp [p1]
      · rw [List.filter_cons_of_neg (by simp [e]), q1 d (Ne.symm e) hdn]

theorem local_run {S L : Type} (step : S → Nat × Op → Outcome S) (Inv : S → Prop) (part : Nat → S → L)
    (lstep : Nat → L → Op → L) (n : Nat)
    (h : ∀ s c op, Inv s → c < n → ∃ s', step s (c, op) = .ok s' ∧ Inv s' ∧ part c s' = lstep c (part c s) op ∧
      ∀ d, d ≠ c → d < n → part d s' = part d s)
    (sched : List (Nat × Op)) (hd : ∀ a ∈ sched, a.1 < n) (s : S) (hs : Inv s) :
    ∃ s', sched.foldlM step s = .ok s' ∧ Inv s' ∧ ∀ c, c < n →
      part c s' = ((sched.filter (fun a => decide (a.1 = c))).map (·.2)).foldl (lstep c) (part c s) :=
  local_run_of step Inv part lstep n (fun _ => True) (fun s c op hs hc _ => h s c op hs hc) sched
    (fun a ha => ⟨hd a ha, trivial⟩) s hs

theorem countersOf_self {m w : Nat} (h : w < m) : countersOf m m w = [w] := by
  unfold countersOf
  have : (m - w + m - 1) / m = 1 := by
    rw [Nat.div_eq_iff (by omega)]; omega
  rw [this]; simp

/-- The operations of a phase, thread by thread. -/
theorem phase_filter {m : Nat} {prog : Nat → List Op} {sched : List (Nat × Op)}
    (h : Schedule ((List.range m).map fun w => (prog w).map (w, ·)) sched) :
    (∀ w, w < m → (sched.filter (fun a => decide (a.1 = w))).map (·.2) = prog w) ∧
      ∀ a ∈ sched, a.1 < m ∧ a.2 ∈ prog a.1 := by
  rcases Nat.eq_zero_or_pos m with rfl | hm
  · have := h.perm
    simp at this
    subst this
    simp
  · have e : ((List.range m).map fun w => (prog w).map (w, ·)) =
        (List.range m).map fun w => (countersOf m m w).flatMap fun w => (prog w).map (w, ·) := by
      apply List.map_congr_left
      intro w hw
      rw [countersOf_self (List.mem_range.1 hw)]; simp
    rw [e] at h
    obtain ⟨h1, h2⟩ := gridStride_filter hm (by intro c a ha; obtain ⟨x, _, rfl⟩ := List.mem_map.1 ha; rfl) h
    refine ⟨?_, ?_⟩
    · intro w hw
      rw [h1 w hw, List.map_map]; simp [Function.comp_def]
    · intro a ha
      refine ⟨h2 a ha, ?_⟩
      have : a ∈ sched.filter (fun b => decide (b.1 = a.1)) := List.mem_filter.2 ⟨ha, by simp⟩
      rw [h1 _ (h2 a ha)] at this
      obtain ⟨x, hx, e⟩ := List.mem_map.1 this
      rw [← e]; exact hx

end

/-! ### Kernels that update an element in each iteration -/

section
variable {K : Type}

/-- The part of the state of an iteration: its element and its register. -/
def rmwLocal (h : Nat → K → K) (c : Nat) (s : Option K × K) : RmwOp → Option K × K
  | .load => (s.1, s.1.getD s.2)
  | .store => (some (h c s.2), s.2)

theorem rmw_run {n : Nat} {addr : Nat → Outcome Nat} {pos : Nat → Nat} {f : Nat → K → Outcome K} {h : Nat → K → K}
    {mem : List K} (ha : ∀ c, c < n → addr c = .ok (pos c)) (hb : ∀ c, c < n → pos c < mem.length)
    (hi : ∀ c d, c < n → d < n → pos c = pos d → c = d) (hf : ∀ c, c < n → ∀ v, f c v = .ok (h c v)) (r : Nat → K)
    {sched : List (Nat × RmwOp)} (hd : ∀ a ∈ sched, a.1 < n) :
    ∃ s', sched.foldlM (rmwStep addr f) ⟨mem, r⟩ = .ok s' ∧ s'.mem.length = mem.length ∧
      (∀ p, (∀ c, c < n → p ≠ pos c) → s'.mem[p]? = mem[p]?) ∧
      ∀ c, c < n → s'.mem[pos c]? =
        (((sched.filter (fun a => decide (a.1 = c))).map (·.2)).foldl (rmwLocal h c) (mem[pos c]?, r c)).1 := by
  obtain ⟨s', e, i, p⟩ := local_run (rmwStep addr f)
    (fun s => s.mem.length = mem.length ∧ ∀ p, (∀ c, c < n → p ≠ pos c) → s.mem[p]? = mem[p]?)
    (fun c s => (s.mem[pos c]?, s.reg c)) (rmwLocal h) n (by
      intro s c op ⟨hl, ho⟩ hc
      have hpc : pos c < s.mem.length := by rw [hl]; exact hb c hc
      unfold rmwStep
      simp only [ha c hc, Outcome.ok_bind]
      cases op with
      | load =>
        simp only [memGet, List.getElem?_eq_getElem hpc, Outcome.ok_bind]
        refine ⟨_, rfl, ⟨hl, ho⟩, ?_, ?_⟩
        · simp [rmwLocal, List.getElem?_eq_getElem hpc]
        · intro d hdc _
          simp [hdc]
      | store =>
        simp only [hf c hc, memUpd, List.getElem?_eq_getElem hpc, Outcome.ok_bind]
        refine ⟨_, rfl, ⟨by simpa using hl, ?_⟩, ?_, ?_⟩
        · intro p hp
          rw [List.getElem?_set_ne (Ne.symm (hp c hc))]
          exact ho p hp
        · simp [rmwLocal, hpc]
        · intro d hdc hdn
          simp only [Prod.mk.injEq, and_true]
          rw [List.getElem?_set_ne]
          intro e
          exact hdc (hi _ _ hc hdn e).symm) sched hd ⟨mem, r⟩ ⟨rfl, fun _ _ => rfl⟩
  refine ⟨s', e, i.1, i.2, ?_⟩
  intro c hc
  have := congrArg Prod.fst (p c hc)
  exact this

theorem updateThreads_eq (l : Launch) (n : Nat) :
    updateThreads l n = (List.range l.size).map fun w => (countersOf n l.size w).flatMap fun c => [(c, .load), (c, .store)] := by
  unfold updateThreads; rw [threads_eq]

theorem storeThreads_eq (l : Launch) (n : Nat) :
    storeThreads l n = (List.range l.size).map fun w => (countersOf n l.size w).flatMap fun c => [(c, RmwOp.store)] := by
  unfold storeThreads; rw [threads_eq]
  congr 1
  funext w
  induction countersOf n l.size w with
  | nil => rfl
  | cons c cs ih => rw [List.map_cons, List.flatMap_cons, ih]; rfl

/-- Every interleaving of an update kernel. -/
theorem update_run {l : Launch} (hl : 0 < l.size) {n : Nat} {addr : Nat → Outcome Nat} {pos : Nat → Nat}
    {f : Nat → K → Outcome K} {h : Nat → K → K} {t : Strided K} (ha : ∀ c, c < n → addr c = .ok (pos c))
    (hb : ∀ c, c < n → pos c < t.data.length) (hi : ∀ c d, c < n → d < n → pos c = pos d → c = d)
    (hf : ∀ c, c < n → ∀ v, f c v = .ok (h c v)) (r : Nat → K) {sched : List (Nat × RmwOp)}
    (hs : Schedule (updateThreads l n) sched) :
    ∃ d, runKernel t addr f r sched = .ok { t with data := d } ∧ d.length = t.data.length ∧
      (∀ p, (∀ c, c < n → p ≠ pos c) → d[p]? = t.data[p]?) ∧
      ∀ c, c < n → d[pos c]? = (t.data[pos c]?).map (h c) := by
  rw [updateThreads_eq] at hs
  obtain ⟨h1, h2⟩ := gridStride_filter hl (by simp) hs
  obtain ⟨s', e, a1, a2, a3⟩ := rmw_run ha hb hi hf r h2
  refine ⟨s'.mem, ?_, a1, a2, ?_⟩
  · unfold runKernel; rw [e]; rfl
  · intro c hc
    rw [a3 c hc, h1 c hc, List.getElem?_eq_getElem (hb c hc)]
    rfl

/-- Stores whose values depend only on the position, in any order and any number of times. -/
theorem stores_run {n : Nat} {addr : Nat → Outcome Nat} {pos : Nat → Nat} {f : Nat → K → Outcome K} {h : Nat → K}
    (hf : ∀ c, c < n → ∀ v, f c v = .ok (h c)) (ha : ∀ c, c < n → addr c = .ok (pos c)) (hi : ∀ c d, c < n → d < n → pos c = pos d → h c = h d)
    (r : Nat → K) (sched : List (Nat × RmwOp)) (hs : ∀ a ∈ sched, a.1 < n ∧ a.2 = .store) (mem : List K)
    (hb : ∀ c, c < n → pos c < mem.length) :
    ∃ d, sched.foldlM (rmwStep addr f) ⟨mem, r⟩ = .ok ⟨d, r⟩ ∧ d.length = mem.length ∧
      (∀ p, (∀ a ∈ sched, p ≠ pos a.1) → d[p]? = mem[p]?) ∧
      ∀ c, c < n → (∃ a ∈ sched, pos a.1 = pos c) → d[pos c]? = some (h c) := by
  induction sched generalizing mem with
  | nil => exact ⟨mem, rfl, rfl, fun _ _ => rfl, by simp⟩
  | cons a sched ih =>
    obtain ⟨c, op⟩ := a
    obtain ⟨hc, rfl⟩ := hs (c, op) (by simp)
    have hpc := hb c hc
    obtain ⟨d, e, h1, h2, h3⟩ := ih (fun a ha => hs a (by simp [ha])) (mem.set (pos c) (h c)) (by simpa using hb)
    refine ⟨d, ?_, by simpa using h1, ?_, ?_⟩
    · rw [List.foldlM_cons, ← e]
      simp only [rmwStep, ha c hc, hf c hc, memUpd, List.getElem?_eq_getElem hpc, Outcome.ok_bind]
      rfl
    · intro p hp
      rw [h2 p (fun a ha => hp a (by simp [ha])), List.getElem?_set_ne (Ne.symm (hp (c, .store) (by simp)))]
    · intro c' hc' hx
      by_cases e' : ∃ a ∈ sched, pos a.1 = pos c'
      · exact h3 c' hc' e'
      · rw [h2 _ (by intro a ha e2; exact e' ⟨a, ha, e2.symm⟩)]
        obtain ⟨a, ha, e3⟩ := hx
        rcases List.mem_cons.1 ha with rfl | ha
        · simp only at e3
          rw [← e3, List.getElem?_set_self hpc, hi _ _ hc hc' e3]
        · exact (e' ⟨a, ha, e3⟩).elim

/-- Every interleaving of a kernel that only stores. -/
theorem store_run {l : Launch} (hl : 0 < l.size) {n : Nat} {addr : Nat → Outcome Nat} {pos : Nat → Nat}
    {f : Nat → K → Outcome K} {h : Nat → K} {t : Strided K} (ha : ∀ c, c < n → addr c = .ok (pos c))
    (hb : ∀ c, c < n → pos c < t.data.length) (hi : ∀ c d, c < n → d < n → pos c = pos d → h c = h d)
    (hf : ∀ c, c < n → ∀ v, f c v = .ok (h c)) (r : Nat → K) {sched : List (Nat × RmwOp)}
    (hs : Schedule (storeThreads l n) sched) :
    ∃ d, runKernel t addr f r sched = .ok { t with data := d } ∧ d.length = t.data.length ∧
      (∀ p, (∀ c, c < n → p ≠ pos c) → d[p]? = t.data[p]?) ∧
      ∀ c, c < n → d[pos c]? = some (h c) := by
  rw [storeThreads_eq] at hs
  obtain ⟨h1, h2⟩ := gridStride_filter hl (by simp) hs
  have hm : ∀ a ∈ sched, a.1 < n ∧ a.2 = .store := by
    intro a ham
    refine ⟨h2 a ham, ?_⟩
    have : a ∈ sched.filter (fun b => decide (b.1 = a.1)) := List.mem_filter.2 ⟨ham, by simp⟩
    rw [h1 a.1 (h2 a ham)] at this
    rw [List.mem_singleton.1 this]
  obtain ⟨d, e, a1, a2, a3⟩ := stores_run hf ha hi r sched hm t.data hb
  refine ⟨d, ?_, a1, ?_, ?_⟩
  · unfold runKernel; rw [e]; rfl
  · intro p hp
    exact a2 p (fun a ha => hp a.1 (h2 a ha))
  · intro c hc
    refine a3 c hc ⟨(c, .store), ?_, rfl⟩
    have : (c, RmwOp.store) ∈ sched.filter (fun b => decide (b.1 = c)) := by rw [h1 c hc]; simp
    exact (List.mem_filter.1 this).1

/-- Updates that are each done without interruption: every element is updated as often as it is addressed. -/
theorem atomic_run {n : Nat} {addr : Nat → Outcome Nat} {pos : Nat → Nat} {op : K → K}
    (ha : ∀ c, c < n → addr c = .ok (pos c)) (cs : List Nat) (hc : ∀ c ∈ cs, c < n) (mem : List K)
    (hb : ∀ c, c < n → pos c < mem.length) (r : Nat → K) :
    ∃ s', (cs.flatMap fun c => [(c, RmwOp.load), (c, RmwOp.store)]).foldlM (rmwStep addr fun _ v => .ok (op v)) ⟨mem, r⟩ = .ok s' ∧
      s'.mem.length = mem.length ∧
      ∀ p, s'.mem[p]? = (mem[p]?).map (op^[cs.countP fun c => decide (pos c = p)]) := by
  induction cs generalizing mem r with
  | nil => exact ⟨⟨mem, r⟩, rfl, rfl, fun p => by simp⟩
  | cons c cs ih =>
    have hpc := hb c (hc c (by simp))
    obtain ⟨s', e, h1, h2⟩ := ih (fun c h => hc c (by simp [h])) (mem.set (pos c) (op mem[pos c])) (by simpa using hb)
      (fun c' => if c' = c then mem[pos c] else r c')
    refine ⟨s', ?_, by simpa using h1, ?_⟩
    · rw [List.flatMap_cons, List.cons_append, List.cons_append, List.nil_append, List.foldlM_cons, ← e]
      simp only [rmwStep, ha c (hc c (by simp)), memGet, memUpd, List.getElem?_eq_getElem hpc, Outcome.ok_bind,
        pure_bind, List.foldlM_cons, if_true]
    · intro p
      rw [h2 p]
      by_cases e' : pos c = p
      · subst e'
        rw [List.getElem?_set_self hpc, List.getElem?_eq_getElem hpc, List.countP_cons_of_pos (by simp),
          Function.iterate_succ]
        rfl
      · rw [List.getElem?_set_ne e', List.countP_cons_of_neg (by simp [e'])]

end

/-! ### Addresses -/

/-- Multi-index number `q` of a box, last dimension fastest; it wraps around after the last one. -/
def wrapIdx : List Nat → Nat → List Nat
  | [], _ => []
  | d :: ds, q => (q / numel ds) % d :: wrapIdx ds q

theorem numel_pos_cons {d : Nat} {ds : List Nat} (h : 0 < numel (d :: ds)) : 0 < d ∧ 0 < numel ds := by
  rw [numel_cons] at h
  exact ⟨Nat.pos_of_mul_pos_right h, Nat.pos_of_mul_pos_left h⟩

theorem indexToCombination_eq {ds : List Nat} (h : 0 < numel ds) (q : Nat) :
    indexToCombination ds q = .ok (q / numel ds, wrapIdx ds q) := by
  induction ds with
  | nil => simp [indexToCombination, wrapIdx]
  | cons d ds ih =>
    obtain ⟨h1, h2⟩ := numel_pos_cons h
    unfold indexToCombination
    rw [ih h2]
    simp only [Outcome.ok_bind]
    rw [if_neg (by omega), Nat.div_div_eq_div_mul, numel_cons, Nat.mul_comm d]
    rfl

theorem wrapIdx_inBox {ds : List Nat} (h : 0 < numel ds) (q : Nat) : InBox (wrapIdx ds q) ds := by
  induction ds with
  | nil => trivial
  | cons d ds ih =>
    obtain ⟨h1, h2⟩ := numel_pos_cons h
    exact ⟨Nat.mod_lt _ h1, ih h2⟩

theorem rowMajor_wrapIdx {ds : List Nat} (h : 0 < numel ds) (q : Nat) : rowMajor (wrapIdx ds q) ds = q % numel ds := by
  induction ds with
  | nil => simp [wrapIdx, Nat.mod_one]
  | cons d ds ih =>
    obtain ⟨h1, h2⟩ := numel_pos_cons h
    simp only [wrapIdx, rowMajor]
    rw [ih h2, numel_cons, Nat.mul_comm d, Nat.mod_mul, Nat.add_comm, Nat.mul_comm]

theorem wrapIdx_rowMajor {ds is : List Nat} (h : InBox is ds) : wrapIdx ds (rowMajor is ds) = is := by
  have h0 : 0 < numel ds := by have := rowMajor_lt h; omega
  apply rowMajor_inj (wrapIdx_inBox h0 _) h
  rw [rowMajor_wrapIdx h0, Nat.mod_eq_of_lt (rowMajor_lt h)]

theorem combinationToIndex_eq (is ss : List Nat) : combinationToIndex is ss = dot is ss := by
  induction is generalizing ss with
  | nil => cases ss <;> rfl
  | cons i is ih => cases ss with
    | nil => rfl
    | cons s ss => simp [combinationToIndex, dot, ih, Nat.mul_comm]

theorem elementAddr_eq {ds : List Nat} (h : 0 < numel ds) (off : Nat) (ss : List Nat) (q : Nat) :
    elementAddr off ds ss q = .ok (off + dot (wrapIdx ds q) ss) := by
  unfold elementAddr
  rw [indexToCombination_eq h, ← combinationToIndex_eq]
  rfl

/-! ### Kernels on tensors and views -/

section
variable {K : Type}

theorem outside_of_pos {t : Strided K} {d : List K} {n : Nat} (hn : ∀ c, c < n → 0 < numel t.dims)
    (h : ∀ p, (∀ c, c < n → p ≠ t.off + dot (wrapIdx t.dims c) t.strides) → d[p]? = t.data[p]?) :
    ∀ p, (∀ j, InBox j t.dims → p ≠ t.off + dot j t.strides) → d[p]? = t.data[p]? := by
  intro p hp
  exact h p (fun c hc => hp _ (wrapIdx_inBox (hn c hc) c))

/-- An update kernel that goes once through all elements. -/
theorem update_represents {l : Launch} (hl : 0 < l.size) {t : Strided K} (w : t.WF) {f : List Nat → K}
    (hf : t.Represents f) {g : Nat → K → Outcome K} {h : List Nat → K → K}
    (hg : ∀ i, InBox i t.dims → ∀ v, g (rowMajor i t.dims) v = .ok (h i v)) (r : Nat → K)
    {sched : List (Nat × RmwOp)} (hs : Schedule (updateThreads l (numel t.dims)) sched) :
    ∃ t', runKernel t (elementAddr t.off t.dims t.strides) g r sched = .ok t' ∧ t.Frame t' ∧
      t'.Represents fun i => h i (f i) := by
  have h0 : ∀ c, c < numel t.dims → 0 < numel t.dims := fun c hc => by omega
  have hrank : ∀ c, c < numel t.dims → rowMajor (wrapIdx t.dims c) t.dims = c := fun c hc => by
    rw [rowMajor_wrapIdx (h0 c hc), Nat.mod_eq_of_lt hc]
  obtain ⟨d, e, h1, h2, h3⟩ := update_run (t := t) (f := g) (pos := fun c => t.off + dot (wrapIdx t.dims c) t.strides)
    (h := fun c => h (wrapIdx t.dims c)) hl
    (fun c hc => elementAddr_eq (h0 c hc) _ _ _) (fun c hc => w.bound _ (wrapIdx_inBox (h0 c hc) c))
    (fun c c' hc hc' e => by
      have := w.inj _ _ (wrapIdx_inBox (h0 c hc) c) (wrapIdx_inBox (h0 c' hc') c') (by simpa using e)
      rw [← hrank c hc, ← hrank c' hc', this])
    (fun c hc v => by
      have := hg _ (wrapIdx_inBox (h0 c hc) c) v
      rwa [hrank c hc] at this) r hs
  have fr : t.Frame { t with data := d } := ⟨rfl, rfl, rfl, h1, outside_of_pos h0 h2⟩
  refine ⟨_, e, fr, ?_⟩
  rw [represents_iff (fr.wf w)]
  intro j hj
  have h4 := h3 _ (rowMajor_lt hj)
  simp only [wrapIdx_rowMajor hj] at h4
  show d[t.off + dot j t.strides]? = _
  rw [h4, (represents_iff w).1 hf j hj]; rfl

/-- A kernel that stores, in every element at least once, a value that depends on the indices only. -/
theorem store_represents {l : Launch} (hl : 0 < l.size) {t : Strided K} (w : t.WF) {n : Nat}
    (hn : numel t.dims ≤ n) (h0 : ∀ c, c < n → 0 < numel t.dims) {g : Nat → K → Outcome K} {h : List Nat → K}
    (hg : ∀ c, c < n → ∀ v, g c v = .ok (h (wrapIdx t.dims c))) (r : Nat → K)
    {sched : List (Nat × RmwOp)} (hs : Schedule (storeThreads l n) sched) :
    ∃ t', runKernel t (elementAddr t.off t.dims t.strides) g r sched = .ok t' ∧ t.Frame t' ∧ t'.Represents h := by
  obtain ⟨d, e, h1, h2, h3⟩ := store_run (t := t) (pos := fun c => t.off + dot (wrapIdx t.dims c) t.strides)
    (h := fun c => h (wrapIdx t.dims c)) hl
    (fun c hc => elementAddr_eq (h0 c hc) _ _ _) (fun c hc => w.bound _ (wrapIdx_inBox (h0 c hc) c))
    (fun c c' hc hc' e => by
      rw [w.inj _ _ (wrapIdx_inBox (h0 c hc) c) (wrapIdx_inBox (h0 c' hc') c') (by simpa using e)]) hg r hs
  have fr : t.Frame { t with data := d } := ⟨rfl, rfl, rfl, h1, outside_of_pos h0 h2⟩
  refine ⟨_, e, fr, ?_⟩
  rw [represents_iff (fr.wf w)]
  intro j hj
  have h4 := h3 _ (Nat.lt_of_lt_of_le (rowMajor_lt hj) hn)
  simp only [wrapIdx_rowMajor hj] at h4
  exact h4

theorem IsTensor_linearSize {t : Strided K} (h : t.IsTensor) (hd : t.dims ≠ []) :
    linearSize t.strides t.dims = numel t.dims := by
  rw [h.strides, ← transformStrides_eq, linearSize_eq hd]

/-- Reading the element of `u` with the indices of iteration `c`. -/
theorem fetch_eq {u : Strided K} (wu : u.WF) {g : List Nat → K} (hg : u.Represents g) (h : 0 < numel u.dims) (c : Nat) :
    (do let q ← elementAddr u.off u.dims u.strides c; memGet u.data q) = .ok (g (wrapIdx u.dims c)) := by
  rw [elementAddr_eq h]
  simp only [Outcome.ok_bind, memGet]
  rw [(represents_iff wu).1 hg _ (wrapIdx_inBox h c)]

/-- One operation with undefined behaviour makes the whole execution undefined. -/
theorem foldlM_ub {S A : Type} {step : S → A → Outcome S} (hne : ∀ s a, (step s a).isError = false) {bad : A}
    (hbad : ∀ s, (step s bad).isUb = true) : ∀ (sched : List A) (s : S), bad ∈ sched → (sched.foldlM step s).isUb = true
  | [], _, h => by simp at h
  | a :: sched, s, h => by
    rw [List.foldlM_cons]
    have h1 := hne s a
    cases e : step s a with
    | ok s' =>
      rcases List.mem_cons.1 h with rfl | h
      · have := hbad s
        rw [e] at this; cases this
      · exact foldlM_ub hne hbad sched s' h
    | error m => rw [e] at h1; cases h1
    | ub m => rfl

theorem memGet_noError (m : List K) (p : Nat) : (memGet m p).isError = false := by
  unfold memGet; split <;> rfl

theorem memUpd_noError {m : List K} {p : Nat} {f : K → Outcome K} (h : ∀ x, (f x).isError = false) :
    (memUpd m p f).isError = false := by
  unfold memUpd
  split
  · rename_i x _
    have := h x
    cases e : f x with
    | ok v => rfl
    | error m => rw [e] at this; cases this
    | ub m => rfl
  · rfl

theorem indexToCombination_noError (ds : List Nat) (q : Nat) : (indexToCombination ds q).isError = false := by
  induction ds with
  | nil => rfl
  | cons d ds ih =>
    unfold indexToCombination
    cases e : indexToCombination ds q with
    | ok v => simp only [Outcome.ok_bind]; split <;> rfl
    | error m => rw [e] at ih; cases ih
    | ub m => rfl

theorem elementAddr_noError (off : Nat) (ds ss : List Nat) (q : Nat) : (elementAddr off ds ss q).isError = false := by
  unfold elementAddr
  have ih := indexToCombination_noError ds q
  cases e : indexToCombination ds q with
  | ok v => rfl
  | error m => rw [e] at ih; cases ih
  | ub m => rfl

theorem bind_noError {α β : Type} {x : Outcome α} {f : α → Outcome β} (h : x.isError = false) (g : ∀ a, (f a).isError = false) :
    (x >>= f).isError = false := by
  cases x with
  | ok a => exact g a
  | error m => cases h
  | ub m => rfl

theorem rmwStep_noError {addr : Nat → Outcome Nat} {f : Nat → K → Outcome K} (ha : ∀ c, (addr c).isError = false)
    (hf : ∀ c v, (f c v).isError = false) (s : RmwState K) (a : Nat × RmwOp) : (rmwStep addr f s a).isError = false := by
  obtain ⟨c, op⟩ := a
  unfold rmwStep
  apply bind_noError (ha c)
  intro p
  cases op with
  | load => exact bind_noError (memGet_noError _ _) fun _ => rfl
  | store => exact bind_noError (hf _ _) fun _ => bind_noError (memUpd_noError fun _ => rfl) fun _ => rfl

/-- A store whose value cannot be computed makes every execution undefined. -/
theorem runKernel_ub {t : Strided K} {f : Nat → K → Outcome K} {r : Nat → K} {sched : List (Nat × RmwOp)}
    (hf : ∀ c v, (f c v).isError = false) {c : Nat} (hc : (c, RmwOp.store) ∈ sched)
    (hb : ∀ v, (f c v).isUb = true) :
    (runKernel t (elementAddr t.off t.dims t.strides) f r sched).isUb = true := by
  have := foldlM_ub (rmwStep_noError (fun c => elementAddr_noError t.off t.dims t.strides c) hf) (bad := (c, .store))
    (by
      intro s
      unfold rmwStep
      have he := elementAddr_noError t.off t.dims t.strides c
      cases e : elementAddr t.off t.dims t.strides c with
      | ok p =>
        simp only [Outcome.ok_bind]
        have := hb (s.reg c)
        cases e2 : f c (s.reg c) with
        | ok v => rw [e2] at this; cases this
        | error m => rw [e2] at this; cases this
        | ub m => rfl
      | error m => rw [e] at he; cases he
      | ub m => rfl) sched ⟨t.data, r⟩ hc
  unfold runKernel
  cases e : sched.foldlM (rmwStep (elementAddr t.off t.dims t.strides) f) ⟨t.data, r⟩ with
  | ok v => rw [e] at this; cases this
  | error m => rw [e] at this; cases this
  | ub m => rfl

theorem fetch_noError (u : Strided K) (ds : List Nat) (c : Nat) :
    (do let q ← elementAddr u.off ds u.strides c; memGet u.data q : Outcome K).isError = false :=
  bind_noError (elementAddr_noError _ _ _ _) fun _ => memGet_noError _ _

theorem fetch_ub {u : Strided K} {ds i : List Nat} (hi : InBox i ds) (h : u.data.length ≤ u.off + dot i u.strides) :
    (do let q ← elementAddr u.off ds u.strides (rowMajor i ds); memGet u.data q : Outcome K).isUb = true := by
  have h0 : 0 < numel ds := by have := rowMajor_lt hi; omega
  rw [elementAddr_eq h0, wrapIdx_rowMajor hi]
  simp only [Outcome.ok_bind, memGet, List.getElem?_eq_none h]
  rfl

theorem mem_update_sched {l : Launch} (hl : 0 < l.size) {n : Nat} {sched : List (Nat × RmwOp)}
    (hs : Schedule (updateThreads l n) sched) {c : Nat} (hc : c < n) : (c, RmwOp.store) ∈ sched := by
  rw [updateThreads_eq] at hs
  obtain ⟨h1, _⟩ := gridStride_filter hl (by simp) hs
  have : (c, RmwOp.store) ∈ sched.filter (fun b => decide (b.1 = c)) := by rw [h1 c hc]; simp
  exact (List.mem_filter.1 this).1

theorem mem_store_sched {l : Launch} (hl : 0 < l.size) {n : Nat} {sched : List (Nat × RmwOp)}
    (hs : Schedule (storeThreads l n) sched) {c : Nat} (hc : c < n) : (c, RmwOp.store) ∈ sched := by
  rw [storeThreads_eq] at hs
  obtain ⟨h1, _⟩ := gridStride_filter hl (by simp) hs
  have : (c, RmwOp.store) ∈ sched.filter (fun b => decide (b.1 = c)) := by rw [h1 c hc]; simp
  exact (List.mem_filter.1 this).1

/-- Elements that are not addressed stay as they are, in every execution. -/
theorem rmw_untouched {addr : Nat → Outcome Nat} {f : Nat → K → Outcome K} (sched : List (Nat × RmwOp)) (s s' : RmwState K)
    (e : sched.foldlM (rmwStep addr f) s = .ok s') (p : Nat) (hp : ∀ a ∈ sched, addr a.1 ≠ .ok p) : s'.mem[p]? = s.mem[p]? := by
  induction sched generalizing s with
  | nil => cases e; rfl
  | cons a sched ih =>
    rw [List.foldlM_cons] at e
    cases e1 : rmwStep addr f s a with
    | ok s1 =>
      rw [e1] at e
      rw [ih s1 e (fun a ha => hp a (by simp [ha]))]
      obtain ⟨c, op⟩ := a
      have hc := hp (c, op) (by simp)
      unfold rmwStep at e1
      simp only at hc e1
      cases e2 : addr c with
      | ok q =>
        rw [e2] at e1 hc
        simp only [Outcome.ok_bind] at e1
        have hq : q ≠ p := fun h => hc (by rw [h])
        cases op with
        | load =>
          simp only at e1
          cases e3 : memGet s.mem q with
          | ok v => rw [e3] at e1; cases e1; rfl
          | error m => rw [e3] at e1; cases e1
          | ub m => rw [e3] at e1; cases e1
        | store =>
          simp only at e1
          cases e3 : f c (s.reg c) with
          | ok v =>
            rw [e3] at e1
            simp only [Outcome.ok_bind, memUpd] at e1
            cases e4 : s.mem[q]? with
            | none => rw [e4] at e1; cases e1
            | some x =>
              rw [e4] at e1
              cases e1
              simp only [List.getElem?_set_ne hq]
          | error m => rw [e3] at e1; cases e1
          | ub m => rw [e3] at e1; cases e1
      | error m => rw [e2] at e1; cases e1
      | ub m => rw [e2] at e1; cases e1
    | error m => rw [e1] at e; cases e
    | ub m => rw [e1] at e; cases e

end

end Einsums
