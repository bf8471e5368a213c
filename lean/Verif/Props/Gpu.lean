import Verif.Proofs.Gpu
/-
C128: kernel launches.  C129: element-wise assignment to device tensors.  C130: copies between device tensors and views.

`Schedule threads sched` (Spec/Memory.lean) says that `sched` is an interleaving of the memory operations of the workers.
The arrays that the kernels do not write are not changed while a kernel runs.
-/
namespace Einsums.Props
open Spec Model

/-! ### C128 -/

/-- **C128 (numbering).** For a launch with any 3-dimensional grid of any 3-dimensional blocks the numbers of the workers are
0, 1, …, number of workers − 1, each once. -/
theorem C128_workers (l : Launch) :
    (l.grid.coords.flatMap fun b => l.block.coords.map fun t => l.worker b t) = List.range l.size :=
  workers_range l

/-- **C128 (distribution).** A loop that starts at the number of the worker and advances by the number of workers visits, over all
workers, every iteration exactly once. -/
theorem C128_iterations (l : Launch) (hl : 0 < l.size) (n : Nat) :
    (l.threads fun w size => countersOf n size w).flatten.Perm (List.range n) := by
  rw [threads_eq]; exact counters_perm hl

/-- **C128 (each iteration belongs to one worker).** -/
theorem C128_owner (l : Launch) (hl : 0 < l.size) (n i : Nat) (hi : i < n) :
    ∃ w, w < l.size ∧ i ∈ countersOf n l.size w ∧ ∀ v, v < l.size → i ∈ countersOf n l.size v → v = w := by
  refine ⟨i % l.size, Nat.mod_lt _ hl, (mem_countersOf (Nat.mod_lt _ hl)).2 ⟨hi, rfl⟩, ?_⟩
  intro v hv h
  exact ((mem_countersOf hv).1 h).2.symm

/-- **C128 (launches).** The launches of the library, whether for 0 or for any number of elements and in whichever order the
block size and the number of blocks are passed: at least one worker, at most 4096, at most 256 threads in a block. -/
theorem C128_launch (n : Nat) : ∀ l ∈ [launchSwapped n, launchStraight n],
    0 < l.size ∧ l.size ≤ 4096 ∧ 0 < l.block.x * l.block.y * l.block.z ∧ l.block.x * l.block.y * l.block.z ≤ 256 := by
  obtain ⟨b1, b2, b3, b4⟩ := blockSize_pos n
  obtain ⟨g1, g2, g3, g4⟩ := gpuBlocks_pos n
  have h : (blockSize n).x * (gpuBlocks n).x ≤ 256 * 16 := Nat.mul_le_mul b2 g2
  intro l hl
  rcases List.mem_cons.1 hl with rfl | hl
  · refine ⟨launchSwapped_pos n, ?_, ?_⟩
    · rw [launchSwapped_size]; exact h
    · simp only [launchSwapped, g3, g4, Nat.mul_one]; omega
  · rw [List.mem_singleton.1 hl]
    refine ⟨launchStraight_pos n, ?_, ?_⟩
    · rw [launchStraight_size]; exact h
    · simp only [launchStraight, b3, b4, Nat.mul_one]; omega

example : (launchSwapped 1000).size = 768 ∧ (launchStraight 1000).grid.x = 3 ∧ (launchSwapped 1000).grid.x = 256 := by decide
example : (⟨⟨2, 1, 2⟩, ⟨3, 2, 1⟩⟩ : Launch).worker ⟨1, 0, 1⟩ ⟨2, 1, 0⟩ = 23 := by decide

/-! ### C129 -/

section
variable {K : Type}

/-- **C129 (number, partial).** `t += x`, `t -= x`, `t *= x`, `t /= x` of a device tensor and a number: whatever the interleaving,
every element `v` becomes `v op x` and nothing else changes.  Missing: views (refuted below). -/
theorem C129_scalar_partial (op : K → K) (t : Strided K) (ht : t.IsTensor) (hd : t.dims ≠ []) (f : List Nat → K)
    (hf : t.Represents f) (r : Nat → K) (sched : List (Nat × RmwOp)) (hs : Schedule (opScalarThreads t) sched) :
    ∃ t', deviceOpScalar op t r sched = .ok t' ∧ t.Frame t' ∧ t'.Represents fun i => op (f i) := by
  unfold opScalarThreads at hs
  rw [IsTensor_linearSize ht hd] at hs
  exact update_represents (launchSwapped_pos _) ht.wf hf (h := fun _ v => op v) (fun _ _ _ => rfl) r hs

/-- **C129 (tensor, partial).** `t += u`, `t -= u`, `t *= u`, `t /= u` of device tensors of the same shape: whatever the
interleaving, every element of `t` is combined with the element of `u` at the same indices.  Missing: other shapes are not
rejected (refuted below). -/
theorem C129_tensor_partial (op : K → K → K) (t u : Strided K) (ht : t.IsTensor) (hu : u.IsTensor) (hd : t.dims ≠ [])
    (hdu : u.dims = t.dims) (f g : List Nat → K) (hf : t.Represents f) (hg : u.Represents g) (r : Nat → K)
    (sched : List (Nat × RmwOp)) (hs : Schedule (opTensorThreads t u) sched) :
    ∃ t', deviceOpTensor op t u r sched = .ok t' ∧ t.Frame t' ∧ t'.Represents fun i => op (f i) (g i) := by
  unfold opTensorThreads at hs
  rw [IsTensor_linearSize ht hd] at hs
  refine update_represents (launchSwapped_pos _) ht.wf hf (h := fun i v => op v (g i)) ?_ r hs
  intro i hi v
  have h0 : 0 < numel t.dims := by have := rowMajor_lt hi; omega
  have := fetch_eq hu.wf hg (by rw [hdu]; exact h0) (rowMajor i t.dims)
  rw [hdu, wrapIdx_rowMajor hi] at this
  rw [← bind_assoc, this]; rfl

/-- **C129 (fill).** `t.set_all(x)`, `t.zero()`, `t = x` of a device tensor or device view: whatever the interleaving, every
element becomes `x` and nothing else changes.  The condition on views — the stride of the first dimension is at least the
product of the other dimensions — holds for every box-shaped view of a tensor. -/
theorem C129_set_all_partial (x : K) (t : Strided K) (w : t.WF) (h0 : 0 < numel t.dims)
    (hl : numel t.dims ≤ linearSize t.strides t.dims) (r : Nat → K) (sched : List (Nat × RmwOp))
    (hs : Schedule (setAllThreads t) sched) :
    ∃ t', deviceSetAll x t r sched = .ok t' ∧ t.Frame t' ∧ t'.Represents fun _ => x :=
  store_represents (h := fun _ => x) (launchSwapped_pos _) w hl (fun _ _ => h0) (fun _ _ _ => rfl) r hs

/-- **C129 (fill, box-shaped views).** The condition holds for every part of a tensor that has the strides of that tensor. -/
theorem C129_box_view (ds ps : List Nat) (h : List.Forall₂ (· ≤ ·) ds ps) (hd : ds ≠ []) :
    numel ds ≤ linearSize (dimsToStrides ps).2 ds := by
  cases h with
  | nil => exact (hd rfl).elim
  | @cons d p ds ps h1 h2 =>
    rw [dimsToStrides_snd_cons]
    have : numel ds ≤ numel ps := by
      clear hd
      induction h2 with
      | nil => simp
      | cons h _ ih => rw [numel_cons, numel_cons]; exact Nat.mul_le_mul h ih
    simp only [linearSize, numel_cons]
    rw [Nat.mul_comm]
    exact Nat.mul_le_mul this (Nat.le_refl d)

/-- **C129 (fill, tensors).** The same for every device tensor, empty ones included. -/
theorem C129_set_all_tensor (x : K) (t : Strided K) (ht : t.IsTensor) (hd : t.dims ≠ []) (r : Nat → K)
    (sched : List (Nat × RmwOp)) (hs : Schedule (setAllThreads t) sched) :
    ∃ t', deviceSetAll x t r sched = .ok t' ∧ t.Frame t' ∧ t'.Represents fun _ => x := by
  unfold setAllThreads at hs
  rw [IsTensor_linearSize ht hd] at hs
  exact store_represents (h := fun _ => x) (launchSwapped_pos _) ht.wf (Nat.le_refl _) (fun _ h => by omega) (fun _ _ _ => rfl) r hs

/-- **C129 (views, what happens).** `v op= x` of a device view: there is an execution in which the element of row-major rank q
is updated as many times as there are numbers below (first stride) · (first dimension) that are q modulo the number of
elements. -/
theorem C129_view_scalar (op : K → K) (v : Strided K) (w : v.WF) (h0 : 0 < numel v.dims) (f : List Nat → K)
    (hf : v.Represents f) (r : Nat → K) :
    ∃ sched t', Schedule (opScalarThreads v) sched ∧ deviceOpScalar op v r sched = .ok t' ∧ v.Frame t' ∧
      t'.Represents fun i => op^[(List.range (linearSize v.strides v.dims)).countP fun c =>
        decide (c % numel v.dims = rowMajor i v.dims)] (f i) := by
  have hlp := launchSwapped_pos (sizeMethod v.dims)
  refine ⟨(opScalarThreads v).flatten, ?_⟩
  have hseq := Schedule.sequential (opScalarThreads v)
  have hfl : (opScalarThreads v).flatten = (((List.range (launchSwapped (sizeMethod v.dims)).size).map
      (countersOf (linearSize v.strides v.dims) (launchSwapped (sizeMethod v.dims)).size)).flatten).flatMap
        fun c => [(c, RmwOp.load), (c, RmwOp.store)] := by
    unfold opScalarThreads
    rw [updateThreads_eq, List.flatMap_def, List.map_flatten, List.flatten_flatten, List.map_map, List.map_map]
    congr 1
  have hp := counters_perm (size := linearSize v.strides v.dims) hlp
  obtain ⟨s', e, h1, h2⟩ := atomic_run (op := op) (mem := v.data) (n := linearSize v.strides v.dims)
    (addr := elementAddr v.off v.dims v.strides) (pos := fun c => v.off + dot (wrapIdx v.dims c) v.strides)
    (fun c _ => elementAddr_eq h0 _ _ _) _ (fun c hc => List.mem_range.1 (hp.mem_iff.1 hc))
    (fun c _ => w.bound _ (wrapIdx_inBox h0 c)) r
  rw [← hfl] at e
  have fr : v.Frame { v with data := s'.mem } := by
    refine ⟨rfl, rfl, rfl, h1, ?_⟩
    intro p hp
    simp only
    rw [h2 p, List.countP_eq_zero.2]
    · simp
    · intro c _
      simpa using (hp _ (wrapIdx_inBox h0 c)).symm
  refine ⟨{ v with data := s'.mem }, hseq, ?_, fr, ?_⟩
  · unfold deviceOpScalar runKernel
    rw [e]; rfl
  · rw [represents_iff (fr.wf w)]
    intro j hj
    show s'.mem[v.off + dot j v.strides]? = _
    rw [h2, (represents_iff w).1 hf j hj, hp.countP_eq]
    simp only [Option.map_some, Option.some.injEq]
    congr 2
    funext c
    rw [decide_eq_decide]
    constructor
    · intro e
      have := w.inj _ _ (wrapIdx_inBox h0 c) hj (by omega)
      rw [← this, rowMajor_wrapIdx h0]
    · intro e
      rw [← rowMajor_wrapIdx h0] at e
      rw [rowMajor_inj (wrapIdx_inBox h0 c) hj e]

/-- **C129 (views, elements left out).** `v op= x` of a device view: elements whose row-major rank is at least (first stride) ·
(first dimension) are left as they were, whatever the interleaving. -/
theorem C129_view_left_out (op : K → K) (v : Strided K) (w : v.WF) (f : List Nat → K) (hf : v.Represents f) (r : Nat → K)
    (sched : List (Nat × RmwOp)) (hs : Schedule (opScalarThreads v) sched) (t' : Strided K)
    (e : deviceOpScalar op v r sched = .ok t') (i : List Nat) (hi : InBox i v.dims)
    (hl : linearSize v.strides v.dims ≤ rowMajor i v.dims) : t'.read (toIdx i) = .ok (f i) := by
  have h0 : 0 < numel v.dims := by have := rowMajor_lt hi; omega
  unfold deviceOpScalar runKernel at e
  cases e1 : sched.foldlM (rmwStep (elementAddr v.off v.dims v.strides) fun _ x => .ok (op x)) ⟨v.data, r⟩ with
  | error m => rw [e1] at e; cases e
  | ub m => rw [e1] at e; cases e
  | ok s' =>
    rw [e1] at e
    have et : t' = { v with data := s'.mem } := by cases e; rfl
    have hu : s'.mem[v.off + dot i v.strides]? = v.data[v.off + dot i v.strides]? := rmw_untouched sched _ s' e1 _ (by
      intro a ha
      rw [elementAddr_eq h0]
      intro he
      have he : v.off + dot (wrapIdx v.dims a.1) v.strides = v.off + dot i v.strides := by injection he
      have h1 := w.inj _ _ (wrapIdx_inBox h0 a.1) hi (by omega)
      have h2 := rowMajor_wrapIdx h0 a.1
      unfold opScalarThreads at hs
      rw [updateThreads_eq] at hs
      have h3 := (gridStride_filter (launchSwapped_pos _) (by simp) hs).2 a ha
      rw [h1] at h2
      have := Nat.mod_le a.1 (numel v.dims)
      omega)
    have hlen : v.off + dot i v.strides < s'.mem.length := by
      have h3 := (represents_iff w).1 hf i hi
      rw [h3] at hu
      exact (List.getElem?_eq_some_iff.1 hu).1
    subst et
    rw [read_eq (t := { v with data := s'.mem }) (pyIndices_toIdx hi) hlen]
    have h3 := (represents_iff w).1 hf i hi
    rw [h3, List.getElem?_eq_getElem hlen] at hu
    simpa using hu

/-- **C129 (views, refuted).** The 2×2 view of the first two columns of a 2×3 device tensor: `v += 1` may add 2 to the elements of
the first row. -/
theorem C129_view_refuted : ∃ (v : Strided Int) (sched : List (Nat × RmwOp)) (t' : Strided Int), v.WF ∧
    v.Represents (fun _ => 0) ∧ Schedule (opScalarThreads v) sched ∧ deviceOpScalar (· + 1) v (fun _ => 0) sched = .ok t' ∧
    t'.read [0, 0] = .ok 2 ∧ t'.read [1, 0] = .ok 1 := by
  have w : (⟨List.replicate 6 0, 0, [2, 2], [3, 1]⟩ : Strided Int).WF := by
    refine ⟨rfl, ?_, ?_⟩
    · intro idx hi
      have : ∀ idx ∈ box [2, 2], 0 + dot idx [3, 1] < (List.replicate 6 (0 : Int)).length := by decide
      exact this idx (mem_box.2 hi)
    · intro i j hi hj
      have h1 := mem_box.2 hi
      have h2 := mem_box.2 hj
      have : ∀ i ∈ box [2, 2], ∀ j ∈ box [2, 2], dot i [3, 1] = dot j [3, 1] → i = j := by decide
      exact this i h1 j h2
  have hr : (⟨List.replicate 6 0, 0, [2, 2], [3, 1]⟩ : Strided Int).Represents fun _ => 0 := by
    intro idx hi
    have : ∀ idx ∈ box [2, 2], (⟨List.replicate 6 0, 0, [2, 2], [3, 1]⟩ : Strided Int).read (toIdx idx) = .ok 0 := by decide
    exact this idx (mem_box.2 hi)
  obtain ⟨sched, t', h1, h2, fr, h4⟩ := C129_view_scalar (· + 1) _ w (by decide) _ hr (fun _ => 0)
  refine ⟨_, sched, t', w, hr, h1, h2, ?_, ?_⟩
  · have hd : t'.dims = [2, 2] := fr.dims
    have := h4 [0, 0] (by rw [hd]; decide)
    rw [show ([0, 0] : List Int) = toIdx [0, 0] from rfl, this]
    decide
  · have hd : t'.dims = [2, 2] := fr.dims
    have := h4 [1, 0] (by rw [hd]; decide)
    rw [show ([1, 0] : List Int) = toIdx [1, 0] from rfl, this]
    decide

/-- **C129 (shapes, refuted).** `t op= u` does not reject a `u` of another shape: if some element of `t` has no counterpart in the
memory of `u`, every execution reads outside that memory. -/
theorem C129_shape_refuted (op : K → K → K) (t u : Strided K) (ht : t.IsTensor) (hd : t.dims ≠ []) (i : List Nat)
    (hi : InBox i t.dims) (hu : u.data.length ≤ u.off + dot i u.strides) (r : Nat → K) (sched : List (Nat × RmwOp))
    (hs : Schedule (opTensorThreads t u) sched) : (deviceOpTensor op t u r sched).isUb = true := by
  unfold opTensorThreads at hs
  rw [IsTensor_linearSize ht hd] at hs
  unfold deviceOpTensor
  refine runKernel_ub (c := rowMajor i t.dims) ?_ (mem_update_sched (launchSwapped_pos _) hs (rowMajor_lt hi)) ?_
  · intro c v
    exact bind_noError (elementAddr_noError _ _ _ _) fun _ => bind_noError (memGet_noError _ _) fun _ => rfl
  · intro v
    have := fetch_ub (K := K) hi hu
    rw [← bind_assoc]
    cases e : (do let q ← elementAddr u.off t.dims u.strides (rowMajor i t.dims); memGet u.data q : Outcome K) with
    | ok x => rw [e] at this; cases this
    | error m => rw [e] at this; cases this
    | ub m => rfl

/-- A 2×3 tensor and an interleaving of `t += 1` in which all workers load before any of them stores. -/
example : let t : Strided Int := ⟨[1, 2, 3, 4, 5, 6], 0, [2, 3], [3, 1]⟩
    t.IsTensor ∧ deviceOpScalar (· + 1) t (fun _ => 0)
      ((List.range 6).map (·, RmwOp.load) ++ (List.range 6).map (·, RmwOp.store)) =
      .ok ⟨[2, 3, 4, 5, 6, 7], 0, [2, 3], [3, 1]⟩ := by
  refine ⟨⟨rfl, rfl, rfl⟩, rfl⟩

/-- A view that satisfies the hypotheses of `C129_set_all_partial`. -/
example : let v : Strided Int := ⟨List.replicate 6 0, 0, [2, 2], [3, 1]⟩
    0 < numel v.dims ∧ numel v.dims ≤ linearSize v.strides v.dims := by decide

/-- Shapes as in `C129_shape_refuted`: a 2×2 tensor and a 1×1 tensor. -/
example : InBox [1, 1] [2, 2] ∧ ([7] : List Int).length ≤ 0 + dot [1, 1] [1, 1] := by decide

/-- A view as in `C129_view_left_out`: the transposed 2×3 view of a 3×2 tensor has first stride 1. -/
example : linearSize [1, 2] [2, 3] ≤ rowMajor [1, 2] [2, 3] := by decide

/-! ### C130 -/

theorem deviceCopy_all {t u : Strided K} (wt : t.WF) (wu : u.WF) (hd : u.dims = t.dims) {g : List Nat → K}
    (hg : u.Represents g) {l : Launch} (hl : 0 < l.size) (r : Nat → K) {sched : List (Nat × RmwOp)}
    (hs : Schedule (storeThreads l (numel t.dims)) sched) :
    ∃ t', deviceCopy t u r sched = .ok t' ∧ t.Frame t' ∧ t'.Represents g := by
  refine store_represents hl wt (Nat.le_refl _) (fun _ h => by omega) ?_ r hs
  intro c hc _
  have := fetch_eq wu hg (by rw [hd]; omega) c
  rw [hd] at this
  exact this

theorem deviceRealloc_false {ds es : List Nat} (h : deviceRealloc ds es = false) (hl : ds.length = es.length) : ds = es := by
  apply List.ext_getElem hl
  intro i h1 h2
  unfold deviceRealloc at h
  rw [List.any_eq_false] at h
  have := h i (List.mem_range.2 h1)
  simp only [decide_eq_true_eq, not_or, List.getD_eq_getElem?_getD, List.getElem?_eq_getElem h1,
    List.getElem?_eq_getElem h2, Option.getD_some, not_not] at this
  exact this.2

theorem deviceTarget_ok {mode : DeviceMode} (hm : mode ≠ .notInitialized) (z : Nat → K) {t : Strided K} (ht : t.IsTensor)
    {dims : List Nat} (hd : dims ≠ []) (hl : t.dims.length = dims.length) :
    ∃ t', deviceTarget mode z t dims = .ok t' ∧ t'.IsTensor ∧ t'.dims = dims := by
  unfold deviceTarget
  by_cases h : deviceRealloc t.dims dims = true
  · rw [if_pos h]
    refine ⟨Strided.mk' z dims, ?_, isTensor_mk' z hd, rfl⟩
    cases mode <;> first | rfl | exact (hm rfl).elim
  · rw [if_neg h]
    exact ⟨t, rfl, ht, deviceRealloc_false (by simpa using h) hl⟩

/-- **C130 (device tensor to device tensor, partial).** `t = u`: whatever the interleaving, `t` gets the shape and the elements of
`u`, whether or not it had another shape before.  Missing: targets that were declared without a shape (refuted below). -/
theorem C130_assign_partial (mode : DeviceMode) (hm : mode ≠ .notInitialized) (z : Nat → K) (t u : Strided K) (ht : t.IsTensor)
    (hu : u.IsTensor) (hd : u.dims ≠ []) (hl : t.dims.length = u.dims.length) (g : List Nat → K) (hg : u.Represents g)
    (r : Nat → K) :
    ∃ t0, deviceTarget mode z t u.dims = .ok t0 ∧ ∀ sched, Schedule (assignThreads t0 u) sched →
      ∃ t', deviceAssign mode z t u r sched = .ok t' ∧ t'.IsTensor ∧ t'.dims = u.dims ∧ t'.Represents g := by
  obtain ⟨t0, e0, h0, d0⟩ := deviceTarget_ok hm z ht hd hl
  refine ⟨t0, e0, ?_⟩
  intro sched hs
  unfold assignThreads copyThreads at hs
  rw [IsTensor_linearSize h0 (by rw [d0]; exact hd)] at hs
  obtain ⟨t', e, fr, hr⟩ := deviceCopy_all h0.wf hu.wf d0.symm hg (launchSwapped_pos _) r hs
  refine ⟨t', ?_, ?_, fr.dims.trans d0, hr⟩
  · unfold deviceAssign; rw [e0]; exact e
  · exact ⟨fr.off.trans h0.off, by rw [fr.strides, fr.dims]; exact h0.strides, by rw [fr.length, fr.dims]; exact h0.length⟩

/-- **C130 (default-constructed target, refuted).** Assigning a device tensor or a host tensor to a device tensor that was declared
without a shape throws. -/
theorem C130_uninitialised_refuted (z : Nat → K) (t u : Strided K) (r : Nat → K) (sched : List (Nat × RmwOp))
    (hr : deviceRealloc t.dims u.dims = true) :
    (deviceAssign .notInitialized z t u r sched).isError = true ∧ (deviceAssignHost .notInitialized z t u).isError = true := by
  unfold deviceAssign deviceAssignHost deviceTarget
  rw [if_pos hr]
  exact ⟨rfl, rfl⟩

/-- **C130 (host tensor to device tensor, partial).** `t = u` with a host tensor `u` of fewer than 2^31 elements. -/
theorem C130_host_partial (mode : DeviceMode) (hm : mode ≠ .notInitialized) (z : Nat → K) (t u : Strided K) (ht : t.IsTensor)
    (hu : u.IsTensor) (hd : u.dims ≠ []) (hl : t.dims.length = u.dims.length) (hn : numel u.dims < 2 ^ 31) (g : List Nat → K)
    (hg : u.Represents g) :
    ∃ t', deviceAssignHost mode z t u = .ok t' ∧ t'.IsTensor ∧ t'.dims = u.dims ∧ t'.Represents g := by
  obtain ⟨t0, e0, h0, d0⟩ := deviceTarget_ok hm z ht hd hl
  have hlen : t0.data.length = numel u.dims := by rw [h0.length, d0]
  have hdata : u.data.take (numel u.dims) ++ t0.data.drop (numel u.dims) = u.data := by
    rw [List.take_of_length_le (by rw [hu.length]), List.drop_eq_nil_of_le (by rw [hlen]), List.append_nil]
  refine ⟨{ t0 with data := u.data }, ?_, ⟨h0.off, h0.strides, by rw [hu.length]; exact congrArg numel d0.symm⟩, d0, ?_⟩
  · unfold deviceAssignHost
    rw [e0]
    simp only [Outcome.ok_bind, d0, sizeMethod_small hn]
    cases mode with
    | notInitialized => exact (hm rfl).elim
    | _ => rw [if_pos ⟨by rw [hlen], by rw [hu.length]⟩, hdata]
  · have hi : ({ t0 with data := u.data } : Strided K).IsTensor :=
      ⟨h0.off, h0.strides, by rw [hu.length]; exact congrArg numel d0.symm⟩
    rw [hi.represents_iff]
    show u.data = (box t0.dims).map g
    rw [d0]
    exact hu.represents_iff.1 hg

/-- **C130 (large host tensors, refuted).** A host tensor whose number of elements is a multiple of 2^32: nothing is copied. -/
theorem C130_large_refuted (mode : DeviceMode) (hm : mode ≠ .notInitialized) (z : Nat → K) (t u : Strided K)
    (hn : numel u.dims % 2 ^ 32 = 0) (hd : t.dims = u.dims) (hr : deviceRealloc t.dims u.dims = false) :
    deviceAssignHost mode z t u = .ok t := by
  have hz : sizeMethod t.dims = 0 := by rw [sizeMethod_eq, hd, hn]; rfl
  unfold deviceAssignHost deviceTarget
  rw [if_neg (by simp [hr])]
  simp only [Outcome.ok_bind, hz]
  cases mode with
  | notInitialized => exact (hm rfl).elim
  | _ => simp

/-- **C130 (device view to device tensor).** `t = v` for a device view `v` of the same shape as `t`, and construction of a device
tensor from a device view of any layout. -/
theorem C130_view_partial (z : Nat → K) (t v : Strided K) (ht : t.IsTensor) (wv : v.WF) (hd : v.dims ≠ []) (g : List Nat → K)
    (hg : v.Represents g) (r : Nat → K) :
    (v.dims = t.dims → ∀ sched, Schedule (assignThreads t v) sched →
      ∃ t', deviceAssignView t v r sched = .ok t' ∧ t.Frame t' ∧ t'.Represents g) ∧
    ∀ sched, Schedule (fromViewThreads v) sched →
      ∃ t', deviceFromView z v r sched = .ok t' ∧ t'.IsTensor ∧ t'.dims = v.dims ∧ t'.Represents g := by
  constructor
  · intro hdv sched hs
    unfold assignThreads copyThreads at hs
    rw [IsTensor_linearSize ht (by rw [← hdv]; exact hd)] at hs
    exact deviceCopy_all ht.wf wv hdv hg (launchSwapped_pos _) r hs
  · intro sched hs
    unfold fromViewThreads copyThreads at hs
    rw [linearSize_eq hd] at hs
    have h0 := isTensor_mk' z hd
    obtain ⟨t', e, fr, hr⟩ := deviceCopy_all (t := Strided.mk' z v.dims) h0.wf wv rfl hg (launchSwapped_pos _) r hs
    exact ⟨t', e, ⟨fr.off.trans h0.off, by rw [fr.strides, fr.dims]; exact h0.strides, by rw [fr.length, fr.dims]; exact h0.length⟩,
      fr.dims, hr⟩

/-- **C130 (shapes, refuted).** `t = v` with a device view of another shape is not rejected, and `t` is not given the shape of `v`:
if some element of `t` has no counterpart in the memory of `v`, every execution reads outside that memory. -/
theorem C130_shape_refuted (t v : Strided K) (ht : t.IsTensor) (hd : t.dims ≠ []) (i : List Nat)
    (hi : InBox i t.dims) (hv : v.data.length ≤ v.off + dot i v.strides) (r : Nat → K) (sched : List (Nat × RmwOp))
    (hs : Schedule (assignThreads t v) sched) : (deviceAssignView t v r sched).isUb = true := by
  unfold assignThreads copyThreads at hs
  rw [IsTensor_linearSize ht hd] at hs
  exact runKernel_ub (c := rowMajor i t.dims) (fun c v' => fetch_noError v t.dims c)
    (mem_store_sched (launchSwapped_pos _) hs (rowMajor_lt hi)) fun _ => fetch_ub hi hv

/-- **C130 (assignment to a device view, partial).** `v = u` for `u` of the same shape, and `v = array`: whatever the interleaving
and whatever the layouts, the elements are copied and nothing outside the view changes.  For fewer than 2^31 elements. -/
theorem C130_to_view_partial (v u : Strided K) (wv : v.WF) (wu : u.WF) (hd : u.dims = v.dims) (hn : numel v.dims < 2 ^ 31)
    (g : List Nat → K) (hg : u.Represents g) (xs : List K) (hx : xs = (box v.dims).map g) (r : Nat → K)
    (sched : List (Nat × RmwOp)) (hs : Schedule (viewAssignThreads v) sched) :
    (∃ t', viewAssign v u r sched = .ok t' ∧ v.Frame t' ∧ t'.Represents g) ∧
    ∃ t', viewAssignArray v xs r sched = .ok t' ∧ v.Frame t' ∧ t'.Represents g := by
  unfold viewAssignThreads copyThreads at hs
  rw [sizeMethod_small hn] at hs
  refine ⟨deviceCopy_all wv wu hd hg (launchSwapped_pos _) r hs, ?_⟩
  refine store_represents (launchSwapped_pos _) wv (Nat.le_refl _) (fun _ h => by omega) ?_ r hs
  intro c hc _
  have h0 : 0 < numel v.dims := by omega
  have hb : (box v.dims)[c]? = some (wrapIdx v.dims c) := by
    have h1 : (box v.dims)[rowMajor (wrapIdx v.dims c) v.dims]? = some (wrapIdx v.dims c) :=
      getElem_box_rowMajor (wrapIdx_inBox h0 c)
    rwa [rowMajor_wrapIdx h0, Nat.mod_eq_of_lt hc] at h1
  rw [hx, memGet, List.getElem?_map, hb]; rfl

/-- **C130 (copies of views, refuted).** Copying a device view object reads (first dimension) · (first stride) elements from the
start of the view; for a view that does not start in the first row this runs past the end of the tensor as soon as fewer
elements than that remain. -/
theorem C130_view_copy_refuted (v : Strided K) (h : v.data.length < v.off + linearSize v.strides v.dims) :
    (deviceViewCopy v).isUb = true := by
  unfold deviceViewCopy
  simp only
  rw [if_neg (by omega)]; rfl

/-- **C130 (copies of views, partial).** If the memory is there, the copy has the same elements (in memory of its own: later changes of
one are not seen through the other, unlike copies of host views). -/
theorem C130_view_copy_partial (v : Strided K) (w : v.WF) (g : List Nat → K) (hg : v.Represents g)
    (hf : v.off + linearSize v.strides v.dims ≤ v.data.length)
    (hb : ∀ i, InBox i v.dims → dot i v.strides < linearSize v.strides v.dims) :
    ∃ c, deviceViewCopy v = .ok c ∧ c.WF ∧ c.dims = v.dims ∧ c.data.length = linearSize v.strides v.dims ∧ c.Represents g := by
  have hl : ((v.data.drop v.off).take (linearSize v.strides v.dims)).length = linearSize v.strides v.dims := by
    simp; omega
  have wc : ({ v with data := (v.data.drop v.off).take (linearSize v.strides v.dims), off := 0 } : Strided K).WF := by
    refine ⟨w.len, ?_, w.inj⟩
    intro i hi
    show 0 + dot i v.strides < _
    rw [hl, Nat.zero_add]; exact hb i hi
  refine ⟨_, by unfold deviceViewCopy; simp only; rw [if_pos hf], wc, rfl, hl, ?_⟩
  rw [represents_iff wc]
  intro j hj
  show ((v.data.drop v.off).take (linearSize v.strides v.dims))[0 + dot j v.strides]? = _
  rw [Nat.zero_add, List.getElem?_take_of_lt (hb j hj), List.getElem?_drop]
  exact (represents_iff w).1 hg j hj

/-- The lower right 2×2 part of a 3×3 tensor. -/
example : (List.replicate 9 (0 : Int)).length < 4 + linearSize [3, 1] [2, 2] := by decide

/-- The first two rows and columns of a 3×3 tensor can be copied. -/
example : 0 + linearSize [3, 1] [2, 2] ≤ (List.replicate 9 (0 : Int)).length ∧
    ∀ i ∈ box [2, 2], dot i [3, 1] < linearSize [3, 1] [2, 2] := by decide

example : deviceRealloc [0, 0] [2, 3] = true ∧ deviceRealloc [2, 3] [2, 3] = false ∧ numel [65536, 65536] % 2 ^ 32 = 0 := by decide

/-- A transposed view is copied to a tensor. -/
example : deviceFromView (K := Int) (fun _ => 0) ⟨[1, 2, 3, 4, 5, 6], 0, [3, 2], [1, 3]⟩ (fun _ => 0)
    ((List.range 6).map (·, RmwOp.store)) = .ok ⟨[1, 4, 2, 5, 3, 6], 0, [3, 2], [2, 1]⟩ := by rfl

end

end Einsums.Props
