import Verif.Proofs.GpuLinear
import Verif.Props.Spectral
/-
C135: sort of device tensors.  C136: axpy, axpby, scale and direct_product of device tensors.

`Schedule threads sched` (Spec/Memory.lean) says that `sched` is an interleaving of the memory operations of the workers.
`Strided.Frame`: nothing outside the elements of the tensor or view changes.
-/
namespace Einsums.Props
open Spec Model

/-! ### C135 -/

section
variable {K L : Type} [CommSemiring K] [DecidableEq L]

/-- **C135 (beta = 0, partial).** `sort` of a row-major device tensor or view A with the factor 0 for C: whatever the interleaving,
C at the permuted indices is alpha · A, and nothing else changes.  C may be any view.  Missing: another factor for C, and views A
with gaps (both refuted below). -/
theorem C135_sort_partial (δ : L → Nat) (Al Cl : List L) (A C : Strided K) (fA : List Nat → K) (alpha : K) (hA : Al.Nodup)
    (hp : Cl.Perm Al) (dA : A.dims = Al.map δ) (dC : C.dims = Cl.map δ) (tA : A.RowMajor) (wC : C.WF)
    (hn : numel A.dims < 2 ^ 31) (rA : A.Represents fA) (r : Nat → K) (sched : List (Nat × Nat × RmwOp))
    (hs : Schedule (sortThreads A) sched) :
    ∃ C', deviceSort 0 Cl C alpha Al A r sched = .ok C' ∧ C.Frame C' ∧
      ∀ ρ, InRange δ Cl ρ → C'.read (toIdx (Cl.map ρ)) = .ok (alpha * fA (Al.map ρ)) := by
  obtain ⟨k1, k2, k3, k4⟩ := sort_setup δ hA hp tA dA dC rA
  have hmem : ∀ a, a ∈ sched ↔ a.1 < (launchStraight (numel A.dims)).size ∧ a.1 ≤ a.2.1 ∧ a.2.1 < numel A.dims := by
    rintro ⟨w, q, op⟩
    rw [hs.perm.mem_iff, sortThreads_eq hn, List.mem_flatten]
    constructor
    · rintro ⟨l, hl, hm⟩
      obtain ⟨w', hw', rfl⟩ := List.mem_map.1 hl
      obtain ⟨q', hq', hm⟩ := List.mem_flatMap.1 hm
      rw [List.mem_range'_1] at hq'
      simp only [List.mem_cons, Prod.mk.injEq, List.not_mem_nil, or_false] at hm
      have := List.mem_range.1 hw'
      have hm : w = w' ∧ q = q' := by
        rcases hm with ⟨a, b, _⟩ | ⟨a, b, _⟩ <;> exact ⟨a, b⟩
      simp only; omega
    · rintro ⟨h1, h2, h3⟩
      simp only at h1 h2 h3
      refine ⟨_, List.mem_map.2 ⟨w, List.mem_range.2 h1, rfl⟩, List.mem_flatMap.2 ⟨q, ?_, ?_⟩⟩
      · rw [List.mem_range'_1]; omega
      · cases op <;> simp
  obtain ⟨s', e, h1, h2, h3⟩ := sort_stores (alpha := alpha) (n := numel A.dims) (fun q hq => sortAddrs_eq δ hp tA dA C hq) k1
    (fun q q' hq hq' e => k3 q q' hq hq' (wC.inj _ _ (k2 q hq) (k2 q' hq') (by simpa using e))) sched
    (fun a ha => ((hmem a).1 ha).2.2) ⟨C.data, r⟩ (fun q hq => wC.bound _ (k2 q hq))
  have fr : C.Frame { C with data := s'.mem } :=
    ⟨rfl, rfl, rfl, h1, fun p hp => h2 p fun q hq => hp _ (k2 q hq)⟩
  refine ⟨_, by unfold deviceSort; rw [e]; rfl, fr, ?_⟩
  intro ρ hρ
  obtain ⟨g1, g2, g3⟩ := k4 ρ hρ
  have h4 : s'.mem[C.off + dot (Cl.map ρ) C.strides]? = some (alpha * fA (Al.map ρ)) := by
    rcases h3 _ g1 with ⟨_, h⟩ | ⟨h, _⟩
    · rw [g2, g3] at h; exact h
    · exact (h 0 ((hmem _).2 ⟨launchStraight_pos _, Nat.zero_le _, g1⟩)).elim
  have hb : InBox (Cl.map ρ) C.dims := by rw [dC]; exact inBox_map hρ
  rw [read_eq (t := { C with data := s'.mem }) (pyIndices_toIdx hb) (List.getElem?_eq_some_iff.1 h4).1]
  exact congrArg Outcome.ok (List.getElem?_eq_some_iff.1 h4).2

/-- **C135 (beta ≠ 0, what happens).** With any factor beta there is an execution in which the element of A of row-major rank q is
combined with its target min(q + 1, number of workers) times instead of once. -/
theorem C135_repeated (δ : L → Nat) (Al Cl : List L) (A C : Strided K) (fA fC : List Nat → K) (beta alpha : K) (hA : Al.Nodup)
    (hp : Cl.Perm Al) (dA : A.dims = Al.map δ) (dC : C.dims = Cl.map δ) (tA : A.RowMajor) (wC : C.WF)
    (hn : numel A.dims < 2 ^ 31) (rA : A.Represents fA) (rC : C.Represents fC) (r : Nat → K) :
    ∃ sched C', Schedule (sortThreads A) sched ∧ deviceSort beta Cl C alpha Al A r sched = .ok C' ∧ C.Frame C' ∧
      ∀ ρ, InRange δ Cl ρ → C'.read (toIdx (Cl.map ρ)) =
        .ok ((fun v => beta * v + alpha * fA (Al.map ρ))^[min (rowMajor (Al.map ρ) A.dims + 1)
          (launchStraight (numel A.dims)).size] (fC (Cl.map ρ))) := by
  obtain ⟨k1, k2, k3, k4⟩ := sort_setup δ hA hp tA dA dC rA
  have hfl : (sortThreads A).flatten = (((List.range (launchStraight (numel A.dims)).size).map fun w =>
      (List.range' w (numel A.dims - w)).map fun q => (w, q)).flatten).flatMap
        fun a => [(a.1, a.2, RmwOp.load), (a.1, a.2, RmwOp.store)] := by
    rw [sortThreads_eq hn]
    generalize List.range (launchStraight (numel A.dims)).size = ws
    induction ws with
    | nil => rfl
    | cons w ws ih =>
      rw [List.map_cons, List.flatten_cons, ih, List.map_cons, List.flatten_cons, List.flatMap_append, List.flatMap_map]
  obtain ⟨s', e, h1, h2, h3⟩ := sort_atomic (alpha := alpha) (beta := beta) (n := numel A.dims)
    (fun q hq => sortAddrs_eq δ hp tA dA C hq) k1
    (fun q q' hq hq' e => k3 q q' hq hq' (wC.inj _ _ (k2 q hq) (k2 q' hq') (by simpa using e)))
    (((List.range (launchStraight (numel A.dims)).size).map fun w =>
      (List.range' w (numel A.dims - w)).map fun q => (w, q)).flatten)
    (by
      intro a ha
      obtain ⟨l, hl, hm⟩ := List.mem_flatten.1 ha
      obtain ⟨w, hw, rfl⟩ := List.mem_map.1 hl
      obtain ⟨q, hq, rfl⟩ := List.mem_map.1 hm
      rw [List.mem_range'_1] at hq
      simp only; omega) ⟨C.data, r⟩ (fun q hq => wC.bound _ (k2 q hq))
  rw [← hfl] at e
  have fr : C.Frame { C with data := s'.mem } :=
    ⟨rfl, rfl, rfl, h1, fun p hp => h2 p fun q hq => hp _ (k2 q hq)⟩
  refine ⟨_, _, Schedule.sequential _, by unfold deviceSort; rw [e]; rfl, fr, ?_⟩
  intro ρ hρ
  obtain ⟨g1, g2, g3⟩ := k4 ρ hρ
  have hb : InBox (Cl.map ρ) C.dims := by rw [dC]; exact inBox_map hρ
  have h4 := h3 _ g1
  simp only [g2, g3] at h4
  rw [(represents_iff wC).1 rC _ hb, sort_count _ _ _ g1] at h4
  simp only [Option.map_some] at h4
  rw [read_eq (t := { C with data := s'.mem }) (pyIndices_toIdx hb) (List.getElem?_eq_some_iff.1 h4).1]
  exact congrArg Outcome.ok (List.getElem?_eq_some_iff.1 h4).2

/-- **C135 (targets of another shape, refuted).** The dimensions of C are not compared with those of A: if the target of some
element lies outside the memory of C, every execution writes outside that memory. -/
theorem C135_shape_refuted (δ : L → Nat) (Al Cl : List L) (A C : Strided K) (beta alpha : K)
    (hp : Cl.Perm Al) (dA : A.dims = Al.map δ) (tA : A.RowMajor) (hn : numel A.dims < 2 ^ 31) (ρ : L → Nat)
    (hρ : InRange δ Al ρ) (hc : C.data.length ≤ C.off + dot (Cl.map ρ) C.strides) (r : Nat → K)
    (sched : List (Nat × Nat × RmwOp)) (hs : Schedule (sortThreads A) sched) :
    (deviceSort beta Cl C alpha Al A r sched).isUb = true := by
  have hb : InBox (Al.map ρ) A.dims := by rw [dA]; exact inBox_map hρ
  have h := sortAddrs_eq δ hp tA dA C (rowMajor_lt hb)
  rw [wrapIdx_rowMajor hb] at h
  have e : Cl.map (bindEnv Al (Al.map ρ) fun _ => 0) = Cl.map ρ := by
    apply List.map_congr_left
    intro l hl
    rw [bindEnv_map, if_pos (hp.mem_iff.1 hl)]
  rw [e] at h
  exact sort_ub hn (rowMajor_lt hb) h hc r hs

/-- **C135 (views with gaps, refuted).** A: a view of at least two rows, whose rows are longer in memory than in the view.  Its
transposition into a tensor of the right shape writes outside the memory of that tensor, in every execution and for all factors. -/
theorem C135_view_refuted (i j : L) (hij : i ≠ j) (m n s : Nat) (hm : 2 ≤ m) (h0 : 0 < n) (hs' : n < s) (A C : Strided K)
    (dA : A.dims = [m, n]) (sA : A.strides = [s, 1]) (tC : C.IsTensor) (dC : C.dims = [n, m]) (hn : m * n < 2 ^ 31)
    (beta alpha : K) (r : Nat → K) (sched : List (Nat × Nat × RmwOp)) (hs : Schedule (sortThreads A) sched) :
    (deviceSort beta [j, i] C alpha [i, j] A r sched).isUb = true := by
  have hnum : numel A.dims = m * n := by rw [dA]; simp [numel]
  have hlt : n < m * n := by nlinarith
  refine sort_ub (q := n) (pa := A.off + n) (pc := C.off + n * m) (by rw [hnum]; exact hn) (by rw [hnum]; exact hlt) ?_ ?_ r hs
  · have h1 : sentinelToIndices n [s, 1] = [0, n] := by
      simp only [sentinelToIndices]
      rw [if_pos (by omega), if_pos (by omega), Nat.div_eq_of_lt hs', Nat.mod_eq_of_lt hs', Nat.div_one]
    have h2 : compileIndexTable [i, j] [j, i] = [1, 0] := by
      simp only [compileIndexTable, List.map_cons, List.map_nil, List.mem_cons, true_or, or_true, if_true, List.not_mem_nil,
        or_false, List.idxOf_cons_self]
      rw [List.idxOf_cons_ne _ hij, List.idxOf_cons_self]
      rfl
    have hsC : C.strides = [m, 1] := by rw [tC.strides, dC]; simp [dimsToStrides]
    unfold sortAddrs
    simp only [sA, h1, h2, hsC]
    simp [tableIndex, combinationToIndex, Nat.mul_comm m n]
  · rw [tC.length, dC, tC.off]; simp [numel, Nat.mul_comm]

end

/-- **C135 (beta ≠ 0, refuted).** Whatever the shape, as soon as there are two elements: `sort` of a tensor of ones onto a tensor of
zeros with both factors 1 may add 2 to an element. -/
theorem C135_beta_refuted {L : Type} [DecidableEq L] (δ : L → Nat) (Al Cl : List L) (A C : Strided Int) (hA : Al.Nodup)
    (hp : Cl.Perm Al) (dA : A.dims = Al.map δ) (dC : C.dims = Cl.map δ) (tA : A.RowMajor) (wC : C.WF)
    (hn : numel A.dims < 2 ^ 31) (h2 : 2 ≤ numel A.dims) (rA : A.Represents fun _ => 1) (rC : C.Represents fun _ => 0) :
    ∃ sched C' ρ, Schedule (sortThreads A) sched ∧ deviceSort 1 Cl C 1 Al A (fun _ => 0) sched = .ok C' ∧ InRange δ Cl ρ ∧
      C'.read (toIdx (Cl.map ρ)) = .ok 2 := by
  obtain ⟨sched, C', h1, e, _, h⟩ := C135_repeated δ Al Cl A C _ _ 1 1 hA hp dA dC tA wC hn rA rC (fun _ => 0)
  have hb : InBox (wrapIdx A.dims 1) A.dims := wrapIdx_inBox (by omega) 1
  have hl : (wrapIdx A.dims 1).length = Al.length := by rw [hb.length, dA, List.length_map]
  have hρ : InRange δ Cl (bindEnv Al (wrapIdx A.dims 1) fun _ => 0) := fun l hl =>
    box_bindEnv_inBox (dA ▸ hb) (hp.mem_iff.1 hl)
  refine ⟨sched, C', _, h1, e, hρ, ?_⟩
  rw [h _ hρ, map_bindEnv hA hl, rowMajor_wrapIdx (by omega), Nat.mod_eq_of_lt (by omega)]
  have hw : 2 ≤ (launchStraight (numel A.dims)).size := by
    rw [launchStraight_size]
    have h3 := (gpuBlocks_pos (numel A.dims)).1
    have h4 : 16 ≤ (blockSize (numel A.dims)).x := by
      unfold blockSize dim3
      split
      · simp
      · split
        · rename_i h5 h6
          have : ∀ k, k < 256 → 32 ≤ k → 16 ≤ k &&& 0xf0 := by decide +kernel
          exact this _ h6 (by omega)
        · simp
    nlinarith
  rw [show min (1 + 1) (launchStraight (numel A.dims)).size = 2 by omega]
  rfl

/-- A 2×3 tensor transposed; the workers run one after the other. -/
example : deviceSort (K := Int) 0 ["j", "i"] ⟨List.replicate 6 9, 0, [3, 2], [2, 1]⟩ 10 ["i", "j"] ⟨[1, 2, 3, 4, 5, 6], 0, [2, 3], [3, 1]⟩
    (fun _ => 0) (((List.range 6).map fun w => (List.range' w (6 - w)).flatMap fun q => [(w, q, .load), (w, q, .store)]).flatten) =
    .ok ⟨[10, 40, 20, 50, 30, 60], 0, [3, 2], [2, 1]⟩ := by decide
example : (⟨[1, 2, 3, 4, 5, 6], 0, [2, 3], [3, 1]⟩ : Strided Int).RowMajor ∧
    [2, 3] = ["i", "j"].map (fun l => if l = "i" then 2 else 3) ∧ ["j", "i"].Perm ["i", "j"] :=
  ⟨⟨rfl, by decide⟩, rfl, by decide⟩

/-- The left 2×2 part of a 2×3 tensor is a view as in `C135_view_refuted`. -/
example : 2 ≤ 2 ∧ 0 < 2 ∧ 2 < 3 ∧ (⟨List.replicate 4 0, 0, [2, 2], [2, 1]⟩ : Strided Int).IsTensor :=
  ⟨by decide, by decide, by decide, ⟨rfl, rfl, rfl⟩⟩

/-- A target as in `C135_shape_refuted`: 2×2 instead of 3×2. -/
example : (List.replicate 4 (0 : Int)).length ≤ 0 + dot (["j", "i"].map fun l => if l = "i" then 1 else 2) [2, 1] := by decide

/-! ### C136 -/

section
variable {K : Type} [Add K] [Mul K]

/-- **C136 (axpby, what happens).** Whatever the layouts and the interleaving: the `X.dim(0) * X.stride(0)` consecutive memory cells
from the start of Y on are combined with those from the start of X on, and no other cell changes. -/
theorem C136_axpby_cells (alpha beta : K) (X Y : Strided K) (hX : X.off + X.dim 0 * X.stride 0 ≤ X.data.length)
    (hY : Y.off + X.dim 0 * X.stride 0 ≤ Y.data.length) (r : Nat → K) (sched : List (Nat × RmwOp))
    (hs : Schedule (axpbyThreads X) sched) :
    ∃ d, deviceAxpby alpha X beta Y r sched = .ok { Y with data := d } ∧ d.length = Y.data.length ∧
      (∀ p, p < Y.off ∨ Y.off + X.dim 0 * X.stride 0 ≤ p → d[p]? = Y.data[p]?) ∧
      ∀ (c : Nat) (x y : K), c < X.dim 0 * X.stride 0 → X.data[X.off + c]? = some x → Y.data[Y.off + c]? = some y →
        d[Y.off + c]? = some (alpha * x + beta * y) := by
  generalize hk : X.dim 0 * X.stride 0 = n at *
  unfold axpbyThreads at hs
  rw [hk] at hs
  obtain ⟨x, hx⟩ : ∃ x : Nat → K, ∀ c, c < n → X.data[X.off + c]? = some (x c) := by
    rcases Nat.eq_zero_or_pos n with h | h
    · subst h
      exact ⟨r, fun c hc => by omega⟩
    · have : 0 < X.data.length := by omega
      refine ⟨fun c => X.data.getD (X.off + c) X.data[0], fun c hc => ?_⟩
      simp only [List.getD_eq_getElem?_getD, List.getElem?_eq_getElem (show X.off + c < X.data.length by omega), Option.getD_some]
  obtain ⟨d, e, h1, h2, h3⟩ := update_run (t := Y) (launchSwapped_pos n) (pos := fun c => Y.off + c)
    (f := fun c v => do let x ← memGet X.data (X.off + c); return alpha * x + beta * v)
    (h := fun c v => alpha * x c + beta * v) (fun _ _ => rfl) (fun c hc => by omega)
    (fun c d _ _ e => by simpa using e) (fun c hc v => by simp only [memGet, hx c hc]; rfl) r hs
  refine ⟨d, e, h1, fun p hp => h2 p (fun c hc => by omega), ?_⟩
  intro c x' y hc ex ey
  rw [h3 c hc, ey]
  rw [hx c hc] at ex
  cases ex; rfl

/-- **C136 (axpby, partial).** `axpby(alpha, X, beta, &Y)` of row-major device tensors or views of one shape: whatever the
interleaving every element becomes alpha · x + beta · y, and nothing else changes.  Missing: views with gaps (refuted below). -/
theorem C136_axpby_partial (alpha beta : K) (X Y : Strided K) (fX fY : List Nat → K) (hX : X.RowMajor) (hY : Y.RowMajor)
    (hd : X.dims = Y.dims) (h0 : Y.dims ≠ []) (rX : X.Represents fX) (rY : Y.Represents fY) (r : Nat → K)
    (sched : List (Nat × RmwOp)) (hs : Schedule (axpbyThreads X) sched) :
    ∃ Y', deviceAxpby alpha X beta Y r sched = .ok Y' ∧ Y.Frame Y' ∧ Y'.Represents fun i => alpha * fX i + beta * fY i := by
  have hn := dim0_stride0 hX (hd ▸ h0)
  have hn' : X.dim 0 * X.stride 0 = numel Y.dims := by rw [hn, hd]
  obtain ⟨d, e, h1, h2, h3⟩ := C136_axpby_cells alpha beta X Y (by rw [hn]; exact hX.fits) (by rw [hn']; exact hY.fits) r sched hs
  obtain ⟨fr, r'⟩ := frame_of_mem hY.wf h1 (f' := fun i => alpha * fX i + beta * fY i)
    (by
      intro j hj
      have hx := rowMajor_get hX rX (hd ▸ hj : InBox j X.dims)
      rw [hd] at hx
      rw [hY.strides, dot_strides_eq hj.length]
      exact h3 _ _ _ (by rw [hn']; exact rowMajor_lt hj) hx (rowMajor_get hY rY hj))
    (by
      intro p hp
      apply h2
      rw [hn']
      by_contra hc
      rw [not_or, Nat.not_lt, Nat.not_le] at hc
      have hlt : p - Y.off < numel Y.dims := by omega
      refine hp _ (unflat_inBox hlt) ?_
      rw [hY.strides, dot_strides_eq (unflat_inBox hlt).length, rowMajor_unflat hlt]
      omega)
  exact ⟨_, e, fr, r'⟩

/-- **C136 (axpy, partial).** The same for `axpy(alpha, X, &Y)`. -/
theorem C136_axpy_partial (alpha : K) (X Y : Strided K) (fX fY : List Nat → K) (hX : X.RowMajor) (hY : Y.RowMajor)
    (hd : X.dims = Y.dims) (h0 : Y.dims ≠ []) (rX : X.Represents fX) (rY : Y.Represents fY) :
    ∃ Y', deviceAxpy alpha X Y = .ok Y' ∧ Y.Frame Y' ∧ Y'.Represents fun i => fY i + alpha * fX i :=
  axpy_rowMajor hX hY hd h0 rX rY alpha

omit [Add K] in
/-- **C136 (scale, partial).** `scale(alpha, &A)` of a row-major device tensor or view of fewer than 2^31 elements. -/
theorem C136_scale_partial (alpha : K) (A : Strided K) (f : List Nat → K) (h : A.RowMajor) (h0 : A.dims ≠ [])
    (hn : numel A.dims < 2 ^ 31) (hf : A.Represents f) :
    ∃ A', deviceScale alpha A = .ok A' ∧ A.Frame A' ∧ A'.Represents fun i => alpha * f i := by
  have := scale_rowMajor h h0 hf alpha
  unfold scale at this
  unfold deviceScale
  rw [sizeMethod_small hn]
  rwa [dim0_stride0 h h0] at this

omit [Add K] in
/-- **C136 (rows and columns).** `scale_row` and `scale_column` of any matrix tensor or view with non-zero strides. -/
theorem C136_scale_lines_partial (A : Strided K) (w : A.WF) (m n s0 s1 : Nat) (d : A.dims = [m, n]) (s : A.strides = [s0, s1])
    (h0 : s0 ≠ 0) (h1 : s1 ≠ 0) (f : List Nat → K) (hf : A.Represents f) (c : K) :
    (∀ row, row < m → ∃ A', deviceScaleRow row c A = .ok A' ∧ A.Frame A' ∧ ∀ i j, i < m → j < n →
      A'.read [(i : Int), (j : Int)] = .ok (if i = row then c * f [i, j] else f [i, j])) ∧
    ∀ col, col < n → ∃ A', deviceScaleColumn col c A = .ok A' ∧ A.Frame A' ∧ ∀ i j, i < m → j < n →
      A'.read [(i : Int), (j : Int)] = .ok (if j = col then c * f [i, j] else f [i, j]) :=
  ⟨fun row hr => C105_scale_row_partial A w m n s0 s1 d s h1 row hr f hf c,
    fun col hc => C105_scale_column_partial A w m n s0 s1 d s h0 col hc f hf c⟩

end

section
variable {K : Type} [CommSemiring K] [DecidableEq K]

/-- **C136 (direct product).** `direct_product(alpha, A, B, beta, &C)` of device tensors or views of any layouts, of one shape and of
fewer than 2^31 elements: whatever the interleaving every element of C becomes beta · c + alpha · a · b, and nothing else changes. -/
theorem C136_product (alpha beta : K) (A B C : Strided K) (fA fB fC : List Nat → K) (wA : A.WF) (wB : B.WF) (wC : C.WF)
    (hB : A.dims = B.dims) (hC : A.dims = C.dims) (hn : numel A.dims < 2 ^ 31) (rA : A.Represents fA) (rB : B.Represents fB)
    (rC : C.Represents fC) (r : Nat → K) (sched : List (Nat × RmwOp)) (hs : Schedule (productThreads beta A) sched) :
    ∃ C', deviceProduct alpha A B beta C r sched = .ok C' ∧ C.Frame C' ∧
      C'.Represents fun i => beta * fC i + alpha * fA i * fB i := by
  unfold deviceProduct
  rw [if_neg (by simp [← hB, ← hC])]
  unfold productThreads at hs
  rw [sizeMethod_small hn] at hs
  have hget : ∀ c, c < numel A.dims → memGet A.data (productAddr A.dims A c) = .ok (fA (wrapIdx A.dims c)) ∧
      memGet B.data (productAddr A.dims B c) = .ok (fB (wrapIdx A.dims c)) := by
    intro c hc
    have hbox := wrapIdx_inBox (ds := A.dims) (by omega) c
    rw [productAddr_eq hc, productAddr_eq hc]
    constructor
    · unfold memGet; rw [(represents_iff wA).1 rA _ hbox]
    · unfold memGet; rw [(represents_iff wB).1 rB _ (hB ▸ hbox)]
  have haddr : ∀ c, c < numel A.dims → (.ok (productAddr A.dims C c) : Outcome Nat) = elementAddr C.off C.dims C.strides c := by
    intro c hc
    rw [elementAddr_eq (by rw [← hC]; omega), productAddr_eq hc, hC]
  by_cases hb : beta = 0
  · subst hb
    rw [if_pos rfl] at hs
    have hlt := store_sched_lt (launchSwapped_pos _) hs
    rw [runKernel_congr (addr' := elementAddr C.off C.dims C.strides)
      (f' := fun c _ => .ok (alpha * fA (wrapIdx C.dims c) * fB (wrapIdx C.dims c))) (by
        intro a ha
        refine ⟨haddr _ (hlt a ha), fun v => ?_⟩
        simp only [(hget _ (hlt a ha)).1, (hget _ (hlt a ha)).2, Outcome.ok_bind, if_true, ← hC]; rfl)]
    rw [hC] at hs
    obtain ⟨C', e, fr, h⟩ := store_represents (h := fun i => alpha * fA i * fB i) (launchSwapped_pos _) wC (Nat.le_refl _)
      (fun c hc => by omega) (fun _ _ _ => rfl) r hs
    refine ⟨C', e, fr, ?_⟩
    simpa only [zero_mul, zero_add] using h
  · rw [if_neg hb] at hs
    have hlt := update_sched_lt (launchSwapped_pos _) hs
    rw [runKernel_congr (addr' := elementAddr C.off C.dims C.strides)
      (f' := fun c v => .ok (beta * v + alpha * fA (wrapIdx C.dims c) * fB (wrapIdx C.dims c))) (by
        intro a ha
        refine ⟨haddr _ (hlt a ha), fun v => ?_⟩
        simp only [(hget _ (hlt a ha)).1, (hget _ (hlt a ha)).2, Outcome.ok_bind, if_neg hb, ← hC]; rfl)]
    rw [hC] at hs
    exact update_represents (h := fun i v => beta * v + alpha * fA i * fB i) (launchSwapped_pos _) wC rC
      (fun i hi v => by rw [wrapIdx_rowMajor hi]) r hs

/-- **C136 (direct product, shapes).** Operands of different shapes fail an assertion (in a build with assertions). -/
theorem C136_product_shapes (alpha beta : K) (A B C : Strided K) (h : A.dims ≠ B.dims ∨ A.dims ≠ C.dims) (r : Nat → K)
    (sched : List (Nat × RmwOp)) : (deviceProduct alpha A B beta C r sched).isUb = true := by
  unfold deviceProduct; rw [if_pos h]; rfl

end

/-- **C136 (views, refuted: axpby).** The left 2×2 parts of two 2×3 tensors: whatever the interleaving, `axpby` also changes the third
column of the target. -/
theorem C136_axpby_refuted (r : Nat → Int) (sched : List (Nat × RmwOp))
    (hs : Schedule (axpbyThreads (⟨[1, 1, 1, 1, 1, 1], 0, [2, 2], [3, 1]⟩ : Strided Int)) sched) :
    ∃ Y', deviceAxpby 1 ⟨[1, 1, 1, 1, 1, 1], 0, [2, 2], [3, 1]⟩ 1 (⟨[0, 0, 0, 0, 0, 0], 0, [2, 2], [3, 1]⟩ : Strided Int) r sched =
      .ok Y' ∧ Y'.data[2]? = some 1 := by
  obtain ⟨d, e, _, _, h⟩ := C136_axpby_cells 1 1 (⟨[1, 1, 1, 1, 1, 1], 0, [2, 2], [3, 1]⟩ : Strided Int)
    ⟨[0, 0, 0, 0, 0, 0], 0, [2, 2], [3, 1]⟩ (by decide) (by decide) r sched hs
  exact ⟨_, e, h 2 1 0 (by decide) rfl rfl⟩

/-- **C136 (views, refuted: scale).** Scaling the left 2×2 part of a 2×3 device tensor scales an element of the third column and
leaves out an element of the part (a host view is not handled in the same way: there both elements are scaled). -/
theorem C136_scale_refuted : deviceScale 0 (⟨[5, 5, 9, 5, 5, 9], 0, [2, 2], [3, 1]⟩ : Strided Int)
    = .ok ⟨[0, 0, 0, 0, 5, 9], 0, [2, 2], [3, 1]⟩ := by decide

/-- **C136 (shapes, refuted).** `axpy` does not compare shapes. -/
theorem C136_axpy_refuted : (deviceAxpy 1 (⟨[1, 2, 3, 4, 5, 6], 0, [6], [1]⟩ : Strided Int) ⟨[0, 0, 0, 0], 0, [4], [1]⟩).isUb = true ∧
    deviceAxpy 1 (⟨[1, 2], 0, [2], [1]⟩ : Strided Int) ⟨[0, 0, 0], 0, [3], [1]⟩ = .ok ⟨[1, 2, 0], 0, [3], [1]⟩ := by decide

/-- Two 2×2 matrices of different layouts. -/
example : deviceProduct (K := Int) 2 ⟨[1, 2, 3, 4], 0, [2, 2], [2, 1]⟩ ⟨[1, 2, 3, 4], 0, [2, 2], [1, 2]⟩ 1 ⟨[1, 1, 9, 1, 1, 9], 0, [2, 2], [3, 1]⟩
    (fun _ => 0) ((List.range 4).map (·, RmwOp.load) ++ (List.range 4).map (·, RmwOp.store)) =
    .ok ⟨[3, 13, 9, 13, 33, 9], 0, [2, 2], [3, 1]⟩ := by decide
example : deviceAxpby (K := Int) 2 ⟨[1, 2, 3, 4], 0, [2, 2], [2, 1]⟩ 3 ⟨[1, 1, 1, 1], 0, [2, 2], [2, 1]⟩ (fun _ => 0)
    ((List.range 4).map (·, RmwOp.load) ++ (List.range 4).map (·, RmwOp.store)) = .ok ⟨[5, 7, 9, 11], 0, [2, 2], [2, 1]⟩ := by decide

end Einsums.Props
