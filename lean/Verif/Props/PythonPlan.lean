import Verif.Proofs.PyDot
import Verif.Proofs.PyBlas
/-
C79–C85: the einsum of the Python interface.  `pyEinsum sz run cp Cl C ab Al A Bl B` compiles the plan for
`C[Cl] = cp C[Cl] + ab A[Al] B[Bl]` and executes it; `run` is what the OpenMP runtime chooses and `sz` the
size of an element in bytes.
-/
namespace Einsums.Props
open Spec Model Einsums

section
variable {R : Type} [CommSemiring R] [BEq R] [LawfulBEq R]
variable {L : Type} [DecidableEq L]

/-! ### C79: the generic plan -/

omit [CommSemiring R] [LawfulBEq R] in
theorem pyEinsum_generic [Add R] [Mul R] [Zero R] [One R] {Al Bl Cl : List L} {A B C : Strided R} {plan : PyPlan}
    (sz : Nat) (run : OmpRun) (cp ab : R)
    (hp : compilePlan Cl Al Bl = .ok plan)
    (hg : plan = .generic ∨ plan ≠ .dot ∧ plan ≠ .direct ∧ (C.strides ≠ (dimsToStrides C.dims).2 ∨
      A.strides ≠ (dimsToStrides A.dims).2 ∨ B.strides ≠ (dimsToStrides B.dims).2)) :
    pyEinsum sz run cp Cl C ab Al A Bl B = pyExecGeneric (pyBase Al Bl Cl) run.sched cp C ab A B := by
  unfold pyEinsum
  rw [hp]
  simp only [Outcome.ok_bind]
  rcases hg with rfl | ⟨h1, h2, h3⟩
  · rfl
  · have ug : (!pyContiguousBuffer C || !pyContiguousBuffer A || !pyContiguousBuffer B) = true := by
      simp only [pyContiguousBuffer, Bool.or_eq_true, Bool.not_eq_true', decide_eq_false_iff_not]
      tauto
    cases plan with
    | dot => exact (h1 rfl).elim
    | direct => exact (h2 rfl).elim
    | generic => rfl
    | ger => simp only [pyExecute, ug, if_true]
    | gemv => simp only [pyExecute, ug, if_true]
    | gemm => simp only [pyExecute, ug, if_true]

omit [LawfulBEq R] in
theorem generic_values {δ : L → Nat} {Al Bl Cl ls : List L} {A B C : Strided R} {fA fB fC : List Nat → R}
    (cp ab : R) (hs : Summed Al Bl Cl ls) (dC : C.dims = Cl.map δ)
    (h : ∃ C' f', pyExecGeneric (pyBase Al Bl Cl) sched cp C ab A B = .ok C' ∧ C.Frame C' ∧ C'.Represents f' ∧
      ∀ i, f' i = cp * fC i + ab * sumOver δ (pyLabels Al Bl Cl) (fun _ => 0)
        (fun σ => if Cl.map σ = i then fA (Al.map σ) * fB (Bl.map σ) else 0)) :
    ∃ C', pyExecGeneric (pyBase Al Bl Cl) sched cp C ab A B = .ok C' ∧ C.Frame C' ∧
      (∀ ρ, InRange δ Cl ρ → C'.read (toIdx (Cl.map ρ))
        = .ok (cp * fC (Cl.map ρ) + ab * contraction δ ls Al Bl fA fB ρ)) ∧
      ∀ i, InBox i C.dims → (∀ ρ : L → Nat, i ≠ Cl.map ρ) → C'.read (toIdx i) = .ok (cp * fC i) := by
  obtain ⟨C', f', h1, fr, h2, h3⟩ := h
  refine ⟨C', h1, fr, ?_, ?_⟩
  · intro ρ hρ
    have hb : InBox (Cl.map ρ) C'.dims := by
      rw [fr.dims, dC]
      exact inBox_map hρ
    rw [h2 _ hb, h3, sum_regroup hs.1 hs.2 fA fB ρ hρ]
  · intro i hi hne
    rw [h2 _ (by rw [fr.dims]; exact hi), h3, sumOver_congr (G := fun _ => 0), sumOver_zero, mul_zero, add_zero]
    intro σ _ _
    rw [if_neg fun e => hne σ e.symm]

/-- C79, on one thread: the generic plan computes `C[Cl] = cp C[Cl] + ab Σ A[Al] B[Bl]`, the sum taken over
every label missing from `C`, for any labels (repeated or not) and any strides, and touches nothing
else.  Missing: several threads (`C79_generic_threads_partial`, `C79_not_parallel`) and a `C` without
dimensions (`C79_not_scalar`). -/
theorem C79_generic_partial {δ : L → Nat} {Al Bl Cl ls : List L} {A B C : Strided R}
    {fA fB fC : List Nat → R} {plan : PyPlan} (sz : Nat) (run : OmpRun) (cp ab : R)
    (hp : compilePlan Cl Al Bl = .ok plan)
    (hg : plan = .generic ∨ plan ≠ .dot ∧ plan ≠ .direct ∧ (C.strides ≠ (dimsToStrides C.dims).2 ∨
      A.strides ≠ (dimsToStrides A.dims).2 ∨ B.strides ≠ (dimsToStrides B.dims).2))
    (dA : A.dims = Al.map δ) (dB : B.dims = Bl.map δ) (dC : C.dims = Cl.map δ)
    (hA : A.Represents fA) (hB : B.Represents fB) (hC : C.Represents fC) (w : C.WF) (hC0 : Cl ≠ [])
    (hs : Summed Al Bl Cl ls)
    (hr : Schedule (pyThreads (pyCount (pyBase Al Bl Cl) C.dims A.dims B.dims) 1) run.sched) :
    ∃ C', pyEinsum sz run cp Cl C ab Al A Bl B = .ok C' ∧ C.Frame C' ∧
      (∀ ρ, InRange δ Cl ρ → C'.read (toIdx (Cl.map ρ))
        = .ok (cp * fC (Cl.map ρ) + ab * contraction δ ls Al Bl fA fB ρ)) ∧
      ∀ i, InBox i C.dims → (∀ ρ : L → Nat, i ≠ Cl.map ρ) → C'.read (toIdx i) = .ok (cp * fC i) := by
  rw [pyEinsum_generic sz run cp ab hp hg]
  exact generic_values cp ab hs dC
    (pyExecGeneric_sem cp ab dA dB dC hA hB hC w hC0 Nat.one_pos hr fun s _ s' _ _ => by omega)

/-- C79, on any number of threads and under every interleaving, when every label of `A` and `B` occurs in
`C`: then no two iterations update the same element. -/
theorem C79_generic_threads_partial {δ : L → Nat} {Al Bl Cl : List L} {A B C : Strided R}
    {fA fB fC : List Nat → R} {plan : PyPlan} (sz : Nat) (run : OmpRun) (cp ab : R)
    (hp : compilePlan Cl Al Bl = .ok plan)
    (hg : plan = .generic ∨ plan ≠ .dot ∧ plan ≠ .direct ∧ (C.strides ≠ (dimsToStrides C.dims).2 ∨
      A.strides ≠ (dimsToStrides A.dims).2 ∨ B.strides ≠ (dimsToStrides B.dims).2))
    (dA : A.dims = Al.map δ) (dB : B.dims = Bl.map δ) (dC : C.dims = Cl.map δ)
    (hA : A.Represents fA) (hB : B.Represents fB) (hC : C.Represents fC) (w : C.WF) (hC0 : Cl ≠ [])
    (kA : ∀ l ∈ Al, l ∈ Cl) (kB : ∀ l ∈ Bl, l ∈ Cl) {threads : Nat} (ht : 0 < threads)
    (hr : Schedule (pyThreads (pyCount (pyBase Al Bl Cl) C.dims A.dims B.dims) threads) run.sched) :
    ∃ C', pyEinsum sz run cp Cl C ab Al A Bl B = .ok C' ∧ C.Frame C' ∧
      (∀ ρ, InRange δ Cl ρ → C'.read (toIdx (Cl.map ρ))
        = .ok (cp * fC (Cl.map ρ) + ab * (fA (Al.map ρ) * fB (Bl.map ρ)))) ∧
      ∀ i, InBox i C.dims → (∀ ρ : L → Nat, i ≠ Cl.map ρ) → C'.read (toIdx i) = .ok (cp * fC i) := by
  rw [pyEinsum_generic sz run cp ab hp hg]
  have hs : Summed Al Bl Cl [] := ⟨List.nodup_nil, fun l => by
    constructor
    · simp
    · rintro ⟨h | h, h2⟩
      · exact (h2 (kA l h)).elim
      · exact (h2 (kB l h)).elim⟩
  refine generic_values cp ab hs dC
    (pyExecGeneric_sem cp ab dA dB dC hA hB hC w hC0 ht hr ?_)
  intro s hs' s' hs'' e
  have hn : (pyLabels Al Bl Cl).Nodup := nodup_unique _
  have b1 := unflat_inBox hs'
  have b2 := unflat_inBox hs''
  have l1 := b1.length
  have l2 := b2.length
  rw [List.length_map] at l1 l2
  have := bindEnv_inj (ρ0 := fun _ => 0) _ _ _ hn l1 l2 (by
    intro l hl
    rw [List.map_inj_left] at e
    refine e l ?_
    rcases mem_pyLabels.1 hl with h | h | h
    · exact kA l h
    · exact kB l h
    · exact h)
  rw [← rowMajor_unflat hs', ← rowMajor_unflat hs'', this]

end

/-- One thread, `ij,ij->i`: not a matrix product, so the generic plan. -/
example : pyEinsum 8 ⟨[(0, .load), (0, .store), (1, .load), (1, .store)], []⟩ (2 : Int) ['i'] ⟨[5], 0, [1], [1]⟩ 1
    ['i', 'j'] ⟨[1, 2], 0, [1, 2], [2, 1]⟩ ['i', 'j'] ⟨[3, 4], 0, [1, 2], [2, 1]⟩
    = .ok ⟨[21], 0, [1], [1]⟩ := by decide +kernel
example : compilePlan ['i'] ['i', 'j'] ['i', 'j'] = .ok .generic := by decide
example : Summed ['i', 'j'] ['i', 'j'] ['i'] ['j'] := by
  refine ⟨by simp, fun l => ?_⟩
  by_cases h : l = 'i' <;> simp [h]
/-- Two threads, `ij,ji->ij` on 2×2 (the generic test of the repository). -/
example : compilePlan ['i', 'j'] ['j', 'i'] ['i', 'j'] = .ok .generic := by decide
/-- A strided operand sends an outer product to the generic path. -/
example : pyEinsum 8 ⟨[(0, .load), (1, .load), (1, .store), (0, .store)], []⟩ (1 : Int) ['i', 'j']
    ⟨[5, 6], 0, [1, 2], [2, 1]⟩ 1 ['i'] ⟨[7, 0], 0, [1], [2]⟩ ['j'] ⟨[3, 4], 0, [2], [1]⟩
    = .ok ⟨[26, 34], 0, [1, 2], [2, 1]⟩ := by decide +kernel

/-- C79 refuted for two threads: `C_data[C_ord] += …` is not atomic, and an interleaving of the two threads
loses one of the products (13 instead of 16). -/
theorem C79_not_parallel :
    ∃ sched, Schedule (pyThreads 2 2) sched ∧
      pyEinsum 8 ⟨sched, []⟩ (1 : Int) ['i'] ⟨[5], 0, [1], [1]⟩ 1
        ['i', 'j'] ⟨[1, 2], 0, [1, 2], [2, 1]⟩ ['i', 'j'] ⟨[3, 4], 0, [1, 2], [2, 1]⟩
        = .ok ⟨[13], 0, [1], [1]⟩ ∧
      pyCount (pyBase ['i', 'j'] ['i', 'j'] ['i']) [1] [1, 2] [1, 2] = 2 := by
  refine ⟨[(0, .load), (1, .load), (0, .store), (1, .store)], ?_, by decide +kernel, by decide +kernel⟩
  have : pyThreads 2 2 = [[(0, .load), (0, .store)], [(1, .load), (1, .store)]] := by decide +kernel
  rw [this]
  refine .step (i := 0) rfl ?_
  refine .step (i := 1) rfl ?_
  refine .step (i := 0) rfl ?_
  refine .step (i := 1) rfl ?_
  exact .done (by simp)

/-- C79 refuted for a `C` without dimensions: `C_dims[0]` of an empty vector, whatever the operands, as soon
as the ranks match. -/
theorem C79_not_scalar {R : Type} [CommSemiring R] [BEq R] {L : Type} [DecidableEq L] {Al Bl : List L}
    {A B C : Strided R} (sz : Nat) (run : OmpRun) (cp ab : R)
    (hp : compilePlan [] Al Bl = .ok .generic)
    (dA : A.dims.length = Al.length) (dB : B.dims.length = Bl.length) (dC : C.dims = []) :
    pyEinsum sz run cp [] C ab Al A Bl B = .ub "C_dims[0] of an empty vector" := by
  rw [pyEinsum_generic sz run cp ab hp (.inl rfl)]
  unfold pyExecGeneric
  rw [if_neg (by simp [pyBase, pyPermTable, dA, dB, dC])]
  simp only [pyScale, dC]
  rfl
/-- The trace of a product. -/
example : compilePlan ([] : List Char) ['i', 'j'] ['j', 'i'] = .ok .generic := by decide

/-- C79: operands whose number of dimensions differs from the number of labels are rejected with an
exception before anything is written. -/
theorem C79_rank_mismatch {R : Type} [CommSemiring R] [BEq R] {L : Type} [DecidableEq L] {Al Bl Cl : List L}
    {A B C : Strided R} (sz : Nat) (run : OmpRun) (cp ab : R) (hp : compilePlan Cl Al Bl = .ok .generic)
    (h : C.dims.length ≠ Cl.length ∨ A.dims.length ≠ Al.length ∨ B.dims.length ≠ Bl.length) :
    pyEinsum sz run cp Cl C ab Al A Bl B = .error "Tensor ranks do not match the indices!" := by
  rw [pyEinsum_generic sz run cp ab hp (.inl rfl)]
  unfold pyExecGeneric
  rw [if_pos]
  simp only [pyBase, pyPermTable, List.length_map]
  exact h.imp Ne.symm (Or.imp Ne.symm Ne.symm)
example : pyEinsum 8 ⟨[], []⟩ (1 : Int) ['i'] ⟨[5], 0, [1, 1], [1, 1]⟩ 1
    ['i', 'j'] ⟨[1, 2], 0, [1, 2], [2, 1]⟩ ['i', 'j'] ⟨[3, 4], 0, [1, 2], [2, 1]⟩
    = .error "Tensor ranks do not match the indices!" := by decide +kernel

/-! ### C80: dot products and element-wise products -/

section
variable {R : Type} [CommSemiring R] [BEq R] [LawfulBEq R]
variable {L : Type} [DecidableEq L]

/-- C80, dot product: with the same distinct labels on both operands, at least one, `C` becomes
`cp C + ab Σ A B`, however OpenMP divides the iterations and whatever the strides.  Missing: operands
without dimensions (`C80_not_scalar`). -/
theorem C80_dot_partial {δ : L → Nat} {Al : List L} {A B C : Strided R} {fA fB fC : List Nat → R}
    (sz : Nat) (run : OmpRun) (cp ab : R) (hn : Al.Nodup) (h0 : Al ≠ [])
    (dA : A.dims = Al.map δ) (dB : B.dims = Al.map δ) (dC : C.dims = [])
    (hA : A.Represents fA) (hB : B.Represents fB) (hC : C.Represents fC) (w : C.WF)
    (hr : run.parts.flatten.Perm (List.range (numel (Al.map δ)))) (ρ : L → Nat) :
    ∃ C', pyEinsum sz run cp [] C ab Al A Al B = .ok C' ∧ C.Frame C' ∧
      C'.read [] = .ok (cp * fC [] + ab * contraction δ Al Al Al fA fB ρ) := by
  have hA0 : A.dims ≠ [] := by rw [dA]; simpa using h0
  obtain ⟨C', h1, fr, h2⟩ := pyExecDot_ok cp ab hA0 (by rw [dA, dB]) hA hB dC w hC (parts := run.parts) (by
    rw [pyDotCount, head_mul_stride hA0, dA]; exact hr)
  refine ⟨C', ?_, fr, ?_⟩
  · unfold pyEinsum
    rw [plan_dot hn]
    exact h1
  · have := h2 [] (by rw [fr.dims, dC]; trivial)
    simp only [toIdx, List.map_nil] at this
    rw [this]
    congr 3
    unfold contraction
    rw [sumOver_eq δ Al hn, dA]
    congr 1
    apply List.map_congr_left
    intro vs hvs
    have hl : vs.length = Al.length := by simpa using (mem_box.1 hvs).length
    rw [map_bindEnv_self hn hl]

/-- C80, element-wise product: with the same distinct labels, at least one, on all three tensors every
element of `C` becomes `cp C + ab A B` and nothing else is touched, whatever the strides. -/
theorem C80_direct_partial {Al : List L} {A B C : Strided R} {fA fB fC : List Nat → R}
    (sz : Nat) (run : OmpRun) (cp ab : R) (hn : Al.Nodup) (h0 : Al ≠ []) (dA : A.dims.length = Al.length)
    (dB : B.dims = A.dims) (dC : C.dims = A.dims)
    (hA : A.Represents fA) (hB : B.Represents fB) (hC : C.Represents fC) (w : C.WF) :
    ∃ C', pyEinsum sz run cp Al C ab Al A Al B = .ok C' ∧ C.Frame C' ∧
      C'.Represents fun i => cp * fC i + ab * (fA i * fB i) := by
  obtain ⟨C', h1, fr, h2⟩ := pyExecDirect_ok cp ab (b := pyBase Al Al Al) (by
    rw [dA, pyBase_numInds_self hn]) dB dC hA hB w hC
  refine ⟨C', ?_, fr, h2⟩
  unfold pyEinsum
  rw [plan_direct hn h0]
  exact h1

omit [LawfulBEq R] in
/-- C80 refuted without labels: `"", "", ""` is compiled to a dot product, which reads `shape[0]` of an
empty vector. -/
theorem C80_not_scalar {A B C : Strided R} (sz : Nat) (run : OmpRun) (cp ab : R)
    (dA : A.dims = []) (dB : B.dims = []) :
    pyEinsum sz run cp ([] : List L) C ab [] A [] B = .ub "shape[0] of an empty vector" := by
  unfold pyEinsum
  rw [plan_dot List.nodup_nil]
  simp only [Outcome.ok_bind, pyExecute, pyExecDot, dA, dB]
  rfl

end

/-- Two threads, the second finishing first. -/
example : pyEinsum 8 ⟨[], [[2], [1, 0]]⟩ (2 : Int) [] ⟨[5], 0, [], []⟩ 1 ['i'] ⟨[1, 2, 3], 0, [3], [1]⟩ ['i']
    ⟨[3, 0, 4, 0, 5], 0, [3], [2]⟩ = .ok ⟨[36], 0, [], []⟩ := by decide +kernel
example : pyEinsum 8 ⟨[], []⟩ (2 : Int) ['i', 'j'] ⟨[5, 6], 0, [1, 2], [2, 1]⟩ 3 ['i', 'j'] ⟨[1, 2], 0, [1, 2], [2, 1]⟩
    ['i', 'j'] ⟨[3, 4], 0, [1, 2], [2, 1]⟩ = .ok ⟨[19, 36], 0, [1, 2], [2, 1]⟩ := by decide +kernel

/-! ### C81: outer products -/

section
variable {R : Type} [CommSemiring R] [BEq R] [LawfulBEq R]
variable {L : Type} [DecidableEq L]

/-- C81, for `cp` zero or one, contiguous buffers, every label of the operands in `C` and the operands' labels
in two blocks of `C` in either order: the outer product.  Missing: any other `cp` (`C81_not_scaled`),
other orders and summed labels (`C81_not_general`), an empty last block (`C81_not_empty`). -/
theorem C81_outer_partial {δ : L → Nat} {Al Bl Cl : List L} (sw : Bool) {A B C : Strided R}
    {fA fB fC : List Nat → R} (cp ab : R) (sz : Nat) (run : OmpRun)
    (hn : (Al ++ Bl).Nodup) (hA0 : Al ≠ []) (hB0 : Bl ≠ [])
    (eC : Cl = if sw then Bl ++ Al else Al ++ Bl)
    (dA : A.dims = Al.map δ) (dB : B.dims = Bl.map δ) (dC : C.dims = Cl.map δ)
    (rA : A.RowMajor) (rB : B.RowMajor) (rC : C.RowMajor)
    (hA : A.Represents fA) (hB : B.Represents fB) (hC : C.Represents fC)
    (hcp : cp = 0 ∨ cp = 1) (hz : numel ((if sw then Al else Bl).map δ) ≠ 0) :
    ∃ C', pyEinsum sz run cp Cl C ab Al A Bl B = .ok C' ∧ C.Frame C' ∧
      ∀ ρ, InRange δ Cl ρ → C'.read (toIdx (Cl.map ρ))
        = .ok (cp * fC (Cl.map ρ) + ab * (fA (Al.map ρ) * fB (Bl.map ρ))) :=
  pyGer_shape sw cp ab sz run hn hA0 hB0 eC dA dB dC rA rB rC hA hB hC hcp hz

/-- C81 refuted for any other `cp`: the scaling loop counts bytes as elements and runs past the end of `C`,
for every contiguous outer product whose buffer ends before eight (`sz`) times its size. -/
theorem C81_not_scaled {δ : L → Nat} {Al Bl Cl : List L} (sw : Bool) {A B C : Strided R}
    (cp ab : R) (sz : Nat) (run : OmpRun)
    (hn : (Al ++ Bl).Nodup) (hA0 : Al ≠ []) (hB0 : Bl ≠ [])
    (eC : Cl = if sw then Bl ++ Al else Al ++ Bl)
    (dC : C.dims = Cl.map δ) (rA : A.RowMajor) (rB : B.RowMajor) (rC : C.RowMajor)
    (full : C.data.length < C.off + numel C.dims * sz) (h0 : cp ≠ 0) (h1 : cp ≠ 1) :
    ∃ e, pyEinsum sz run cp Cl C ab Al A Bl B = .ub e :=
  pyGer_overrun sw cp ab sz run hn hA0 hB0 eC dC rA rB rC full h0 h1

end

example : pyEinsum 8 ⟨[], []⟩ (1 : Int) ['j', 'i'] ⟨[10, 20], 0, [2, 1], [1, 1]⟩ 1 ['i'] ⟨[2], 0, [1], [1]⟩
    ['j'] ⟨[3, 4], 0, [2], [1]⟩ = .ok ⟨[16, 28], 0, [2, 1], [1, 1]⟩ := by decide +kernel
example : pyEinsum 8 ⟨[], []⟩ (2 : Int) ['i', 'j'] ⟨[1, 2], 0, [1, 2], [2, 1]⟩ 1 ['i'] ⟨[2], 0, [1], [1]⟩
    ['j'] ⟨[3, 4], 0, [2], [1]⟩ = .ub "access outside the storage" := by decide +kernel

/-- C81 refuted for interleaved labels and for labels that occur in one operand only: `ij,k->ikj` stores
the product of `j` and `k` transposed (element `i = 0, k = 0, j = 1` is 4 instead of 6); `i,j->i` and `ik,j->ij`
do not sum over the missing label (3 instead of 7 and 9). -/
theorem C81_not_general :
    (∃ D, pyEinsum 8 ⟨[], []⟩ (0 : Int) ['i', 'k', 'j'] ⟨[0, 0, 0, 0], 0, [1, 2, 2], [4, 2, 1]⟩ 1
        ['i', 'j'] ⟨[1, 2], 0, [1, 2], [2, 1]⟩ ['k'] ⟨[3, 4], 0, [2], [1]⟩ = .ok D ∧
      D.read [0, 0, 1] = .ok 4 ∧ (2 : Int) * 3 = 6) ∧
    pyEinsum 8 ⟨[], []⟩ (0 : Int) ['i'] ⟨[0, 0], 0, [2], [1]⟩ 1 ['i'] ⟨[1, 2], 0, [2], [1]⟩ ['j']
      ⟨[3, 4], 0, [2], [1]⟩ = .ok ⟨[3, 6], 0, [2], [1]⟩ ∧
    pyEinsum 8 ⟨[], []⟩ (0 : Int) ['i', 'j'] ⟨[0], 0, [1, 1], [1, 1]⟩ 1 ['i', 'k'] ⟨[1, 2], 0, [1, 2], [2, 1]⟩ ['j']
      ⟨[3], 0, [1], [1]⟩ = .ok ⟨[3], 0, [1, 1], [1, 1]⟩ := by
  refine ⟨⟨⟨[3, 4, 6, 8], 0, [1, 2, 2], [4, 2, 1]⟩, by decide +kernel, by decide +kernel, by decide⟩,
    by decide +kernel, by decide +kernel⟩

/-- C81 refuted for an empty result: an exception instead of nothing to do. -/
theorem C81_not_empty :
    pyEinsum 8 ⟨[], []⟩ (1 : Int) ['i', 'j'] ⟨[], 0, [2, 0], [0, 1]⟩ 1 ['i'] ⟨[1, 2], 0, [2], [1]⟩ ['j']
      ⟨[], 0, [0], [1]⟩ = .error "lda is less than max(1, n)" := by decide +kernel

/-! ### C82: matrix-vector products -/

section
variable {R : Type} [CommSemiring R] [BEq R] [LawfulBEq R]
variable {L : Type} [DecidableEq L]

/-- C82, when as many labels are summed over as remain, the buffers are contiguous and the summed
dimensions are not zero: the matrix-vector product, for the matrix as first or second operand (`sw`) and with
the summed labels last or first (`t`).  Missing: other numbers of labels (`C82_not_more_targets`,
`C82_not_general`). -/
theorem C82_gemv_partial {δ : L → Nat} {T K Xl : List L} (t sw : Bool) {A B X Y C : Strided R}
    {fX fY fC : List Nat → R} (cp ab : R) (sz : Nat) (run : OmpRun)
    (hn : (T ++ K).Nodup) (hT0 : T ≠ []) (hlen : T.length = K.length)
    (eX : Xl = if t then K ++ T else T ++ K)
    (dX : X.dims = Xl.map δ) (dY : Y.dims = K.map δ) (dC : C.dims = T.map δ)
    (rX : X.RowMajor) (rY : Y.RowMajor) (rC : C.RowMajor)
    (hX : X.Represents fX) (hY : Y.Represents fY) (hC : C.Represents fC) (hk : ∀ l ∈ K, δ l ≠ 0)
    (eAB : (if sw then (B, A) else (A, B)) = (X, Y)) :
    ∃ C', pyEinsum sz run cp T C ab (if sw then K else Xl) A (if sw then Xl else K) B = .ok C' ∧ C.Frame C' ∧
      ∀ ρ, InRange δ T ρ → C'.read (toIdx (T.map ρ))
        = .ok (cp * fC (T.map ρ) + ab * contraction δ K Xl K fX fY ρ) := by
  have hK0 : K ≠ [] := by
    rintro rfl
    exact hT0 (List.length_eq_zero_iff.1 hlen)
  obtain ⟨nT, nK, dTK⟩ := List.nodup_append.1 hn
  obtain ⟨r, h1, fr, h2⟩ := gemv_blocks (P := T) t cp ab rX rY rC (by rw [dX, eX]) dY dC hX hY hC nK
    (fun l h1 h2 => dTK l h1 l h2 rfl) hk
  refine ⟨{ C with data := r.data }, ?_, fr, ?_⟩
  · rw [pyGemv_eq (δ := δ) t sw cp ab sz run hn hT0 hK0 eX dX dY dC rX rY rC eAB hlen, h1]
    rfl
  · rw [eX]
    exact h2

omit [LawfulBEq R] in
/-- C82 refuted when fewer labels are summed over than remain (`ijk,k->ij`): the loop over the remaining
labels reads past the end of the positions of the summed ones, whatever the tensors. -/
theorem C82_not_more_targets {δ : L → Nat} {T K Xl : List L} (t sw : Bool) {A B X Y C : Strided R}
    (cp ab : R) (sz : Nat) (run : OmpRun)
    (hn : (T ++ K).Nodup) (hT0 : T ≠ []) (hK0 : K ≠ []) (hlen : K.length < T.length)
    (eX : Xl = if t then K ++ T else T ++ K)
    (dX : X.dims = Xl.map δ) (dY : Y.dims = K.map δ) (dC : C.dims = T.map δ)
    (rX : X.RowMajor) (rY : Y.RowMajor) (rC : C.RowMajor)
    (eAB : (if sw then (B, A) else (A, B)) = (X, Y)) :
    pyEinsum sz run cp T C ab (if sw then K else Xl) A (if sw then Xl else K) B
      = .ub "vector index out of range" := by
  have mKX : ∀ l ∈ K, l ∈ Xl := by intro l hl; rw [eX]; cases t <;> simp [hl]
  rw [pyGemv_reduce (δ := δ) t sw cp ab sz run hn hT0 hK0 eX dX dY dC rX.strides rY.strides rC.strides eAB,
    pyProd_ub dX mKX _ hlen]
  rfl

end

example : pyEinsum 8 ⟨[], []⟩ (1 : Int) ['i'] ⟨[10, 20], 0, [2], [1]⟩ 1 ['j'] ⟨[5, 6, 7], 0, [3], [1]⟩
    ['j', 'i'] ⟨[1, 2, 3, 4, 5, 6], 0, [3, 2], [2, 1]⟩ = .ok ⟨[68, 96], 0, [2], [1]⟩ := by decide +kernel
example : pyEinsum 8 ⟨[], []⟩ (1 : Int) ['i', 'j'] ⟨[0], 0, [1, 1], [1, 1]⟩ 1 ['i', 'j', 'k']
    ⟨[1, 2], 0, [1, 1, 2], [2, 2, 1]⟩ ['k'] ⟨[3, 4], 0, [2], [1]⟩ = .ub "vector index out of range" := by
  decide +kernel

/-- C82 refuted when more labels are summed over than remain (`ijk,jk->i` gives 3 instead of 11), and when
one operand has a label of its own (`ijk,j->i` gives 3 instead of 9, `ij,jk->i` 3 instead of 7). -/
theorem C82_not_general :
    pyEinsum 8 ⟨[], []⟩ (0 : Int) ['i'] ⟨[0], 0, [1], [1]⟩ 1 ['i', 'j', 'k'] ⟨[1, 2], 0, [1, 1, 2], [2, 2, 1]⟩
      ['j', 'k'] ⟨[3, 4], 0, [1, 2], [2, 1]⟩ = .ok ⟨[3], 0, [1], [1]⟩ ∧
    pyEinsum 8 ⟨[], []⟩ (0 : Int) ['i'] ⟨[0], 0, [1], [1]⟩ 1 ['i', 'j', 'k'] ⟨[1, 2], 0, [1, 1, 2], [2, 2, 1]⟩
      ['j'] ⟨[3], 0, [1], [1]⟩ = .ok ⟨[3], 0, [1], [1]⟩ ∧
    pyEinsum 8 ⟨[], []⟩ (0 : Int) ['i'] ⟨[0], 0, [1], [1]⟩ 1 ['i', 'j'] ⟨[1], 0, [1, 1], [1, 1]⟩
      ['j', 'k'] ⟨[3, 4], 0, [1, 2], [2, 1]⟩ = .ok ⟨[3], 0, [1], [1]⟩ := by
  refine ⟨by decide +kernel, by decide +kernel, by decide +kernel⟩

/-! ### C83: matrix products -/

section
variable {R : Type} [CommSemiring R] [BEq R] [LawfulBEq R]
variable {L : Type} [DecidableEq L]

/-- C83, when `A` keeps as many labels as are summed over, `B` at most as many, and an operand that is
transposed is square: the matrix product, for all eight arrangements of the blocks.  Missing: everything
else (`C83_not_more_targets`, `C83_not_transposed`, `C83_not_general`). -/
theorem C83_gemm_partial {δ : L → Nat} {T U K Al Bl Cl : List L} (ta tb tc : Bool) {A B C : Strided R}
    {fA fB fC : List Nat → R} (sz : Nat) (run : OmpRun) (cp ab : R)
    (hn : (T ++ U ++ K).Nodup) (hT0 : T ≠ []) (hU0 : U ≠ [])
    (eA : Al = if ta then K ++ T else T ++ K) (eB : Bl = if tb then U ++ K else K ++ U)
    (eC : Cl = if tc then U ++ T else T ++ U)
    (dA : A.dims = Al.map δ) (dB : B.dims = Bl.map δ) (dC : C.dims = Cl.map δ)
    (rA : A.RowMajor) (rB : B.RowMajor) (rC : C.RowMajor)
    (hA : A.Represents fA) (hB : B.Represents fB) (hC : C.Represents fC) (hk : (∀ l ∈ K, δ l ≠ 0) ∨ ∃ l ∈ Cl, δ l = 0)
    (hTK : T.length = K.length) (hUK : U.length ≤ K.length)
    (sqA : ta = true → numel (T.map δ) = numel (K.map δ))
    (sqB : tb = true → U.length = K.length ∧ numel (U.map δ) = numel (K.map δ)) :
    ∃ C', pyEinsum sz run cp Cl C ab Al A Bl B = .ok C' ∧ C.Frame C' ∧
      ∀ ρ, InRange δ Cl ρ → C'.read (toIdx (Cl.map ρ))
        = .ok (cp * fC (Cl.map ρ) + ab * contraction δ K Al Bl fA fB ρ) := by
  have hK0 : K ≠ [] := by
    rintro rfl
    exact hT0 (List.length_eq_zero_iff.1 hTK)
  obtain ⟨hAn, hBn, hCn, hlinks, nTK, nUK, _, fCA, fCB, fAC, fBC⟩ := gemm_labels ta tb tc hn eA eB eC
  rw [pyGemm_eq (δ := δ) ta tb tc sz run cp ab hn hT0 hU0 hK0 eA eB eC dA dB dC rA rB rC hTK hUK sqA sqB]
  exact einsumGemm_shape ta tb tc cp ab hAn hBn hCn hT0 hU0 hK0 hlinks nTK nUK fCA fCB fAC fBC eA eB eC dA dB dC
    rA rB rC hA hB hC hk

omit [LawfulBEq R] in
/-- C83 refuted when an operand keeps more labels than are summed over (`ijk,kl->ijl`, `ij,jlm->ilm`): the
loop over the kept labels reads past the end of the positions of the summed ones, whatever the
tensors. -/
theorem C83_not_more_targets {δ : L → Nat} {T U K Al Bl Cl : List L} (ta tb tc : Bool) {A B C : Strided R}
    (sz : Nat) (run : OmpRun) (cp ab : R)
    (hn : (T ++ U ++ K).Nodup) (hT0 : T ≠ []) (hU0 : U ≠ []) (hK0 : K ≠ [])
    (eA : Al = if ta then K ++ T else T ++ K) (eB : Bl = if tb then U ++ K else K ++ U)
    (eC : Cl = if tc then U ++ T else T ++ U)
    (dA : A.dims = Al.map δ) (dB : B.dims = Bl.map δ) (dC : C.dims = Cl.map δ)
    (rA : A.RowMajor) (rB : B.RowMajor) (rC : C.RowMajor)
    (h : K.length < T.length ∨ K.length < U.length) :
    pyEinsum sz run cp Cl C ab Al A Bl B = .ub "vector index out of range" := by
  have mKA : ∀ l ∈ K, l ∈ Al := by intro l hl; rw [eA]; cases ta <;> simp [hl]
  have mKB : ∀ l ∈ K, l ∈ Bl := by intro l hl; rw [eB]; cases tb <;> simp [hl]
  rw [pyGemm_reduce (δ := δ) ta tb tc sz run cp ab hn hT0 hU0 hK0 eA eB eC dA dB dC rA.strides rB.strides rC.strides]
  by_cases hT : K.length < T.length
  · rw [pyProd_ub dA mKA _ hT]
    rfl
  · rw [pyProd_take dA mKA T.length (by omega)]
    simp only [Outcome.ok_bind]
    rw [pyProd_ub dB mKB _ (h.resolve_left hT)]
    rfl

end

example : pyEinsum 8 ⟨[], []⟩ (1 : Int) ['k', 'i'] ⟨[0, 0], 0, [2, 1], [1, 1]⟩ 1 ['i', 'j']
    ⟨[1, 2, 3], 0, [1, 3], [3, 1]⟩ ['j', 'k'] ⟨[1, 2, 3, 4, 5, 6], 0, [3, 2], [2, 1]⟩
    = .ok ⟨[22, 28], 0, [2, 1], [1, 1]⟩ := by decide +kernel
/-- A square transposed operand. -/
example : pyEinsum 8 ⟨[], []⟩ (0 : Int) ['i', 'k'] ⟨[0, 0], 0, [2, 1], [1, 1]⟩ 1 ['j', 'i']
    ⟨[1, 2, 3, 4], 0, [2, 2], [2, 1]⟩ ['j', 'k'] ⟨[5, 6], 0, [2, 1], [1, 1]⟩
    = .ok ⟨[23, 34], 0, [2, 1], [1, 1]⟩ := by decide +kernel
example : pyEinsum 8 ⟨[], []⟩ (1 : Int) ['i', 'j', 'l'] ⟨[0], 0, [1, 1, 1], [1, 1, 1]⟩ 1 ['i', 'j', 'k']
    ⟨[1], 0, [1, 1, 1], [1, 1, 1]⟩ ['k', 'l'] ⟨[3], 0, [1, 1], [1, 1]⟩ = .ub "vector index out of range" := by
  decide +kernel

/-- C83 refuted for a transposed operand that is not square: rows and columns are exchanged once too
often.  `ji,jk->ik` is rejected by the BLAS, `ij,kj->ki` writes outside `C`. -/
theorem C83_not_transposed :
    pyEinsum 8 ⟨[], []⟩ (0 : Int) ['i', 'k'] ⟨[0], 0, [1, 1], [1, 1]⟩ 1 ['j', 'i'] ⟨[1, 2], 0, [2, 1], [1, 1]⟩
      ['j', 'k'] ⟨[3, 4], 0, [2, 1], [1, 1]⟩ = .error "XERBLA" ∧
    pyEinsum 8 ⟨[], []⟩ (0 : Int) ['k', 'i'] ⟨[0], 0, [1, 1], [1, 1]⟩ 1 ['i', 'j'] ⟨[1, 2], 0, [1, 2], [2, 1]⟩
      ['k', 'j'] ⟨[3, 4], 0, [1, 2], [2, 1]⟩ = .ub "access outside the storage" := by
  refine ⟨by decide +kernel, by decide +kernel⟩

/-- C83 refuted when more labels are summed over than `A` keeps (`ijk,jkl->il` gives 3 instead of 11), and when an
operand has a label of its own (`ijk,jl->il` gives 3 instead of 9). -/
theorem C83_not_general :
    pyEinsum 8 ⟨[], []⟩ (0 : Int) ['i', 'l'] ⟨[0], 0, [1, 1], [1, 1]⟩ 1 ['i', 'j', 'k']
      ⟨[1, 2], 0, [1, 1, 2], [2, 2, 1]⟩ ['j', 'k', 'l'] ⟨[3, 4], 0, [1, 2, 1], [2, 1, 1]⟩
      = .ok ⟨[3], 0, [1, 1], [1, 1]⟩ ∧
    pyEinsum 8 ⟨[], []⟩ (0 : Int) ['i', 'l'] ⟨[0], 0, [1, 1], [1, 1]⟩ 1 ['i', 'j', 'k']
      ⟨[1, 2], 0, [1, 1, 2], [2, 2, 1]⟩ ['j', 'l'] ⟨[3], 0, [1, 1], [1, 1]⟩
      = .ok ⟨[3], 0, [1, 1], [1, 1]⟩ := by
  refine ⟨by decide +kernel, by decide +kernel⟩

/-! ### C84: inconsistent dimensions -/

/-- C84 refuted: dimensions of one label that differ between the tensors are not noticed.  A longer `A` makes
the generic plan and the dot product read past the end of `B`; a shorter one gives a result. -/
theorem C84_not_checked :
    (∀ sched, Schedule (pyThreads 2 1) sched →
      pyEinsum 8 ⟨sched, []⟩ (0 : Int) ['i'] ⟨[0], 0, [1], [1]⟩ 1 ['i', 'j'] ⟨[1, 2], 0, [1, 2], [2, 1]⟩
        ['i', 'j'] ⟨[3], 0, [1, 1], [1, 1]⟩ = .ub "access outside the storage") ∧
    pyEinsum 8 ⟨[], [[0, 1, 2]]⟩ (0 : Int) [] ⟨[0], 0, [], []⟩ 1 ['i'] ⟨[1, 2, 3], 0, [3], [1]⟩
      ['i'] ⟨[3, 4], 0, [2], [1]⟩ = .ub "access outside the storage" ∧
    pyEinsum 8 ⟨[], [[0, 1]]⟩ (0 : Int) [] ⟨[0], 0, [], []⟩ 1 ['i'] ⟨[1, 2], 0, [2], [1]⟩
      ['i'] ⟨[3, 4, 5], 0, [3], [1]⟩ = .ok ⟨[11], 0, [], []⟩ := by
  refine ⟨?_, by decide +kernel, by decide +kernel⟩
  intro sched hs
  have h1 : pyThreads 2 1 = [[(0, .load), (0, .store), (1, .load), (1, .store)]] := by decide +kernel
  rw [h1] at hs
  rw [schedule_single hs]
  decide +kernel

/-! ### C85: compiling a plan -/

/-- C85, when a label of the first operand occurs in `C` or in the second operand: a plan is found. -/
theorem C85_compile_partial {L : Type} [DecidableEq L] {Al Bl Cl : List L}
    (h : (∃ l ∈ Al, l ∈ Cl) ∨ ∃ l ∈ Al, l ∈ Bl) : ∃ p, compilePlan Cl Al Bl = .ok p := compile_ok h
example : compilePlan ['i', 'k'] ['i', 'j'] ['j', 'k'] =
    .ok (.gemm [1] [0] [0] [1] 0 1 1 0 0 1 false false false) := by decide +kernel
example : compilePlan ['j'] ['i'] ['i', 'j'] = .ok (.gemv [0] [0] [0] 1 0 0 0 true true) := by decide +kernel

/-- C85 refuted: when `A` shares no label with `B` and `C` has exactly the labels of `B` (a product with a
tensor without dimensions, or with one that is only summed over), compiling reads the first
element of an empty list. -/
theorem C85_not_total {L : Type} [DecidableEq L] {Al Bl : List L} (hn : (Al ++ Bl).Nodup)
    (hne : Al ≠ [] ∨ Bl ≠ []) : compilePlan Bl Al Bl = .ub "deque index out of range" :=
  compile_undefined hn hne
example : compilePlan ['i', 'j'] [] ['i', 'j'] = .ub "deque index out of range" := by decide +kernel

end Einsums.Props
