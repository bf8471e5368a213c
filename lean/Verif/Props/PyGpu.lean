import Verif.Proofs.PyGpu
import Verif.Props.PythonPlan
/-
C141–C143: the einsum of the Python interface on device memory.  `pyGpuEinsum z run cp Cl C ab Al A Bl B` compiles the plan for
`C[Cl] = cp C[Cl] + ab A[Al] B[Bl]` and executes it on views of device memory; `run` is what the GPU chooses, `z` says whether the
elements are double precision complex numbers.
-/
namespace Einsums.Props
open Spec Model Einsums

/-! ### C141: the generic plan -/

section
variable {K : Type} [CommSemiring K] [BEq K] [LawfulBEq K] {L : Type} [DecidableEq L]

omit [CommSemiring K] [LawfulBEq K] in
theorem pyGpuEinsum_generic [Add K] [Mul K] [Zero K] [One K] {Al Bl Cl : List L} {A B C : Strided K} {plan : PyPlan}
    (z : Bool) (run : GpuRun K) (cp ab : K) (hp : compilePlan Cl Al Bl = .ok plan)
    (hg : plan = .generic ∨ plan ≠ .dot ∧ plan ≠ .direct ∧ (C.strides ≠ (dimsToStrides C.dims).2 ∨
      A.strides ≠ (dimsToStrides A.dims).2 ∨ B.strides ≠ (dimsToStrides B.dims).2)) :
    pyGpuEinsum z run cp Cl C ab Al A Bl B = pyGpuGeneric (pyBase Al Bl Cl) run cp C ab A B := by
  unfold pyGpuEinsum
  rw [hp]
  simp only [Outcome.ok_bind]
  rcases hg with rfl | ⟨h1, h2, h3⟩
  · rfl
  · have ug : (!pyContiguousBuffer C || !pyContiguousBuffer A || !pyContiguousBuffer B) = true := by
      simp only [pyContiguousBuffer, Bool.or_eq_true, Bool.not_eq_true', decide_eq_false_iff_not]
      tauto
    cases plan with
    | dot => exact (h1 rfl).elim
    | direct => exact (h2 rfl).elim
    | generic => rfl
    | ger => simp only [pyGpuExecute, ug, if_true]
    | gemv => simp only [pyGpuExecute, ug, if_true]
    | gemm => simp only [pyGpuExecute, ug, if_true]

/-- The executions of the generic plan that C141 speaks about.  If `C`, `A` and `B` have the same labels: any interleaving of the workers.
Otherwise: the blocks run independently of each other, each with one barrier, and no element of `C` is added to before it has been
initialised. -/
def GenericRun (cp : K) (Al Bl Cl : List L) (A B C : Strided K) (run : GpuRun K) : Prop :=
  let ud := pyGpuDims (pyBase Al Bl Cl) A.dims B.dims
  Schedule (directThreadsOf cp (einsumCount ud)) run.rmw ∧
  GridRun (einBlocksOf cp (numel C.dims) (einsumCount ud)) run.ein ∧
  run.ein.Pairwise fun a b => a.2 = .add → b.2 ≠ .add →
    pyGpuEinAddr (pyBase Al Bl Cl) ud C a ≠ pyGpuEinAddr (pyBase Al Bl Cl) ud C b

omit [LawfulBEq K] in
/-- Such executions exist, whatever the operands. -/
theorem C141_runs_exist (cp : K) (Al Bl Cl : List L) (A B C : Strided K) : ∃ run, GenericRun cp Al Bl Cl A B C run := by
  obtain ⟨s, h1, h2⟩ := ordered_exists cp (numel C.dims) (einsumCount (pyGpuDims (pyBase Al Bl Cl) A.dims B.dims))
    (pyGpuEinAddr (pyBase Al Bl Cl) (pyGpuDims (pyBase Al Bl Cl) A.dims B.dims) C)
  exact ⟨⟨s, _, [], fun _ => 0⟩, Schedule.sequential _, h1, h2⟩

/-- **C141 (what the generic plan computes).** If the labels of `C` are distinct and each of them occurs in `A` or `B`: the contraction in
which an operand with a repeated label is read at the index that has 0 in the repeated places. -/
theorem C141_first_only {δ : L → Nat} {Al Bl Cl ls : List L} {A B C : Strided K} {fA fB fC : List Nat → K} {plan : PyPlan}
    (z : Bool) (run : GpuRun K) (cp ab : K) (hp : compilePlan Cl Al Bl = .ok plan)
    (hg : plan = .generic ∨ plan ≠ .dot ∧ plan ≠ .direct ∧ (C.strides ≠ (dimsToStrides C.dims).2 ∨
      A.strides ≠ (dimsToStrides A.dims).2 ∨ B.strides ≠ (dimsToStrides B.dims).2))
    (dA : A.dims = Al.map δ) (dB : B.dims = Bl.map δ) (dC : C.dims = Cl.map δ) (lA : A.strides.length = A.dims.length)
    (lB : B.strides.length = B.dims.length) (hA : A.Represents fA) (hB : B.Represents fB) (hC : C.Represents fC) (w : C.WF)
    (hC0 : Cl ≠ []) (nC : Cl.Nodup) (kC : ∀ l ∈ Cl, l ∈ Al ∨ l ∈ Bl) (hs : Summed Al Bl Cl ls)
    (hr : GenericRun cp Al Bl Cl A B C run) :
    ∃ C', pyGpuEinsum z run cp Cl C ab Al A Bl B = .ok C' ∧ C.Frame C' ∧
      ∀ ρ, InRange δ Cl ρ → C'.read (toIdx (Cl.map ρ)) = .ok (cp * fC (Cl.map ρ) +
        ab * contraction δ ls Al Bl (fun i => fA (keepFirst Al i)) (fun i => fB (keepFirst Bl i)) ρ) := by
  rw [pyGpuEinsum_generic z run cp ab hp hg]
  obtain ⟨r1, r2, r3⟩ := hr
  have hud : pyGpuDims (pyBase Al Bl Cl) A.dims B.dims = (pyLabels Al Bl Cl).map δ := by
    rw [dA, dB, pyGpuDims_eq]
    apply List.map_congr_left
    intro l hl
    rw [if_pos]
    rcases mem_pyLabels.1 hl with h | h | h
    · exact .inl h
    · exact .inr h
    · exact kC l h
  have mC : ∀ l ∈ Cl, l ∈ pyLabels Al Bl Cl := fun l hl => mem_pyLabels.2 (.inr (.inr hl))
  by_cases hd : pyDirectSwap (pyBase Al Bl Cl) = true
  · obtain ⟨C', f', e, fr, rp, h⟩ := pyGpuSwap_sem dA dB dC lA lB hA hB hC w hC0 nC hud hd cp ab run r1
    obtain ⟨kA, kB⟩ := pyDirectSwap_labels nC hd
    refine ⟨C', e, fr, fun ρ hρ => ?_⟩
    have e0 : ls = [] := by
      rw [List.eq_nil_iff_forall_not_mem]
      intro l hl
      obtain ⟨h1, h2⟩ := (hs.2 l).1 hl
      rcases h1 with h1 | h1
      · exact h2 (kA l h1)
      · exact h2 (kB l h1)
    rw [rp _ (by rw [fr.dims, dC]; exact inBox_map hρ), h ρ hρ, e0]
    rfl
  · obtain ⟨C', f', e, fr, rp, h⟩ := pyGpuEin_sem dA dB lA lB (by rw [dC, List.length_map]) hA hB hC w hC0 (by
      intro s hs
      rw [dC]
      exact keepFirst_inBox Cl _ fun l hl => iterEnv_lt hs (mC l hl)) hud (by simpa using hd) cp ab run r2 r3
    refine ⟨C', e, fr, fun ρ hρ => ?_⟩
    have hb : InBox (Cl.map ρ) C.dims := by rw [dC]; exact inBox_map hρ
    rw [rp _ (by rw [fr.dims]; exact hb), h _ hb,
      ← sum_regroup hs.1 hs.2 (fun i => fA (keepFirst Al i)) (fun i => fB (keepFirst Bl i)) ρ hρ]
    congr 3
    apply sumOver_congr
    intro σ _ _
    rw [keepFirst_nodup nC _ (by simp)]

/-- **C141 (partial).** If the labels of each tensor are distinct, each label of `C` occurs in `A` or `B`, and `C` has at least one
label: `C[Cl] = cp C[Cl] + ab Σ A[Al] B[Bl]`, the sum over the labels that `C` does not have, and nothing else changes.  The
execution is one in which every element of `C` is initialised before anything is added to it, or, when all tensors have the same labels,
any execution.  Missing: the other executions (`C141_not_ordered`), repeated labels (`C141_first_only`, `C141_not_repeated`), labels that
only `C` has (`C141_not_new_label`), a `C` without labels (`C141_not_scalar`). -/
theorem C141_generic_partial {δ : L → Nat} {Al Bl Cl ls : List L} {A B C : Strided K} {fA fB fC : List Nat → K} {plan : PyPlan}
    (z : Bool) (run : GpuRun K) (cp ab : K) (hp : compilePlan Cl Al Bl = .ok plan)
    (hg : plan = .generic ∨ plan ≠ .dot ∧ plan ≠ .direct ∧ (C.strides ≠ (dimsToStrides C.dims).2 ∨
      A.strides ≠ (dimsToStrides A.dims).2 ∨ B.strides ≠ (dimsToStrides B.dims).2))
    (dA : A.dims = Al.map δ) (dB : B.dims = Bl.map δ) (dC : C.dims = Cl.map δ) (lA : A.strides.length = A.dims.length)
    (lB : B.strides.length = B.dims.length) (hA : A.Represents fA) (hB : B.Represents fB) (hC : C.Represents fC) (w : C.WF)
    (hC0 : Cl ≠ []) (nA : Al.Nodup) (nB : Bl.Nodup) (nC : Cl.Nodup) (kC : ∀ l ∈ Cl, l ∈ Al ∨ l ∈ Bl) (hs : Summed Al Bl Cl ls)
    (hr : GenericRun cp Al Bl Cl A B C run) :
    ∃ C', pyGpuEinsum z run cp Cl C ab Al A Bl B = .ok C' ∧ C.Frame C' ∧
      ∀ ρ, InRange δ Cl ρ → C'.read (toIdx (Cl.map ρ)) = .ok (cp * fC (Cl.map ρ) + ab * contraction δ ls Al Bl fA fB ρ) := by
  obtain ⟨C', e, fr, h⟩ := C141_first_only z run cp ab hp hg dA dB dC lA lB hA hB hC w hC0 nC kC hs hr
  refine ⟨C', e, fr, fun ρ hρ => ?_⟩
  rw [h ρ hρ]
  congr 3
  unfold contraction
  apply sumOver_congr
  intro σ _ _
  simp only
  rw [keepFirst_nodup nA _ (by simp), keepFirst_nodup nB _ (by simp)]

/-- **C141 (refuted for labels that only `C` has).** Their dimension is taken to be 0, so that nothing is added: every element of `C` is
multiplied with `cp`, for all operands and also when the execution is in order.  (`ρ` below: what `C` should hold is
`cp C + ab Σ A B`.) -/
theorem C141_not_new_label {δ : L → Nat} {Al Bl Cl : List L} {A B C : Strided K} {fA fB fC : List Nat → K} {plan : PyPlan}
    (z : Bool) (run : GpuRun K) (cp ab : K) (hp : compilePlan Cl Al Bl = .ok plan)
    (hg : plan = .generic ∨ plan ≠ .dot ∧ plan ≠ .direct ∧ (C.strides ≠ (dimsToStrides C.dims).2 ∨
      A.strides ≠ (dimsToStrides A.dims).2 ∨ B.strides ≠ (dimsToStrides B.dims).2))
    (dA : A.dims = Al.map δ) (dB : B.dims = Bl.map δ) (dC : C.dims = Cl.map δ) (lA : A.strides.length = A.dims.length)
    (lB : B.strides.length = B.dims.length) (hA : A.Represents fA) (hB : B.Represents fB) (hC : C.Represents fC) (w : C.WF)
    (nA : Al.Nodup) (nC : Cl.Nodup) {l : L} (hl : l ∈ Cl) (h1 : l ∉ Al) (h2 : l ∉ Bl)
    (hr : GenericRun cp Al Bl Cl A B C run) :
    ∃ C', pyGpuEinsum z run cp Cl C ab Al A Bl B = .ok C' ∧ C.Frame C' ∧
      ∀ ρ, InRange δ Cl ρ → C'.read (toIdx (Cl.map ρ)) = .ok (cp * fC (Cl.map ρ)) := by
  rw [pyGpuEinsum_generic z run cp ab hp hg]
  obtain ⟨r1, r2, r3⟩ := hr
  have hd : pyDirectSwap (pyBase Al Bl Cl) = false := by
    cases hd : pyDirectSwap (pyBase Al Bl Cl) with
    | false => rfl
    | true =>
      have hlen : Cl.length ≤ Al.length := by
        rw [pyBase_eq] at hd
        unfold pyDirectSwap at hd
        simp only [Bool.and_eq_true, decide_eq_true_eq, List.length_map] at hd
        omega
      have hp := (nA.subperm (pyDirectSwap_labels nC hd).1).perm_of_length_le hlen
      exact (h1 (hp.mem_iff.2 hl)).elim
  have mA : A.dims = Al.map fun l => if l ∈ Al ∨ l ∈ Bl then δ l else 0 := by
    rw [dA]; apply List.map_congr_left; intro l hl; rw [if_pos (.inl hl)]
  have mB : B.dims = Bl.map fun l => if l ∈ Al ∨ l ∈ Bl then δ l else 0 := by
    rw [dB]; apply List.map_congr_left; intro l hl; rw [if_pos (.inr hl)]
  have hz : ∀ xs : List L, l ∈ xs → numel (xs.map fun l => if l ∈ Al ∨ l ∈ Bl then δ l else 0) = 0 := by
    intro xs hx
    induction xs with
    | nil => simp at hx
    | cons x xs ih =>
      rw [List.map_cons, numel_cons]
      rcases List.mem_cons.1 hx with rfl | hx
      · rw [if_neg (by tauto), Nat.zero_mul]
      · rw [ih hx, Nat.mul_zero]
  have hnum := hz _ (mem_pyLabels.2 (.inr (.inr hl)) : l ∈ pyLabels Al Bl Cl)
  obtain ⟨C', f', e, fr, rp, h⟩ := pyGpuEin_sem mA mB lA lB (by rw [dC, List.length_map]) hA hB hC w
    (List.ne_nil_of_mem hl) (by
      intro s hs
      rw [hnum] at hs
      omega) (by rw [dA, dB, pyGpuDims_eq]) hd cp ab run r2 r3
  refine ⟨C', e, fr, fun ρ hρ => ?_⟩
  have hb : InBox (Cl.map ρ) C.dims := by rw [dC]; exact inBox_map hρ
  rw [rp _ (by rw [fr.dims]; exact hb), h _ hb, ← sum_iterations (U := pyLabels Al Bl Cl) (nodup_unique _), hnum]
  simp

omit [LawfulBEq K] in
/-- **C141 (refuted for a `C` without labels).** The kernel clears `C` although it has been scaled before: the result is the same for all
prefactors `cp` and all values of `C`, in every execution.  If the clearing comes first it is `ab Σ A[Al] B[Bl]`, the sum over all
labels. -/
theorem C141_not_scalar {δ : L → Nat} {Al Bl ls : List L} {A B : Strided K} {fA fB : List Nat → K}
    (z : Bool) (run : GpuRun K) (ab : K) (hp : compilePlan [] Al Bl = .ok .generic)
    (dA : A.dims = Al.map δ) (dB : B.dims = Bl.map δ) (lA : A.strides.length = A.dims.length)
    (lB : B.strides.length = B.dims.length) (hA : A.Represents fA) (hB : B.Represents fB) (nA : Al.Nodup) (nB : Bl.Nodup)
    (h0 : Al ≠ [] ∨ Bl ≠ []) (hs : Summed Al Bl [] ls)
    (hr : GridRun (zeroBlocks (einsumCount (pyGpuDims (pyBase Al Bl []) A.dims B.dims))) run.atomic) :
    ∃ x, (∀ cp c, pyGpuEinsum z run cp [] ⟨[c], 0, [], []⟩ ab Al A Bl B = .ok ⟨[x], 0, [], []⟩) ∧
      (run.atomic.head? = some (0, .zero) → x = ab * contraction δ ls Al Bl fA fB fun _ => 0) := by
  have hud : pyGpuDims (pyBase Al Bl []) A.dims B.dims = (pyLabels Al Bl []).map δ := by
    rw [dA, dB, pyGpuDims_eq]
    apply List.map_congr_left
    intro l hl
    rw [if_pos]
    rcases mem_pyLabels.1 hl with h | h | h
    · exact .inl h
    · exact .inr h
    · simp at h
  have hU0 : (pyLabels Al Bl []).map δ ≠ [] := by simpa using pyLabels_ne_nil (Cl := []) (.inr h0)
  rw [hud, einsumCount_eq hU0] at hr
  have hv := fun w hw => pyGpuValue_eq (Cl := []) dA dB lA lB hA hB ab hU0 (w := w) hw
  have run_eq : ∀ cp c, pyGpuEinsum z run cp [] ⟨[c], 0, [], []⟩ ab Al A Bl B =
      (run.atomic.foldlM (atomicStep (pyGpuValue (pyBase Al Bl []) ((pyLabels Al Bl []).map δ) ab A B))
        (if cp == 0 then 0 else c * cp) >>= fun x => .ok ⟨[x], 0, [], []⟩) := by
    intro cp c
    rw [pyGpuEinsum_generic z run cp ab hp (.inl rfl)]
    unfold pyGpuGeneric
    rw [if_neg (by rw [pyBase_eq]; simp [dA, dB])]
    simp only
    rw [hud, if_neg (by simpa using hU0), if_pos (by rw [pyBase_eq]; rfl)]
    simp only [memUpd, List.getElem?_cons_zero]
    cases run.atomic.foldlM (atomicStep (pyGpuValue (pyBase Al Bl []) ((pyLabels Al Bl []).map δ) ab A B))
        (if cp == 0 then 0 else c * cp) <;> rfl
  obtain ⟨x, hx⟩ := zero_forgets hv hr
  refine ⟨x, fun cp c => by rw [run_eq, hx]; rfl, fun hh => ?_⟩
  have h1 := zero_ordered hv 0 hr hh
  rw [hx 0] at h1
  injection h1 with h1
  rw [h1, sum_mul_workers (launchSwapped_pos _),
    sum_iterations (U := pyLabels Al Bl []) (nodup_unique _) δ (fun σ => fA (keepFirst Al (Al.map σ)) * fB (keepFirst Bl (Bl.map σ))),
    ← sum_regroup hs.1 hs.2 fA fB (fun _ => 0) (by intro l hl; simp at hl)]
  congr 1
  apply sumOver_congr
  intro σ _ _
  rw [keepFirst_nodup nA _ (by simp), keepFirst_nodup nB _ (by simp)]
  simp

omit [LawfulBEq K] in
/-- C141: operands whose number of dimensions differs from the number of labels are rejected with an exception before anything is
written. -/
theorem C141_rank_mismatch {Al Bl Cl : List L} {A B C : Strided K} (z : Bool) (run : GpuRun K) (cp ab : K)
    (hp : compilePlan Cl Al Bl = .ok .generic)
    (h : C.dims.length ≠ Cl.length ∨ A.dims.length ≠ Al.length ∨ B.dims.length ≠ Bl.length) :
    pyGpuEinsum z run cp Cl C ab Al A Bl B = .error "Tensor ranks do not match the indices!" := by
  rw [pyGpuEinsum_generic z run cp ab hp (.inl rfl)]
  unfold pyGpuGeneric
  rw [if_pos]
  simp only [pyBase, pyPermTable, List.length_map]
  exact h.imp Ne.symm (Or.imp Ne.symm Ne.symm)

/-- **C141 (refuted for repeated labels).** `ii,i->i` uses the first column of `A` instead of its diagonal, for all matrices. -/
theorem C141_not_repeated {n : Nat} {A B C : Strided K} {fA fB fC : List Nat → K} (z : Bool) (run : GpuRun K) (cp ab : K)
    (dA : A.dims = [n, n]) (dB : B.dims = [n]) (dC : C.dims = [n]) (lA : A.strides.length = 2) (lB : B.strides.length = 1)
    (hA : A.Represents fA) (hB : B.Represents fB) (hC : C.Represents fC) (w : C.WF)
    (hr : GenericRun cp ['i', 'i'] ['i'] ['i'] A B C run) :
    ∃ C', pyGpuEinsum z run cp ['i'] C ab ['i', 'i'] A ['i'] B = .ok C' ∧ C.Frame C' ∧
      ∀ x, x < n → C'.read [(x : Int)] = .ok (cp * fC [x] + ab * (fA [x, 0] * fB [x])) := by
  obtain ⟨C', e, fr, h⟩ := C141_first_only (δ := fun _ => n) (ls := []) (plan := .generic) z run cp ab (by decide) (.inl rfl) dA dB dC
    (by rw [lA, dA]; rfl) (by rw [lB, dB]; rfl) hA hB hC w (by simp) (by simp) (by simp)
    ⟨by simp, fun l => by simp⟩ hr
  refine ⟨C', e, fr, fun x hx => ?_⟩
  exact h (fun _ => x) (fun _ _ => hx)

end

/-- The blocks of `ik,ik->i` for one value of `i` and two of `k`. -/
theorem onePyBlocks : einBlocksOf (0 : Int) (numel oneSum.dims)
      (einsumCount (pyGpuDims (pyBase [0, 1] [0, 1] [0]) oneRow.dims oneRow.dims)) =
    [[[(0, EinOp.store)]], [[(0, .add)]]] :: [[[]], [[(1, .add)]]] :: List.replicate 30 [[[]], [[]]] := by decide +kernel

/-- **C141 (refuted in general).** Worker 1, a thread of another block, adds its product before worker 0 clears the element: the barrier
does not concern it.  The result of `ik,ik->i` is 1 instead of 2. -/
theorem C141_not_ordered (r : Nat → Int) : ∃ sched,
    GridRun (einBlocksOf (0 : Int) (numel oneSum.dims)
      (einsumCount (pyGpuDims (pyBase [0, 1] [0, 1] [0]) oneRow.dims oneRow.dims))) sched ∧
    pyGpuEinsum false ⟨sched, [], [], r⟩ 0 [0] oneSum 1 [0, 1] oneRow [0, 1] oneRow = .ok { oneSum with data := [1] } := by
  refine ⟨[(1, .add), (0, .store), (0, .add)], ?_, ?_⟩
  · rw [onePyBlocks]
    refine ⟨[(0, .store), (0, .add)] :: [(1, .add)] :: List.replicate 30 [], ?_, ?_⟩
    · have one : ∀ t : List (Nat × EinOp), Schedule [t] t := fun t => by simpa using Schedule.sequential [t]
      have two : ∀ s t : List (Nat × EinOp), BlockRun [[s], [t]] (s ++ (t ++ [])) := fun s t =>
        .phase (one s) (.phase (one t) .done)
      refine .cons (two [(0, .store)] [(0, .add)]) (.cons (two [] [(1, .add)]) ?_)
      generalize 30 = n
      induction n with
      | zero => exact .nil
      | succ n ih => exact .cons (two [] []) ih
    · refine .step (i := 1) (xs := []) rfl (.step (i := 0) (xs := [(0, .add)]) rfl (.step (i := 0) (xs := []) rfl (.done ?_)))
      intro t ht
      simp only [List.set_cons_succ, List.set_cons_zero, List.mem_cons, List.mem_replicate] at ht
      rcases ht with h | h | h
      · exact h
      · exact h
      · exact h.2
  · rfl

theorem oneSum_represents : oneSum.Represents fun _ => 7 :=
  (represents_iff (t := oneSum) (show oneSum.IsTensor from ⟨rfl, rfl, rfl⟩).wf).2 fun i hi => by
    have : ∀ i ∈ box oneSum.dims, oneSum.data[oneSum.off + dot i oneSum.strides]? = some 7 := by decide
    exact this i (mem_box.2 hi)

theorem oneRow_represents : oneRow.Represents fun _ => 1 :=
  (represents_iff (t := oneRow) (show oneRow.IsTensor from ⟨rfl, rfl, rfl⟩).wf).2 fun i hi => by
    have : ∀ i ∈ box oneRow.dims, oneRow.data[oneRow.off + dot i oneRow.strides]? = some 1 := by decide
    exact this i (mem_box.2 hi)

/-- The same operands when the element is cleared first: 2. -/
example : ∃ run C', pyGpuEinsum false run 0 [0] oneSum 1 [0, 1] oneRow [0, 1] oneRow = .ok C' ∧ C'.read [0] = .ok 2 := by
  obtain ⟨run, hr⟩ := C141_runs_exist (0 : Int) [0, 1] [0, 1] [0] oneRow oneRow oneSum
  obtain ⟨C', e, _, h⟩ := C141_generic_partial (δ := fun l : Nat => if l = 0 then 1 else 2) (ls := [1]) false run (0 : Int) 1
    (show compilePlan [0] [0, 1] [0, 1] = .ok .generic by decide) (.inl rfl) rfl rfl rfl rfl rfl oneRow_represents oneRow_represents
    oneSum_represents (show oneSum.IsTensor from ⟨rfl, rfl, rfl⟩).wf (by simp) (by simp) (by simp) (by simp) (by simp)
    (by unfold Summed; refine ⟨by decide, ?_⟩; intro l; simp; omega) hr
  refine ⟨run, C', e, ?_⟩
  have := h (fun _ => 0) (by intro l hl; simp at hl; subst hl; decide)
  simpa [contraction, sumOver, toIdx] using this

/-- `i,i->ij`: the label `j` only occurs in `C`, which keeps its value 7 (times `cp`) instead of `7 + 1`. -/
example : ∃ run C', pyGpuEinsum false run (1 : Int) ['i', 'j'] ⟨[7], 0, [1, 1], [1, 1]⟩ 1 ['i'] ⟨[1], 0, [1], [1]⟩ ['i']
    ⟨[1], 0, [1], [1]⟩ = .ok C' ∧ C'.read [0, 0] = .ok 7 := by
  obtain ⟨run, hr⟩ := C141_runs_exist (1 : Int) ['i'] ['i'] ['i', 'j'] ⟨[1], 0, [1], [1]⟩ ⟨[1], 0, [1], [1]⟩ ⟨[7], 0, [1, 1], [1, 1]⟩
  have h1 : (⟨[1], 0, [1], [1]⟩ : Strided Int).Represents fun _ => 1 :=
    (represents_iff (t := ⟨[1], 0, [1], [1]⟩) (show (⟨[1], 0, [1], [1]⟩ : Strided Int).IsTensor from ⟨rfl, rfl, rfl⟩).wf).2
      fun i hi => by
        have : ∀ i ∈ box [1], ([1] : List Int)[0 + dot i [1]]? = some 1 := by decide
        exact this i (mem_box.2 hi)
  have h7 : (⟨[7], 0, [1, 1], [1, 1]⟩ : Strided Int).Represents fun _ => 7 :=
    (represents_iff (t := ⟨[7], 0, [1, 1], [1, 1]⟩) (show (⟨[7], 0, [1, 1], [1, 1]⟩ : Strided Int).IsTensor from
      ⟨rfl, rfl, rfl⟩).wf).2 fun i hi => by
        have : ∀ i ∈ box [1, 1], ([7] : List Int)[0 + dot i [1, 1]]? = some 7 := by decide
        exact this i (mem_box.2 hi)
  obtain ⟨C', e, _, h⟩ := C141_not_new_label (δ := fun _ : Char => 1) (l := 'j') (plan := .generic) false run (1 : Int) 1
    (by decide) (.inl rfl) rfl rfl rfl rfl rfl h1 h1 h7
    (show (⟨[7], 0, [1, 1], [1, 1]⟩ : Strided Int).IsTensor from ⟨rfl, rfl, rfl⟩).wf (by simp) (by decide) (by simp) (by simp) (by simp) hr
  exact ⟨run, C', e, h (fun _ => 0) fun _ _ => Nat.one_pos⟩

/-- The trace of a product of 1×1 matrices with `cp = 2` and `C = 100`: the old value is lost. -/
example : pyGpuEinsum false ⟨[], [], [(0, .zero), (0, .add)], fun _ => 0⟩ (2 : Int) [] ⟨[100], 0, [], []⟩ 1 ['i', 'j']
    ⟨[3], 0, [1, 1], [1, 1]⟩ ['j', 'i'] ⟨[4], 0, [1, 1], [1, 1]⟩ = .ok ⟨[12], 0, [], []⟩ := by decide +kernel
example : compilePlan ([] : List Char) ['i', 'j'] ['j', 'i'] = .ok .generic := by decide
/-- An execution of a kernel with a scalar result in which the clearing comes first. -/
example : ∃ sched, GridRun (zeroBlocks 1) sched ∧ sched.head? = some (0, .zero) := by
  have hb : zeroBlocks 1 = (List.range 32).map fun w => [[if w = 0 then [(0, .zero)] else []], [[(w, AtomicOp.add)]]] := by
    decide +kernel
  rw [hb]
  refine ⟨_, ⟨(List.range 32).map fun w => (if w = 0 then [(0, .zero)] else []) ++ ([(w, AtomicOp.add)] ++ []), ?_,
    Schedule.sequential _⟩, rfl⟩
  rw [List.forall₂_map_left_iff, List.forall₂_map_right_iff, List.forall₂_same]
  intro w _
  have one : ∀ t : List (Nat × AtomicOp), Schedule [t] t := fun t => by simpa using Schedule.sequential [t]
  exact .phase (one _) (.phase (one _) .done)

/-! ### C142: dot products and element-wise products -/

section
variable {K : Type} [CommSemiring K] [BEq K] [LawfulBEq K] {L : Type} [DecidableEq L]

/-- **C142 (dot product, partial).** With the same distinct labels, at least one, on `A` and `B` and none on `C`, whatever the strides:
`C = cp C + ab Σ A B`, if worker 0 clears the result before any worker adds to it.  Missing: the other executions
(`C142_dot_lost`), different shapes (`C142_not_checked`), no labels (`C142_dot_rank`). -/
theorem C142_dot_partial {δ : L → Nat} {Al : List L} {A B C : Strided K} {fA fB fC : List Nat → K} (z : Bool) (run : GpuRun K)
    (cp ab : K) (hn : Al.Nodup) (h0 : Al ≠ []) (dA : A.dims = Al.map δ) (dB : B.dims = Al.map δ) (dC : C.dims = [])
    (lA : A.strides.length = A.dims.length) (lB : B.strides.length = B.dims.length)
    (hA : A.Represents fA) (hB : B.Represents fB) (hC : C.Represents fC) (w : C.WF)
    (hr : GridRun (zeroBlocks (numel (Al.map δ))) run.atomic) (hz : run.atomic.head? = some (0, .zero)) (ρ : L → Nat) :
    ∃ C', pyGpuEinsum z run cp [] C ab Al A Al B = .ok C' ∧ C.Frame C' ∧
      C'.read [] = .ok (cp * fC [] + ab * contraction δ Al Al Al fA fB ρ) := by
  have hA0 : A.dims ≠ [] := by rw [dA]; simpa using h0
  have hd : B.dims = A.dims := by rw [dA, dB]
  rw [← dA] at hr
  have hx := zero_ordered (fun w hw => pyDotValue_eq lA lB hA0 hd hA hB (w := w) hw) 0 hr hz
  rw [sum_workers (launchSwapped_pos _)] at hx
  obtain ⟨C', h1, fr, h2⟩ := pyGpuDot_of cp ab hA0 hd dC w hC hx
  refine ⟨C', ?_, fr, ?_⟩
  · unfold pyGpuEinsum
    rw [plan_dot hn]
    exact h1
  · have := h2 [] (by rw [fr.dims, dC]; trivial)
    simp only [toIdx, List.map_nil] at this
    rw [this]
    congr 3
    unfold contraction
    rw [sumOver_eq δ Al hn, ← dA, ← map_unflat_range, List.map_map]
    congr 1
    apply List.map_congr_left
    intro s hs
    have hs' : s < numel A.dims := List.mem_range.1 hs
    have hl : (unflat A.dims s).length = Al.length := by
      have := (unflat_inBox hs').length
      rw [this, dA, List.length_map]
    simp only [Function.comp_apply]
    rw [map_bindEnv_self hn hl]

/-- **C142 (dot product, refuted).** For all operands with fewer than 32 elements and every element but the first there is an execution in
which the product of that element is lost: the thread that adds it is in another block than worker 0, which clears the result, and the
barrier does not order the two. -/
theorem C142_dot_lost {δ : L → Nat} {Al : List L} {A B C : Strided K} {fA fB fC : List Nat → K} (z : Bool)
    (cp ab : K) (hn : Al.Nodup) (h0 : Al ≠ []) (dA : A.dims = Al.map δ) (dB : B.dims = Al.map δ) (dC : C.dims = [])
    (lA : A.strides.length = A.dims.length) (lB : B.strides.length = B.dims.length)
    (hA : A.Represents fA) (hB : B.Represents fB) (hC : C.Represents fC) (w : C.WF) (hlt : numel A.dims < 32) (q : Nat) (hq0 : 0 < q)
    (hq : q < numel A.dims) :
    ∃ run C', GridRun (zeroBlocks (numel (Al.map δ))) run.atomic ∧ pyGpuEinsum z run cp [] C ab Al A Al B = .ok C' ∧ C.Frame C' ∧
      C'.read [] = .ok (cp * fC [] + ab * (((List.range (numel A.dims)).filter fun s => decide (s ≠ q)).map fun s =>
        fA (unflat A.dims s) * fB (unflat A.dims s)).sum) := by
  have hA0 : A.dims ≠ [] := by rw [dA]; simpa using h0
  have hd : B.dims = A.dims := by rw [dA, dB]
  rw [← dA]
  have hs := zeroBlocks_lost hlt hq0 (by omega)
  generalize hsd : ((q, AtomicOp.add) :: (0, .zero) :: ((List.range 32).filter fun x => decide (x ≠ q)).map fun x => (x, AtomicOp.add))
    = sched at hs
  have hv := fun w hw => pyDotValue_eq lA lB hA0 hd hA hB (w := w) hw
  rw [launchSwapped_small hlt] at hv
  generalize hvv : (fun s => fA (unflat A.dims s) * fB (unflat A.dims s)) = v at hv ⊢
  have hx : sched.foldlM (atomicStep (pyDotValue A B)) 0 =
      .ok (((List.range (numel A.dims)).filter fun s => decide (s ≠ q)).map v).sum := by
    rw [atomicRun (v := fun w => ((countersOf (numel A.dims) 32 w).map v).sum) _ (by
      intro a ha _
      refine hv _ ?_
      rw [← hsd] at ha
      simp only [List.mem_cons, List.mem_map, List.mem_filter, List.mem_range] at ha
      rcases ha with rfl | rfl | ⟨x, ⟨hx, _⟩, rfl⟩
      · simp only; omega
      · simp
      · exact hx), ← hsd, List.foldl_cons, List.foldl_cons]
    rw [foldl_adds (v := fun w => ((countersOf (numel A.dims) 32 w).map v).sum)
        (((List.range 32).filter fun x => decide (x ≠ q)).map fun x => (x, AtomicOp.add)) (by
        intro a ha
        obtain ⟨x, _, rfl⟩ := List.mem_map.1 ha
        rfl), zero_add, List.map_map]
    congr 1
    generalize numel A.dims = n at *
    have e : List.range 32 = List.range n ++ (List.range (32 - n)).map (n + ·) := by
      rw [← List.range_add]; congr 1; omega
    rw [e, List.filter_append, List.map_append, List.sum_append]
    have z2 : ((((List.range (32 - n)).map (n + ·)).filter fun x => decide (x ≠ q)).map
        ((fun a : Nat × AtomicOp => ((countersOf n 32 a.1).map v).sum) ∘ fun x => (x, AtomicOp.add))).sum = 0 := by
      apply List.sum_eq_zero
      intro y hy
      obtain ⟨x, hx, rfl⟩ := List.mem_map.1 hy
      obtain ⟨k, hk, rfl⟩ := List.mem_map.1 (List.mem_filter.1 hx).1
      have := List.mem_range.1 hk
      simp only [Function.comp_apply]
      rw [counters_none hlt (by omega) (by omega)]
      rfl
    rw [z2, add_zero]
    congr 1
    apply List.map_congr_left
    intro x hx
    have := List.mem_range.1 (List.mem_filter.1 hx).1
    simp only [Function.comp_apply]
    rw [counters_small hlt this]
    simp
  obtain ⟨C', h1, fr, h2⟩ := pyGpuDot_of (run := ⟨[], [], sched, fun _ => 0⟩) cp ab hA0 hd dC w hC hx
  refine ⟨⟨[], [], sched, fun _ => 0⟩, C', hs, ?_, fr, ?_⟩
  · unfold pyGpuEinsum
    rw [plan_dot hn]
    exact h1
  · have := h2 [] (by rw [fr.dims, dC]; trivial)
    simpa only [toIdx, List.map_nil] using this

omit [LawfulBEq K] in
/-- **C142 (dot product, refuted for different shapes).** The dimensions are not compared: with an element of `A` whose place in `B` lies
outside its memory, every execution reads outside the memory of `B`. -/
theorem C142_not_checked {Al : List L} {A B C : Strided K} (z : Bool) (run : GpuRun K) (cp ab : K) (hn : Al.Nodup) (wA : A.WF)
    (hd0 : A.dims ≠ []) (hl : B.dims.length = A.dims.length) (lB : B.strides.length = A.dims.length) (hC : C.off < C.data.length)
    (i : List Nat) (hi : InBox i A.dims) (hb : B.data.length ≤ B.off + dot i B.strides)
    (hr : GridRun (zeroBlocks (numel A.dims)) run.atomic) : (pyGpuEinsum z run cp [] C ab Al A Al B).isUb = true := by
  have hsz := launchSwapped_pos (numel A.dims)
  have hterm' : ∀ i, (dotTerm A B i).isError = false := fun i => by
    unfold dotTerm
    exact bind_noError (divAddr_noError _ _ _) fun _ => bind_noError (divAddr_noError _ _ _) fun _ =>
      bind_noError (memGet_noError _ _) fun _ => bind_noError (memGet_noError _ _) fun _ => rfl
  have hne : ∀ w, (pyDotValue A B w).isError = false := fun w => sumLoop_noError hterm' _ _
  have hterm : (dotTerm A B (rowMajor i A.dims)).isUb = true := by
    have hq := rowMajor_lt hi
    unfold dotTerm
    rw [divAddr_eq wA.len hq, divAddr_eq lB hq, unflat_rowMajor hi]
    simp only [Outcome.ok_bind]
    have hlt := wA.bound i hi
    simp only [memGet, List.getElem?_eq_getElem hlt, List.getElem?_eq_none hb, Outcome.ok_bind]
    rfl
  have hw : rowMajor i A.dims % (launchSwapped (numel A.dims)).size < (launchSwapped (numel A.dims)).size := Nat.mod_lt _ hsz
  have hub : (pyDotValue A B (rowMajor i A.dims % (launchSwapped (numel A.dims)).size)).isUb = true := by
    unfold pyDotValue
    rw [show dotCount A.dims = numel A.dims from head_mul_stride hd0]
    exact sumLoop_ub hterm' hterm ((mem_countersOf hw).2 ⟨rowMajor_lt hi, rfl⟩) _
  have hrun : (run.atomic.foldlM (atomicStep (pyDotValue A B)) 0).isUb = true := by
    refine foldlM_ub (bad := (rowMajor i A.dims % (launchSwapped (numel A.dims)).size, .add)) ?_ ?_ _ _ ?_
    · intro s a
      unfold atomicStep
      split
      · rfl
      · exact bind_noError (hne _) fun _ => rfl
    · intro s
      unfold atomicStep
      simp only
      revert hub
      cases pyDotValue A B (rowMajor i A.dims % (launchSwapped (numel A.dims)).size) <;> simp [Outcome.isUb]
    · rw [(zeroBlocks_perm hr).mem_iff]
      exact List.mem_cons_of_mem _ (List.mem_map.2 ⟨_, List.mem_range.2 hw, rfl⟩)
  unfold pyGpuEinsum
  rw [plan_dot hn]
  simp only [Outcome.ok_bind, pyGpuExecute, pyGpuDot]
  rw [if_neg (by simp [hl]), if_neg (by simpa using hd0)]
  unfold memUpd
  rw [List.getElem?_eq_getElem hC]
  revert hrun
  cases run.atomic.foldlM (atomicStep (pyDotValue A B)) 0 <;> simp [Outcome.isUb]

omit [LawfulBEq K] in
/-- C142: dot products of operands with different numbers of dimensions are rejected before anything is written; the number of labels is not
looked at.  Without dimensions the plan reads the first element of an empty vector. -/
theorem C142_dot_rank {Al : List L} {A B C : Strided K} (z : Bool) (run : GpuRun K) (cp ab : K) (hn : Al.Nodup) :
    (A.dims.length ≠ B.dims.length →
      pyGpuEinsum z run cp [] C ab Al A Al B = .error "Tensor ranks do not match the indices!") ∧
    (A.dims = [] → B.dims = [] →
      pyGpuEinsum z run cp [] C ab Al A Al B = .ub "unique_strides[0] of an empty vector") := by
  have e : pyGpuEinsum z run cp [] C ab Al A Al B = pyGpuDot run cp C ab A B := by
    unfold pyGpuEinsum
    rw [plan_dot hn]
    rfl
  rw [e]
  unfold pyGpuDot
  refine ⟨fun h => by rw [if_pos h], fun h1 h2 => by simp [h1, h2]⟩

/-- **C142 (element-wise product).** With the same distinct labels, at least one, on all three tensors every element of `C` becomes
`cp C + ab A B` and nothing else is touched, whatever the strides and in whatever order the workers run. -/
theorem C142_direct {δ : L → Nat} {Al : List L} {A B C : Strided K} {fA fB fC : List Nat → K} (z : Bool) (run : GpuRun K)
    (cp ab : K) (hn : Al.Nodup) (h0 : Al ≠ []) (dA : A.dims = Al.map δ) (dB : B.dims = Al.map δ) (dC : C.dims = Al.map δ)
    (lA : A.strides.length = A.dims.length) (lB : B.strides.length = B.dims.length)
    (hA : A.Represents fA) (hB : B.Represents fB) (hC : C.Represents fC) (w : C.WF)
    (hr : Schedule (directThreadsOf cp (numel (Al.map δ))) run.rmw) :
    ∃ C', pyGpuEinsum z run cp Al C ab Al A Al B = .ok C' ∧ C.Frame C' ∧
      ∀ ρ, InRange δ Al ρ → C'.read (toIdx (Al.map ρ)) = .ok (cp * fC (Al.map ρ) + ab * (fA (Al.map ρ) * fB (Al.map ρ))) := by
  have addr : ∀ (X : Strided K), X.strides.length = Al.length → ∀ c, c < numel (Al.map δ) →
      pyDirectAddr A.dims X c = .ok (X.off + dot (Al.map (iterEnv Al δ c)) X.strides) := by
    intro X hX c hc
    unfold pyDirectAddr
    rw [dA, divAddr_eq (by rw [hX, List.length_map]) hc, map_iterEnv hn hc]
    rfl
  have get : ∀ (X : Strided K) (f : List Nat → K), X.dims = Al.map δ → X.Represents f → ∀ c, c < numel (Al.map δ) →
      memGet X.data (X.off + dot (Al.map (iterEnv Al δ c)) X.strides) = .ok (f (Al.map (iterEnv Al δ c))) := by
    intro X f hX hf c hc
    unfold memGet
    rw [represents_get hf (by rw [hX]; exact operand_inBox (fun _ h => h) hc)]
  obtain ⟨C', f', e, fr, rp, h⟩ := direct_general (pos := pyDirectAddr A.dims C) (term := pyDirectTerm ab A B) cp ab hn
    (fun _ h => h) (fun _ h => h) (fun _ h => h) (fun _ h => h) hn dC hC w
    (addr C (by rw [w.len, dC, List.length_map])) (fun c hc => by
      unfold pyDirectTerm
      rw [addr A (by rw [lA, dA, List.length_map]) c hc, addr B (by rw [lB, dB, List.length_map]) c hc]
      simp only [Outcome.ok_bind, get A fA dA hA c hc, get B fB dB hB c hc]
      rfl) run.reg hr
  refine ⟨C', ?_, fr, fun ρ hρ => ?_⟩
  · unfold pyGpuEinsum
    rw [plan_direct hn h0]
    simp only [Outcome.ok_bind, pyGpuExecute, pyGpuDirect]
    rw [if_neg (by rw [pyBase_numInds_self hn]; simp [dA, dB, dC])]
    exact e
  · rw [rp _ (by rw [fr.dims, dC]; exact inBox_map hρ), h ρ hρ]

omit [LawfulBEq K] in
/-- C142: element-wise products of operands whose number of dimensions differs from the number of labels are rejected before anything is
written. -/
theorem C142_direct_rank {Al : List L} {A B C : Strided K} (z : Bool) (run : GpuRun K) (cp ab : K) (hn : Al.Nodup) (h0 : Al ≠ [])
    (h : A.dims.length ≠ Al.length ∨ B.dims.length ≠ Al.length ∨ C.dims.length ≠ Al.length) :
    pyGpuEinsum z run cp Al C ab Al A Al B = .error "Tensor ranks do not match the indices!" := by
  unfold pyGpuEinsum
  rw [plan_direct hn h0]
  simp only [Outcome.ok_bind, pyGpuExecute, pyGpuDirect]
  rw [if_pos]
  rw [pyBase_numInds_self hn]
  omega

end

/-- The executions of `C142_dot_partial` exist for every number of elements: worker after worker. -/
theorem C142_runs_exist (n : Nat) : ∃ sched, GridRun (zeroBlocks n) sched ∧ sched.head? = some (0, .zero) := by
  let l := launchSwapped n
  let p1 : Dim3 → List (Nat × AtomicOp) := fun b =>
    (l.block.coords.map fun t => if l.worker b t = 0 then [(0, .zero)] else []).flatten
  let p2 : Dim3 → List (Nat × AtomicOp) := fun b => (l.block.coords.map fun t => [(l.worker b t, .add)]).flatten
  refine ⟨l.grid.coords.flatMap p1 ++ (l.grid.coords.map p2).flatten, ⟨l.grid.coords.map fun b => p1 b ++ p2 b, ?_, ?_⟩, ?_⟩
  · unfold zeroBlocks
    rw [List.forall₂_map_left_iff, List.forall₂_map_right_iff, List.forall₂_same]
    intro b _
    have h : BlockRun [l.block.coords.map fun t => if l.worker b t = 0 then [(0, AtomicOp.zero)] else [],
       l.block.coords.map fun t => [(l.worker b t, .add)]] (p1 b ++ (p2 b ++ [])) :=
      .phase (Schedule.sequential _) (.phase (Schedule.sequential _) .done)
    rw [List.append_nil] at h
    exact h
  · exact schedule_phase p1 p2 l.grid.coords [] (Schedule.sequential _)
  · have e : l.grid.coords.flatMap p1 = [(0, .zero)] := by
      have t1 := threads_eq l (fun w _ => if w = 0 then [(0, AtomicOp.zero)] else [])
      unfold Launch.threads at t1
      have : l.grid.coords.flatMap p1 = ((List.range l.size).map fun w => if w = 0 then [(0, AtomicOp.zero)] else []).flatten := by
        rw [← t1]
        induction l.grid.coords with
        | nil => rfl
        | cons x xs ih => rw [List.flatMap_cons, List.flatMap_cons, List.flatten_append, ih]
      rw [this]
      obtain ⟨m, hm⟩ : ∃ m, l.size = m + 1 := ⟨l.size - 1, by have : 0 < l.size := launchSwapped_pos n; omega⟩
      rw [hm, List.range_succ_eq_map]
      simp
    rw [e]
    rfl

theorem twoOnes_represents : (⟨[1, 1], 0, [2], [1]⟩ : Strided Int).Represents fun _ => 1 :=
  (represents_iff (t := ⟨[1, 1], 0, [2], [1]⟩) (show (⟨[1, 1], 0, [2], [1]⟩ : Strided Int).IsTensor from ⟨rfl, rfl, rfl⟩).wf).2
    fun i hi => by
      have : ∀ i ∈ box [2], ([1, 1] : List Int)[0 + dot i [1]]? = some 1 := by decide
      exact this i (mem_box.2 hi)

theorem scalar_represents (c : Int) : (⟨[c], 0, [], []⟩ : Strided Int).Represents fun _ => c :=
  (represents_iff (t := ⟨[c], 0, [], []⟩) (show (⟨[c], 0, [], []⟩ : Strided Int).IsTensor from ⟨rfl, rfl, rfl⟩).wf).2
    fun i hi => by
      cases i with
      | nil => rfl
      | cons => exact hi.elim

/-- The dot product of two rows of two ones with `cp = 3` and `C = 7`: 23, or 22 when a product is lost. -/
example : (∃ run C', pyGpuEinsum false run (3 : Int) [] ⟨[7], 0, [], []⟩ 1 ['i'] ⟨[1, 1], 0, [2], [1]⟩ ['i'] ⟨[1, 1], 0, [2], [1]⟩
      = .ok C' ∧ C'.read [] = .ok 23) ∧
    ∃ run C', GridRun (zeroBlocks 2) run.atomic ∧ pyGpuEinsum false run (3 : Int) [] ⟨[7], 0, [], []⟩ 1 ['i'] ⟨[1, 1], 0, [2], [1]⟩ ['i']
      ⟨[1, 1], 0, [2], [1]⟩ = .ok C' ∧ C'.read [] = .ok 22 := by
  constructor
  · obtain ⟨sched, h1, h2⟩ := C142_runs_exist 2
    obtain ⟨C', e, _, h⟩ := C142_dot_partial (δ := fun _ : Char => 2) (Al := ['i']) false ⟨[], [], sched, fun _ => (0 : Int)⟩ 3 1 (by simp)
      (by simp) rfl rfl rfl rfl rfl twoOnes_represents twoOnes_represents (scalar_represents 7)
      (show (⟨[7], 0, [], []⟩ : Strided Int).IsTensor from ⟨rfl, rfl, rfl⟩).wf h1 h2 (fun _ => 0)
    exact ⟨_, C', e, h⟩
  · obtain ⟨run, C', h1, e, _, h⟩ := C142_dot_lost (δ := fun _ : Char => 2) (Al := ['i']) false (3 : Int) 1 (by simp)
      (by simp) rfl rfl rfl rfl rfl twoOnes_represents twoOnes_represents (scalar_represents 7)
      (show (⟨[7], 0, [], []⟩ : Strided Int).IsTensor from ⟨rfl, rfl, rfl⟩).wf (by decide) 1 (by decide) (by decide)
    exact ⟨run, C', h1, e, h⟩

/-- An element-wise product. -/
example : ∃ run C', pyGpuEinsum false run (3 : Int) ['i'] ⟨[1, 1], 0, [2], [1]⟩ 5 ['i'] ⟨[1, 1], 0, [2], [1]⟩ ['i']
    ⟨[1, 1], 0, [2], [1]⟩ = .ok C' ∧ C'.read [1] = .ok 8 := by
  obtain ⟨C', e, _, h⟩ := C142_direct (δ := fun _ : Char => 2) (Al := ['i']) false ⟨[], _, [], fun _ => (0 : Int)⟩ 3 5 (by simp)
    (by simp) rfl rfl rfl rfl rfl twoOnes_represents twoOnes_represents twoOnes_represents
    (show (⟨[1, 1], 0, [2], [1]⟩ : Strided Int).IsTensor from ⟨rfl, rfl, rfl⟩).wf (Schedule.sequential _)
  exact ⟨_, C', e, h (fun _ => 1) (fun _ _ => Nat.one_lt_two)⟩

/-- A vector of two against a vector of one. -/
example : InBox [1] (⟨[1, 2], 0, [2], [1]⟩ : Strided Int).dims ∧
    (⟨[1], 0, [1], [1]⟩ : Strided Int).data.length ≤ 0 + dot [1] [1] := by decide

end Einsums.Props
