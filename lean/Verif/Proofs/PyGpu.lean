import Verif.Model.PyGpu
import Verif.Props.GpuContract
import Verif.Proofs.PyGeneric
import Verif.Proofs.PyLabels
import Verif.Spec.PyGpu
/-
Lemmas about the einsum plans of the Python interface on device memory.
-/
namespace Einsums.Model
open Spec

section
variable {L : Type} [DecidableEq L]

theorem keepFirst_nodup {Xl : List L} (h : Xl.Nodup) (i : List Nat) (hl : i.length = Xl.length) : keepFirst Xl i = i := by
  induction Xl generalizing i with
  | nil => rfl
  | cons l Xl ih =>
    cases i with
    | nil => simp at hl
    | cons x i =>
      obtain ⟨hl1, hl2⟩ := List.nodup_cons.1 h
      simp only [keepFirst]
      congr 1
      have : List.zipWith (fun m y => if m = l then 0 else y) Xl i = i := by
        have hlen : i.length = Xl.length := by simpa using hl
        clear ih h hl
        induction Xl generalizing i with
        | nil => cases i with
          | nil => rfl
          | cons => simp at hlen
        | cons m Xl ih => cases i with
          | nil => simp at hlen
          | cons y i =>
            rw [List.zipWith_cons_cons, if_neg (by rintro rfl; exact hl1 (by simp)), ih i
              (fun h => hl1 (by simp [h])) (List.nodup_cons.1 hl2).2 (by simpa using hlen)]
      rw [this, ih hl2 i (by simpa using hl)]

theorem zipWith_map_zero (l : L) (Xl : List L) (σ : L → Nat) :
    List.zipWith (fun m y => if m = l then 0 else y) Xl (Xl.map σ) = Xl.map fun m => if m = l then 0 else σ m := by
  induction Xl with
  | nil => rfl
  | cons m Xl ih => simp only [List.map_cons, List.zipWith_cons_cons, ih]

theorem keepFirst_cons (l : L) (Xl : List L) (σ : L → Nat) :
    keepFirst (l :: Xl) ((l :: Xl).map σ) = σ l :: keepFirst Xl (Xl.map fun m => if m = l then 0 else σ m) := by
  simp only [List.map_cons, keepFirst, zipWith_map_zero]

theorem keepFirst_inBox {δ : L → Nat} (Xl : List L) (σ : L → Nat) (h : ∀ l ∈ Xl, σ l < δ l) :
    InBox (keepFirst Xl (Xl.map σ)) (Xl.map δ) := by
  induction Xl generalizing σ with
  | nil => trivial
  | cons l Xl ih =>
    rw [keepFirst_cons]
    refine ⟨h l (by simp), ih _ ?_⟩
    intro m hm
    have := h m (by simp [hm])
    split <;> omega

omit [DecidableEq L] in
theorem dot_map (U : List L) (σ g : L → Nat) : dot (U.map σ) (U.map g) = (U.map fun m => σ m * g m).sum := by
  induction U with
  | nil => rfl
  | cons m U ih => simp only [List.map_cons, dot_cons, List.sum_cons, ih]

theorem sum_split {U : List L} (hU : U.Nodup) {l : L} (hl : l ∈ U) (σ g : L → Nat) (s : Nat) :
    (U.map fun m => σ m * (if m = l then s else g m)).sum =
      σ l * s + (U.map fun m => (if m = l then 0 else σ m) * g m).sum := by
  induction U with
  | nil => simp at hl
  | cons x U ih =>
    obtain ⟨hx, hU'⟩ := List.nodup_cons.1 hU
    simp only [List.map_cons, List.sum_cons]
    by_cases e : x = l
    · subst e
      rw [if_pos rfl, if_pos rfl, Nat.zero_mul, Nat.zero_add]
      congr 2
      apply List.map_congr_left
      intro m hm
      have : m ≠ x := by rintro rfl; exact hx hm
      rw [if_neg this, if_neg this]
    · rw [if_neg e, if_neg e, ih hU' (by rcases List.mem_cons.1 hl with h | h; exact (e h.symm).elim; exact h)]
      omega

/-- The strides of the unique labels. -/
theorem firstStride_dot {U : List L} (hU : U.Nodup) (Xl : List L) (h : ∀ l ∈ Xl, l ∈ U) (strides : List Nat)
    (hl : strides.length = Xl.length) (σ : L → Nat) :
    dot (U.map σ) (U.map fun m => firstStride (Xl.map fun l => U.idxOf l) strides (U.idxOf m)) =
      dot (keepFirst Xl (Xl.map σ)) strides := by
  induction Xl generalizing strides σ with
  | nil =>
    have : (fun m => firstStride (([] : List L).map fun l => U.idxOf l) strides (U.idxOf m)) = fun _ => 0 := by
      funext m; simp [firstStride]
    rw [this, dot_map]
    simp [keepFirst]
  | cons l Xl ih =>
    cases strides with
    | nil => simp at hl
    | cons s strides =>
      rw [keepFirst_cons, dot_cons, ← ih (fun m hm => h m (by simp [hm])) strides (by simpa using hl), dot_map, dot_map,
        ← sum_split hU (h l (by simp))]
      congr 1
      apply List.map_congr_left
      intro m hm
      simp only [List.map_cons, firstStride]
      congr 1
      by_cases e : m = l
      · subst e; simp
      · rw [if_neg e, if_neg (fun h' => e ((List.idxOf_inj (h l (by simp))).1 h').symm)]

theorem pyUniqueStrides_eq {U : List L} (hU : U.Nodup) (perm strides : List Nat) :
    pyUniqueStrides U.length perm strides = U.map fun m => firstStride perm strides (U.idxOf m) := by
  unfold pyUniqueStrides
  apply List.ext_getElem
  · simp
  · intro i h1 h2
    simp only [List.length_map, List.length_range] at h1
    simp only [List.getElem_map, List.getElem_range]
    rw [hU.idxOf_getElem]

variable {K : Type}

theorem pyGpuAddr_eq {U : List L} (hU : U.Nodup) {δ : L → Nat} {Xl : List L} (h : ∀ l ∈ Xl, l ∈ U) (X : Strided K)
    (hl : X.strides.length = Xl.length) {s : Nat} (hs : s < numel (U.map δ)) :
    pyGpuAddr (U.map δ) (Xl.map fun l => U.idxOf l) X s =
      .ok (X.off + dot (keepFirst Xl (Xl.map (iterEnv U δ s))) X.strides) := by
  unfold pyGpuAddr
  rw [divAddr_eq (by simp [pyUniqueStrides]) hs, List.length_map, pyUniqueStrides_eq hU]
  simp only [Outcome.ok_bind]
  rw [← firstStride_dot hU Xl h X.strides hl]
  have : U.map (iterEnv U δ s) = unflat (U.map δ) s := by
    have hlen : (unflat (U.map δ) s).length = U.length := by
      have := (InBox_iff_getElem.1 (unflat_inBox hs)).1
      simpa using this
    apply List.ext_getElem
    · simp [hlen]
    · intro i h1 h2
      have hi : i < U.length := by simpa using h1
      rw [List.getElem_map]
      unfold iterEnv
      rw [← bindEnv_getD (List.getElem_mem hi) hlen, hU.idxOf_getElem, List.getD_eq_getElem?_getD, List.getElem?_eq_getElem h2]
      rfl
  rw [this]
  rfl

omit K in
theorem pyGpuDims_eq (δ : L → Nat) (Al Bl Cl : List L) :
    pyGpuDims (pyBase Al Bl Cl) (Al.map δ) (Bl.map δ) =
      (pyLabels Al Bl Cl).map fun l => if l ∈ Al ∨ l ∈ Bl then δ l else 0 := by
  have hU : (pyLabels Al Bl Cl).Nodup := nodup_unique _
  rw [pyBase_eq]
  unfold pyGpuDims
  simp only
  have e0 : List.replicate (pyLabels Al Bl Cl).length 0 = (pyLabels Al Bl Cl).map fun _ => 0 := by simp
  rw [e0, pyDimLoop_eq hU δ Al (fun l hl => mem_pyLabels.2 (.inl hl)), pyDimLoop_eq hU δ Bl (fun l hl => mem_pyLabels.2 (.inr (.inl hl)))]
  apply List.map_congr_left
  intro l _
  by_cases h1 : l ∈ Al <;> by_cases h2 : l ∈ Bl <;> simp [h1, h2]

theorem pyGpu_get {U Xl : List L} {δ : L → Nat} (h : ∀ l ∈ Xl, l ∈ U) {X : Strided K} (hd : X.dims = Xl.map δ) {f : List Nat → K}
    (hf : X.Represents f) {s : Nat} (hs : s < numel (U.map δ)) :
    memGet X.data (X.off + dot (keepFirst Xl (Xl.map (iterEnv U δ s))) X.strides) =
      .ok (f (keepFirst Xl (Xl.map (iterEnv U δ s)))) := by
  unfold memGet
  rw [represents_get hf (by rw [hd]; exact keepFirst_inBox Xl _ fun l hl => iterEnv_lt hs (h l hl))]

theorem pyLabels_ne_nil {Al Bl Cl : List L} (h : Cl ≠ [] ∨ Al ≠ [] ∨ Bl ≠ []) : pyLabels Al Bl Cl ≠ [] := by
  intro e
  have := (labels_perm Cl Al Bl).symm
  rw [e] at this
  exact labels_ne_nil h (fun _ => 0) (by rw [this.nil_eq.symm]; rfl)

section
variable [CommSemiring K]

theorem pyGpuTerm_eq {Al Bl Cl : List L} {δ : L → Nat} {A B : Strided K} (dA : A.dims = Al.map δ) (dB : B.dims = Bl.map δ)
    (lA : A.strides.length = A.dims.length) (lB : B.strides.length = B.dims.length) {fA fB : List Nat → K} (hA : A.Represents fA)
    (hB : B.Represents fB) (ab : K) {s : Nat} (hs : s < numel ((pyLabels Al Bl Cl).map δ)) :
    pyGpuTerm (pyBase Al Bl Cl) ((pyLabels Al Bl Cl).map δ) ab A B s =
      .ok (ab * fA (keepFirst Al (Al.map (iterEnv (pyLabels Al Bl Cl) δ s))) *
        fB (keepFirst Bl (Bl.map (iterEnv (pyLabels Al Bl Cl) δ s)))) := by
  have hU : (pyLabels Al Bl Cl).Nodup := nodup_unique _
  have mA : ∀ l ∈ Al, l ∈ pyLabels Al Bl Cl := fun l hl => mem_pyLabels.2 (.inl hl)
  have mB : ∀ l ∈ Bl, l ∈ pyLabels Al Bl Cl := fun l hl => mem_pyLabels.2 (.inr (.inl hl))
  unfold pyGpuTerm
  rw [pyBase_eq]
  simp only
  rw [pyGpuAddr_eq hU mA A (by rw [lA, dA, List.length_map]) hs, pyGpuAddr_eq hU mB B (by rw [lB, dB, List.length_map]) hs]
  simp only [Outcome.ok_bind, pyGpu_get mA dA hA hs, pyGpu_get mB dB hB hs]
  rfl

variable [BEq K]

/-- The kernel for contractions. -/
theorem pyGpuEin_sem [LawfulBEq K] {Al Bl Cl : List L} {δ : L → Nat} {A B C : Strided K} (dA : A.dims = Al.map δ)
    (dB : B.dims = Bl.map δ) (lA : A.strides.length = A.dims.length) (lB : B.strides.length = B.dims.length)
    (lC : C.dims.length = Cl.length)
    {fA fB fC : List Nat → K} (hA : A.Represents fA) (hB : B.Represents fB) (hC : C.Represents fC) (w : C.WF) (h0 : Cl ≠ [])
    (hbox : ∀ s, s < numel ((pyLabels Al Bl Cl).map δ) →
      InBox (keepFirst Cl (Cl.map (iterEnv (pyLabels Al Bl Cl) δ s))) C.dims)
    (hud : pyGpuDims (pyBase Al Bl Cl) A.dims B.dims = (pyLabels Al Bl Cl).map δ) (hd : pyDirectSwap (pyBase Al Bl Cl) = false)
    (cp ab : K) (run : GpuRun K)
    (hs : GridRun (einBlocksOf cp (numel C.dims) (einsumCount (pyGpuDims (pyBase Al Bl Cl) A.dims B.dims))) run.ein)
    (ho : run.ein.Pairwise fun a b => a.2 = .add → b.2 ≠ .add →
      pyGpuEinAddr (pyBase Al Bl Cl) (pyGpuDims (pyBase Al Bl Cl) A.dims B.dims) C a ≠
        pyGpuEinAddr (pyBase Al Bl Cl) (pyGpuDims (pyBase Al Bl Cl) A.dims B.dims) C b) :
    ∃ C' f', pyGpuGeneric (pyBase Al Bl Cl) run cp C ab A B = .ok C' ∧ C.Frame C' ∧ C'.Represents f' ∧
      ∀ i, InBox i C.dims → f' i = cp * fC i + ab * sumOver δ (pyLabels Al Bl Cl) (fun _ => 0)
        (fun σ => if keepFirst Cl (Cl.map σ) = i then fA (keepFirst Al (Al.map σ)) * fB (keepFirst Bl (Bl.map σ)) else 0) := by
  have hU : (pyLabels Al Bl Cl).Nodup := nodup_unique _
  have hU0 : (pyLabels Al Bl Cl).map δ ≠ [] := by simpa using pyLabels_ne_nil (Al := Al) (Bl := Bl) (.inl h0)
  have mC : ∀ l ∈ Cl, l ∈ pyLabels Al Bl Cl := fun l hl => mem_pyLabels.2 (.inr (.inr hl))
  rw [hud] at hs ho
  rw [einsumCount_eq hU0] at hs
  obtain ⟨st', f', e, fr, rp, h⟩ := contract_general (addr := pyGpuEinAddr (pyBase Al Bl Cl) ((pyLabels Al Bl Cl).map δ) C)
    (term := pyGpuTerm (pyBase Al Bl Cl) ((pyLabels Al Bl Cl).map δ) ab A B) hU (fun σ => keepFirst Cl (Cl.map σ))
    (fun σ => fA (keepFirst Al (Al.map σ)) * fB (keepFirst Bl (Bl.map σ))) cp ab hbox hC w (by
      intro a e hlt
      have : pyGpuEinAddr (pyBase Al Bl Cl) ((pyLabels Al Bl Cl).map δ) C a = (do
          let i ← divAddr (dimsToStrides C.dims).2 C.strides a.1
          return C.off + i) := by
        obtain ⟨s, op⟩ := a
        cases op with
        | add => simp at e
        | _ => rfl
      rw [this, divAddr_eq w.len hlt]
      rfl) (by
      intro s hlt
      unfold pyGpuEinAddr
      simp only
      rw [pyBase_eq]
      exact pyGpuAddr_eq hU mC C (by rw [w.len, lC]) hlt) (by
      intro s hlt
      rw [← mul_assoc]
      exact pyGpuTerm_eq dA dB lA lB hA hB ab hlt) run.reg hs ho
  refine ⟨_, f', ?_, fr, rp, h⟩
  unfold pyGpuGeneric
  rw [if_neg (by
    rw [pyBase_eq]
    simp [lC, dA, dB])]
  simp only
  rw [hud, if_neg (by simpa using hU0), if_neg (by rw [pyBase_eq]; simpa using h0), hd, if_neg (by simp), e]
  rfl

end

omit K in
theorem filter_all {s t : List L} (h : (s.filter fun x => decide (x ∈ t)).length = s.length) : ∀ l ∈ s, l ∈ t := by
  intro l hl
  have := List.length_filter_eq_length_iff.1 h l hl
  simpa using this

omit K in
theorem pyDirectSwap_labels {Al Bl Cl : List L} (hn : Cl.Nodup) (h : pyDirectSwap (pyBase Al Bl Cl) = true) :
    (∀ l ∈ Al, l ∈ Cl) ∧ ∀ l ∈ Bl, l ∈ Cl := by
  have mC : ∀ l ∈ Cl, l ∈ pyLabels Al Bl Cl := fun l hl => mem_pyLabels.2 (.inr (.inr hl))
  rw [pyBase_eq] at h
  unfold pyDirectSwap at h
  simp only [Bool.and_eq_true, decide_eq_true_eq] at h
  obtain ⟨⟨⟨⟨h1, h2⟩, h3⟩, h4⟩, h5⟩ := h
  have hCn : (Cl.map fun l => (pyLabels Al Bl Cl).idxOf l).Nodup := by
    refine List.Nodup.map_on ?_ hn
    intro x hx y _ e
    exact (List.idxOf_inj (mC x hx)).1 e
  rw [pyIntersect_eq hCn] at h4 h5
  have back : ∀ (Xl : List L), (∀ l ∈ Xl, l ∈ pyLabels Al Bl Cl) →
      (∀ p ∈ Xl.map (fun l => (pyLabels Al Bl Cl).idxOf l), p ∈ Cl.map fun l => (pyLabels Al Bl Cl).idxOf l) → ∀ l ∈ Xl, l ∈ Cl := by
    intro Xl hX hp l hl
    obtain ⟨m, hm, e⟩ := List.mem_map.1 (hp _ (List.mem_map.2 ⟨l, hl, rfl⟩))
    rwa [← (List.idxOf_inj (mC m hm)).1 e]
  refine ⟨back Al (fun l hl => mem_pyLabels.2 (.inl hl)) (filter_all h4),
    back Bl (fun l hl => mem_pyLabels.2 (.inr (.inl hl))) (filter_all (by unfold intersect at h5; rw [h5, h1]))⟩

section
variable [CommSemiring K] [BEq K]

/-- The kernel for direct products. -/
theorem pyGpuSwap_sem [LawfulBEq K] {Al Bl Cl : List L} {δ : L → Nat} {A B C : Strided K} (dA : A.dims = Al.map δ)
    (dB : B.dims = Bl.map δ) (dC : C.dims = Cl.map δ) (lA : A.strides.length = A.dims.length) (lB : B.strides.length = B.dims.length)
    {fA fB fC : List Nat → K} (hA : A.Represents fA) (hB : B.Represents fB) (hC : C.Represents fC) (w : C.WF) (h0 : Cl ≠ [])
    (hn : Cl.Nodup) (hud : pyGpuDims (pyBase Al Bl Cl) A.dims B.dims = (pyLabels Al Bl Cl).map δ)
    (hd : pyDirectSwap (pyBase Al Bl Cl) = true) (cp ab : K) (run : GpuRun K)
    (hs : Schedule (directThreadsOf cp (einsumCount (pyGpuDims (pyBase Al Bl Cl) A.dims B.dims))) run.rmw) :
    ∃ C' f', pyGpuGeneric (pyBase Al Bl Cl) run cp C ab A B = .ok C' ∧ C.Frame C' ∧ C'.Represents f' ∧
      ∀ ρ, InRange δ Cl ρ →
        f' (Cl.map ρ) = cp * fC (Cl.map ρ) + ab * (fA (keepFirst Al (Al.map ρ)) * fB (keepFirst Bl (Bl.map ρ))) := by
  have hU : (pyLabels Al Bl Cl).Nodup := nodup_unique _
  have hU0 : (pyLabels Al Bl Cl).map δ ≠ [] := by simpa using pyLabels_ne_nil (Al := Al) (Bl := Bl) (.inl h0)
  have mC : ∀ l ∈ Cl, l ∈ pyLabels Al Bl Cl := fun l hl => mem_pyLabels.2 (.inr (.inr hl))
  obtain ⟨hAC, hBC⟩ := pyDirectSwap_labels hn hd
  have mU : ∀ l ∈ pyLabels Al Bl Cl, l ∈ Cl := by
    intro l hl
    rcases mem_pyLabels.1 hl with h | h | h
    · exact hAC l h
    · exact hBC l h
    · exact h
  rw [hud, einsumCount_eq hU0] at hs
  obtain ⟨C', f', e, fr, rp, h⟩ := Props.direct_general (fA := fun i => fA (keepFirst Al i)) (fB := fun i => fB (keepFirst Bl i))
    (pos := pyGpuAddr ((pyLabels Al Bl Cl).map δ) (pyBase Al Bl Cl).Cperm C)
    (term := pyGpuTerm (pyBase Al Bl Cl) ((pyLabels Al Bl Cl).map δ) ab A B)
    cp ab hU mC mU hAC hBC hn dC hC w (fun c hc => by
      rw [pyBase_eq]
      rw [pyGpuAddr_eq hU mC C (by rw [w.len, dC, List.length_map]) hc, keepFirst_nodup hn _ (by simp)])
    (fun c hc => pyGpuTerm_eq dA dB lA lB hA hB ab hc) run.reg hs
  refine ⟨C', f', ?_, fr, rp, h⟩
  unfold pyGpuGeneric
  rw [if_neg (by
    rw [pyBase_eq]
    simp [dC, dA, dB])]
  simp only
  rw [hud, if_neg (by simpa using hU0), if_neg (by rw [pyBase_eq]; simpa using h0), hd, if_pos rfl]
  exact e

/-! ### Scalar results -/

/-- The operations of the kernels with a scalar result. -/
theorem zeroBlocks_perm {count : Nat} {sched : List (Nat × AtomicOp)} (h : GridRun (zeroBlocks count) sched) :
    sched.Perm ((0, .zero) :: (List.range (launchSwapped count).size).map fun w => (w, AtomicOp.add)) := by
  unfold zeroBlocks at h
  simp only at h
  obtain ⟨h1, h2⟩ := gridRun_phases (q := fun a : Nat × AtomicOp => decide (a.2 = .zero)) (by
      intro b _ t ht a ha
      obtain ⟨x, _, rfl⟩ := List.mem_map.1 ht
      split at ha
      · simp only [List.mem_singleton] at ha; subst ha; rfl
      · simp at ha) (by
      intro b _ t ht a ha
      obtain ⟨x, _, rfl⟩ := List.mem_map.1 ht
      simp only [List.mem_singleton] at ha; subst ha; rfl) h
  rw [← List.flatMap_def] at h1 h2
  have t1 := threads_eq (launchSwapped count) (fun w _ => if w = 0 then [(0, AtomicOp.zero)] else [])
  have t2 := threads_eq (launchSwapped count) (fun w _ => [(w, AtomicOp.add)])
  unfold Launch.threads at t1 t2
  rw [t1] at h1
  rw [t2] at h2
  have hp := (List.filter_append_perm (fun a : Nat × AtomicOp => decide (a.2 = .zero)) sched).symm
  refine hp.trans ((h1.perm.append h2.perm).trans ?_)
  have hsize := launchSwapped_pos count
  generalize (launchSwapped count).size = size at *
  have e1 : ((List.range size).map fun w => if w = 0 then [(0, AtomicOp.zero)] else []).flatten = [(0, AtomicOp.zero)] := by
    obtain ⟨m, rfl⟩ : ∃ m, size = m + 1 := ⟨size - 1, by omega⟩
    rw [List.range_succ_eq_map]
    simp
  have e2 : ((List.range size).map fun w => [(w, AtomicOp.add)]).flatten = (List.range size).map fun w => (w, AtomicOp.add) := by
    induction List.range size with
    | nil => rfl
    | cons x xs ih => rw [List.map_cons, List.flatten_cons, ih]; rfl
  rw [e1, e2]
  exact List.Perm.refl _

omit [BEq K] in
/-- Zeroing first. -/
theorem zero_ordered {count : Nat} {value : Nat → Outcome K} {v : Nat → K}
    (hv : ∀ w, w < (launchSwapped count).size → value w = .ok (v w)) (c : K) {sched : List (Nat × AtomicOp)}
    (hs : GridRun (zeroBlocks count) sched) (h0 : sched.head? = some (0, .zero)) :
    sched.foldlM (atomicStep value) c = .ok ((List.range (launchSwapped count).size).map v).sum := by
  have hp := zeroBlocks_perm hs
  generalize (launchSwapped count).size = size at *
  cases sched with
  | nil => simp at h0
  | cons a sched =>
    simp only [List.head?_cons, Option.some.injEq] at h0
    subst h0
    have hp := (List.perm_cons _).1 hp
    have hadd : ∀ a ∈ sched, a.2 = .add ∧ a.1 < size := by
      intro a ha
      obtain ⟨w, hw, rfl⟩ := List.mem_map.1 (hp.mem_iff.1 ha)
      exact ⟨rfl, List.mem_range.1 hw⟩
    rw [atomicRun (v := v)]
    · rw [List.foldl_cons, foldl_adds _ fun a ha => (hadd a ha).1]
      rw [zero_add, (hp.map fun a => v a.1).sum_eq, List.map_map]
      rfl
    · intro a ha hop
      rcases List.mem_cons.1 ha with rfl | ha
      · simp at hop
      · exact hv _ (hadd a ha).2

omit [BEq K] in
/-- Whatever the order, the initial value is lost. -/
theorem zero_forgets {count : Nat} {value : Nat → Outcome K} {v : Nat → K}
    (hv : ∀ w, w < (launchSwapped count).size → value w = .ok (v w)) {sched : List (Nat × AtomicOp)}
    (hs : GridRun (zeroBlocks count) sched) : ∃ x, ∀ c, sched.foldlM (atomicStep value) c = .ok x := by
  have hp := zeroBlocks_perm hs
  have hz : (0, AtomicOp.zero) ∈ sched := hp.mem_iff.2 (by simp)
  have hall : ∀ a ∈ sched, a.2 = .add → value a.1 = .ok (v a.1) := by
    intro a ha e
    rcases List.mem_cons.1 (hp.mem_iff.1 ha) with rfl | h
    · simp at e
    · obtain ⟨w, hw, rfl⟩ := List.mem_map.1 h
      exact hv _ (List.mem_range.1 hw)
  obtain ⟨s, t, rfl⟩ := List.append_of_mem hz
  refine ⟨(t.foldl (fun c a => match a.2 with | .zero => 0 | .add => c + v a.1) 0), fun c => ?_⟩
  rw [atomicRun (v := v) _ hall, List.foldl_append, List.foldl_cons]
  rfl

omit [BEq K] in
theorem pyGpuValue_eq {Al Bl Cl : List L} {δ : L → Nat} {A B : Strided K} (dA : A.dims = Al.map δ) (dB : B.dims = Bl.map δ)
    (lA : A.strides.length = A.dims.length) (lB : B.strides.length = B.dims.length) {fA fB : List Nat → K} (hA : A.Represents fA)
    (hB : B.Represents fB) (ab : K) (hU0 : (pyLabels Al Bl Cl).map δ ≠ []) {w : Nat}
    (hw : w < (launchSwapped (numel ((pyLabels Al Bl Cl).map δ))).size) :
    pyGpuValue (pyBase Al Bl Cl) ((pyLabels Al Bl Cl).map δ) ab A B w =
      .ok (ab * ((countersOf (numel ((pyLabels Al Bl Cl).map δ)) (launchSwapped (numel ((pyLabels Al Bl Cl).map δ))).size w).map
        fun s => fA (keepFirst Al (Al.map (iterEnv (pyLabels Al Bl Cl) δ s))) *
          fB (keepFirst Bl (Bl.map (iterEnv (pyLabels Al Bl Cl) δ s)))).sum) := by
  have hU : (pyLabels Al Bl Cl).Nodup := nodup_unique _
  have mA : ∀ l ∈ Al, l ∈ pyLabels Al Bl Cl := fun l hl => mem_pyLabels.2 (.inl hl)
  have mB : ∀ l ∈ Bl, l ∈ pyLabels Al Bl Cl := fun l hl => mem_pyLabels.2 (.inr (.inl hl))
  unfold pyGpuValue
  rw [einsumCount_eq hU0, sumLoop_eq (fun s => fA (keepFirst Al (Al.map (iterEnv (pyLabels Al Bl Cl) δ s))) *
          fB (keepFirst Bl (Bl.map (iterEnv (pyLabels Al Bl Cl) δ s)))), foldl_add_sum, zero_add]
  · rfl
  · intro s hs
    have hlt := ((mem_countersOf hw).1 hs).1
    rw [pyBase_eq]
    simp only
    rw [pyGpuAddr_eq hU mA A (by rw [lA, dA, List.length_map]) hlt, pyGpuAddr_eq hU mB B (by rw [lB, dB, List.length_map]) hlt]
    simp only [Outcome.ok_bind, pyGpu_get mA dA hA hlt, pyGpu_get mB dB hB hlt]
    rfl

omit [BEq K] in
theorem sum_mul_workers {n size : Nat} (hs : 0 < size) (v : Nat → K) (ab : K) :
    ((List.range size).map fun w => ab * ((countersOf n size w).map v).sum).sum = ab * ((List.range n).map v).sum := by
  rw [← sum_workers hs v]
  induction List.range size with
  | nil => simp
  | cons x xs ih => rw [List.map_cons, List.sum_cons, ih, List.map_cons, List.sum_cons, mul_add]


/-! ### Dot products -/

theorem map_iterEnv {U : List L} (hU : U.Nodup) {δ : L → Nat} {s : Nat} (hs : s < numel (U.map δ)) :
    U.map (iterEnv U δ s) = unflat (U.map δ) s := by
  have hlen : (unflat (U.map δ) s).length = U.length := by
    have := (InBox_iff_getElem.1 (unflat_inBox hs)).1
    simpa using this
  apply List.ext_getElem
  · simp [hlen]
  · intro i h1 h2
    have hi : i < U.length := by simpa using h1
    rw [List.getElem_map]
    unfold iterEnv
    rw [← bindEnv_getD (List.getElem_mem hi) hlen, hU.idxOf_getElem, List.getD_eq_getElem?_getD, List.getElem?_eq_getElem h2]
    rfl

omit [BEq K] in
theorem pyDotTerm_eq {A B : Strided K} (lA : A.strides.length = A.dims.length) (lB : B.strides.length = B.dims.length)
    (hd : B.dims = A.dims) {f g : List Nat → K} (hf : A.Represents f) (hg : B.Represents g) {i : Nat} (hi : i < numel A.dims) :
    dotTerm A B i = .ok (f (unflat A.dims i) * g (unflat A.dims i)) := by
  unfold dotTerm
  rw [divAddr_eq lA hi, divAddr_eq (by rw [← hd]; exact lB) hi]
  simp only [Outcome.ok_bind, memGet]
  rw [represents_get hf (unflat_inBox hi), represents_get hg (by rw [hd]; exact unflat_inBox hi)]
  rfl

omit [BEq K] in
theorem pyDotValue_eq {A B : Strided K} (lA : A.strides.length = A.dims.length) (lB : B.strides.length = B.dims.length)
    (h0 : A.dims ≠ []) (hd : B.dims = A.dims) {f g : List Nat → K} (hf : A.Represents f) (hg : B.Represents g) {w : Nat}
    (hw : w < (launchSwapped (numel A.dims)).size) :
    pyDotValue A B w = .ok ((countersOf (numel A.dims) (launchSwapped (numel A.dims)).size w).map
      fun s => f (unflat A.dims s) * g (unflat A.dims s)).sum := by
  unfold pyDotValue
  rw [show dotCount A.dims = numel A.dims from head_mul_stride h0, sumLoop_eq fun s => f (unflat A.dims s) * g (unflat A.dims s),
    foldl_add_sum, zero_add]
  intro i hi
  exact pyDotTerm_eq lA lB hd hf hg ((mem_countersOf hw).1 hi).1

/-- The dot product, given what the kernel leaves in its result. -/
theorem pyGpuDot_of [LawfulBEq K] {A B C : Strided K} {fC : List Nat → K} (cp ab : K) (h0 : A.dims ≠ []) (hd : B.dims = A.dims)
    (dC : C.dims = []) (w : C.WF) (hC : C.Represents fC) {run : GpuRun K} {x : K}
    (hx : run.atomic.foldlM (atomicStep (pyDotValue A B)) 0 = .ok x) :
    ∃ C', pyGpuDot run cp C ab A B = .ok C' ∧ C.Frame C' ∧ C'.Represents fun i => cp * fC i + ab * x := by
  have hb0 : InBox [] C.dims := by rw [dC]; trivial
  have hc0 := represents_get hC hb0
  simp only [dot, Nat.add_zero] at hc0
  have hlt : C.off < C.data.length := by
    have := w.bound [] hb0
    simpa [dot] using this
  obtain ⟨fr, rp⟩ := frame_of_mem w (d := C.data.set C.off (cp * fC [] + ab * x)) (f' := fun i => cp * fC i + ab * x) (by simp)
    (by
      intro j hj
      rw [dC] at hj
      have : j = [] := by cases j with
        | nil => rfl
        | cons _ _ => exact hj.elim
      subst this
      simp only [dot, Nat.add_zero]
      rw [List.getElem?_set_self hlt])
    (by
      intro p hp'
      rw [List.getElem?_set_ne]
      intro e
      exact hp' [] hb0 (by simp [dot, e]))
  refine ⟨_, ?_, fr, rp⟩
  unfold pyGpuDot
  rw [if_neg (by simp [hd]), if_neg (by simpa using h0)]
  unfold memUpd
  rw [hc0]
  simp only
  rw [hx]
  simp only [Outcome.ok_bind]
  have : (if cp == 0 then (0 : K) else fC [] * cp) = cp * fC [] := by
    split
    · rename_i h; rw [eq_of_beq h, zero_mul]
    · rw [mul_comm]
  rw [this, mul_comm x ab, add_comm]
  rfl

local instance : DecidableEq (List (List (List (Nat × AtomicOp)))) := inferInstance

/-- Up to 31 iterations: every block has one thread. -/
theorem zeroBlocks_small {n : Nat} (h : n < 32) : zeroBlocks n = (List.range 32).map fun w =>
    [[if w = 0 then [(0, AtomicOp.zero)] else []], [[(w, .add)]]] := by
  have : ∀ n, n < 32 → zeroBlocks n = (List.range 32).map fun w =>
    [[if w = 0 then [(0, AtomicOp.zero)] else []], [[(w, .add)]]] := by decide +kernel
  exact this n h

theorem zeroBlocks_lost {n : Nat} (h : n < 32) {w : Nat} (hw0 : 0 < w) (hw : w < 32) :
    GridRun (zeroBlocks n) ((w, .add) :: (0, .zero) :: ((List.range 32).filter fun x => decide (x ≠ w)).map fun x => (x, AtomicOp.add)) := by
  rw [zeroBlocks_small h]
  refine ⟨(List.range 32).map fun w => if w = 0 then [(0, .zero), (0, .add)] else [(w, .add)], ?_, ?_⟩
  · have one : ∀ t : List (Nat × AtomicOp), Schedule [t] t := fun t => by simpa using Schedule.sequential [t]
    have two : ∀ s t : List (Nat × AtomicOp), BlockRun [[s], [t]] (s ++ (t ++ [])) := fun s t =>
      .phase (one s) (.phase (one t) .done)
    generalize List.range 32 = xs
    induction xs with
    | nil => exact .nil
    | cons x xs ih =>
      refine .cons ?_ ih
      have := two (if x = 0 then [(0, AtomicOp.zero)] else []) [(x, .add)]
      by_cases hx : x = 0
      · subst hx; exact this
      · simpa [hx] using this
  · have hi : ((List.range 32).map fun w => if w = 0 then [(0, AtomicOp.zero), (0, .add)] else [(w, .add)])[w]? =
        some [(w, AtomicOp.add)] := by
      rw [List.getElem?_map, List.getElem?_range hw, Option.map_some, if_neg (by omega)]
    refine .step hi ?_
    have : ∀ w, w < 32 → 0 < w → (((List.range 32).map fun w => if w = 0 then [(0, AtomicOp.zero), (0, .add)] else [(w, .add)]).set w
        []).flatten = (0, .zero) :: ((List.range 32).filter fun x => decide (x ≠ w)).map fun x => (x, AtomicOp.add) := by
      decide +kernel
    rw [← this w hw hw0]
    exact Schedule.sequential _

theorem launchSwapped_small {n : Nat} (h : n < 32) : (launchSwapped n).size = 32 := by
  have : ∀ n, n < 32 → (launchSwapped n).size = 32 := by decide +kernel
  exact this n h

omit [BEq K] in
theorem counters_small {n : Nat} (h : n < 32) {w : Nat} (hw : w < n) : countersOf n 32 w = [w] := by
  have : ∀ n, n < 32 → ∀ w, w < n → countersOf n 32 w = [w] := by decide +kernel
  exact this n h w hw

theorem counters_none {n : Nat} (h : n < 32) {w : Nat} (hw : n ≤ w) (hw' : w < 32) : countersOf n 32 w = [] := by
  have : ∀ n, n < 32 → ∀ w, w < 32 → n ≤ w → countersOf n 32 w = [] := by decide +kernel
  exact this n h w hw' hw

end
end
end Einsums.Model
