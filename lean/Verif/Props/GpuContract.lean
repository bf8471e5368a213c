import Verif.Proofs.GpuContract
import Verif.Props.Generic
/-
C133: dot products of device tensors.  C134: contractions of device tensors by the generic algorithm.
-/
namespace Einsums.Props
open Spec Model

/-! ### C133 -/

section
variable {K : Type} [CommSemiring K]

/-- **C133 (partial).** `dot` of device tensors or views of equal shape, for every interleaving of the workers in which worker 0 clears
the result before any worker adds to it: the sum over all indices of the products of the elements, whatever the memory for the result
held.  Missing: the other interleavings (refuted below), different shapes (refuted below). -/
theorem C133_dot_partial (A B : Strided K) (wA : A.WF) (wB : B.WF) (hd0 : A.dims ≠ []) (hd : B.dims = A.dims) (f g : List Nat → K)
    (hf : A.Represents f) (hg : B.Represents g) (c : K) (sched : List (Nat × AtomicOp)) (hs : Schedule (dotThreads A) sched)
    (h0 : sched.head? = some (0, .zero)) : deviceDot A B c sched = .ok ((box A.dims).map fun i => f i * g i).sum := by
  unfold deviceDot
  rw [dot_ordered (fun w hw => dotTemp_eq hd0 (fun i hi => dotTerm_eq wA wB hd hf hg hi) hw) c hs h0,
    sum_workers (launchSwapped_pos _), ← map_unflat_range, List.map_map]
  rfl

/-- **C133 (true_dot, partial).** `true_dot`, under the same condition, multiplies the first size() stored elements of the operands in
the order in which they are stored, for views as well (`q` counts them). -/
theorem C133_true_dot_stored (conj : K → K) (A B : Strided K) (lA : A.strides.length = A.dims.length)
    (lB : B.strides.length = A.dims.length) (hd0 : A.dims ≠ []) (x y : Nat → K)
    (hx : ∀ q, q < numel A.dims → A.data[A.off + q]? = some (x q)) (hy : ∀ q, q < numel A.dims → B.data[B.off + q]? = some (y q))
    (c : K) (sched : List (Nat × AtomicOp)) (hs : Schedule (dotThreads A) sched) (h0 : sched.head? = some (0, .zero)) :
    deviceTrueDot conj A B c sched = .ok ((List.range (numel A.dims)).map fun q => conj (x q) * y q).sum := by
  unfold deviceTrueDot
  rw [dot_ordered (fun w hw => dotTemp_eq hd0 (fun i hi => trueDotTerm_eq lA lB conj hi (hx i hi) (hy i hi)) hw) c hs h0,
    sum_workers (launchSwapped_pos _)]

/-- **C133 (true_dot, tensors, partial).** -/
theorem C133_true_dot_partial (conj : K → K) (A B : Strided K) (tA : A.IsTensor) (tB : B.IsTensor) (hd0 : A.dims ≠ [])
    (hd : B.dims = A.dims) (f g : List Nat → K) (hf : A.Represents f) (hg : B.Represents g) (c : K) (sched : List (Nat × AtomicOp))
    (hs : Schedule (dotThreads A) sched) (h0 : sched.head? = some (0, .zero)) :
    deviceTrueDot conj A B c sched = .ok ((box A.dims).map fun i => conj (f i) * g i).sum := by
  have key : ∀ (X : Strided K), X.IsTensor → ∀ h : List Nat → K, X.Represents h → ∀ q, q < numel X.dims →
      X.data[X.off + q]? = some (h (unflat X.dims q)) := by
    intro X tX h hh q hq
    have := represents_get hh (unflat_inBox hq)
    rwa [tX.strides, dot_strides_eq (unflat_inBox hq).length, rowMajor_unflat hq] at this
  rw [C133_true_dot_stored conj A B tA.wf.len (by rw [← hd]; exact tB.wf.len) hd0 (fun q => f (unflat A.dims q))
    (fun q => g (unflat A.dims q)) (key A tA f hf) (by
      intro q hq
      have := key B tB g hg q (by rw [hd]; exact hq)
      rwa [hd] at this) c sched hs h0, ← map_unflat_range, List.map_map]
  rfl

/-- **C133 (lost contributions, refuted).** For every worker `w` other than worker 0 there is an interleaving in which the result lacks
exactly the products that `w` has summed: `w` adds them before worker 0 clears the result.  Nothing orders the two. -/
theorem C133_lost_refuted (A B : Strided K) (wA : A.WF) (wB : B.WF) (hd0 : A.dims ≠ []) (hd : B.dims = A.dims) (f g : List Nat → K)
    (hf : A.Represents f) (hg : B.Represents g) (c : K) (w : Nat) (hw0 : 0 < w) (hw : w < (launchSwapped (sizeMethod A.dims)).size) :
    ∃ sched, Schedule (dotThreads A) sched ∧ deviceDot A B c sched =
      .ok (((List.range (numel A.dims)).filter fun q => decide (q % (launchSwapped (sizeMethod A.dims)).size ≠ w)).map fun q =>
        f (unflat A.dims q) * g (unflat A.dims q)).sum := by
  obtain ⟨sched, hs, e⟩ := dot_lost (fun w hw => dotTemp_eq hd0 (fun i hi => dotTerm_eq wA wB hd hf hg hi) hw) c hw0 hw
  refine ⟨sched, hs, ?_⟩
  unfold deviceDot
  rw [e]
  congr 1
  have hsz := launchSwapped_pos (sizeMethod A.dims)
  generalize (launchSwapped (sizeMethod A.dims)).size = size at *
  generalize numel A.dims = n at *
  have hp : (((List.range size).filter fun x => decide (x ≠ w)).map (countersOf n size)).flatten.Perm
      ((List.range n).filter fun q => decide (q % size ≠ w)) := by
    have hp := (counters_perm (size := n) hsz).filter fun q => decide (q % size ≠ w)
    refine List.Perm.trans ?_ hp
    rw [List.filter_flatten, List.map_map]
    have e2 : ∀ l : List Nat, (∀ x ∈ l, x < size) → ((l.filter fun x => decide (x ≠ w)).map (countersOf n size)).flatten =
        (l.map (List.filter (fun q => decide (q % size ≠ w)) ∘ countersOf n size)).flatten := by
      intro l hl
      induction l with
      | nil => rfl
      | cons x l ih =>
        have hx := hl x (by simp)
        rw [List.map_cons, List.flatten_cons, ← ih fun y hy => hl y (by simp [hy])]
        by_cases hxw : x = w
        · subst hxw
          have : (countersOf n size x).filter (fun q => decide (q % size ≠ x)) = [] := by
            rw [List.filter_eq_nil_iff]
            intro q hq
            simp [((mem_countersOf hx).1 hq).2]
          rw [List.filter_cons_of_neg (by simp), Function.comp_apply, this, List.nil_append]
        · have : (countersOf n size x).filter (fun q => decide (q % size ≠ w)) = countersOf n size x := by
            rw [List.filter_eq_self]
            intro q hq
            rw [decide_eq_true_eq, ((mem_countersOf hx).1 hq).2]
            exact hxw
          rw [List.filter_cons_of_pos (by simpa using hxw), List.map_cons, List.flatten_cons, Function.comp_apply, this]
    rw [e2 _ fun x hx => List.mem_range.1 hx]
  rw [← (hp.map _).sum_eq, List.map_flatten, List.sum_flatten, List.map_map, List.map_map]
  rfl

end

theorem sum_ones (l : List Nat) : (l.map fun _ => (1 : Int) * 1).sum = l.length := by
  induction l with
  | nil => rfl
  | cons x l _ => simp [Int.add_comm]

/-- **C133 (refuted).** For device tensors or views of any shape with at least two elements, all of them 1, there is an interleaving
for which the dot product is less than the number of elements. -/
theorem C133_refuted (A : Strided Int) (wA : A.WF) (hf : A.Represents fun _ => 1) (h2 : 2 ≤ numel A.dims) (hd0 : A.dims ≠ []) (c : Int) :
    ∃ sched x, Schedule (dotThreads A) sched ∧ deviceDot A A c sched = .ok x ∧ x < numel A.dims := by
  have hw : 1 < (launchSwapped (sizeMethod A.dims)).size := by
    rw [launchSwapped_size]
    generalize sizeMethod A.dims = n
    have h1 : 16 ≤ (blockSize n).x := by
      unfold blockSize dim3
      split
      · simp
      · split
        · rename_i h1 h2
          have : ∀ m, m < 256 → 32 ≤ m → 16 ≤ m &&& 0xf0 := by decide +kernel
          exact this n h2 (by omega)
        · simp
    have h2 := (gpuBlocks_pos n).1
    calc 1 < 16 := by omega
      _ ≤ (blockSize n).x * 1 := by omega
      _ ≤ _ := Nat.mul_le_mul (Nat.le_refl _) h2
  obtain ⟨sched, hs, e⟩ := C133_lost_refuted A A wA wA hd0 rfl _ _ hf hf c 1 (by omega) hw
  refine ⟨sched, _, hs, e, ?_⟩
  rw [sum_ones]
  have : ((List.range (numel A.dims)).filter fun q => decide (q % (launchSwapped (sizeMethod A.dims)).size ≠ 1)).length <
      (List.range (numel A.dims)).length := by
    refine List.length_filter_lt_length_iff_exists.2 ⟨1, List.mem_range.2 (by omega), ?_⟩
    simp [Nat.mod_eq_of_lt hw]
  rw [List.length_range] at this
  exact_mod_cast this

/-- **C133 (true_dot of views, refuted).** `true_dot` ignores the strides: for the view of every second element of 1, 2, 3, 4 the
result is 1·1 + 2·2 instead of 1·1 + 3·3, whenever the result is cleared first. -/
theorem C133_view_refuted (c : Int) (sched : List (Nat × AtomicOp)) (hs : Schedule (dotThreads everySecond) sched)
    (h0 : sched.head? = some (0, .zero)) :
    deviceTrueDot id everySecond everySecond c sched = .ok 5 ∧ deviceDot everySecond everySecond c sched = .ok 10 := by
  constructor
  · rw [C133_true_dot_stored id everySecond everySecond rfl rfl (by decide) (fun q => (q : Int) + 1) (fun q => (q : Int) + 1)
      (by decide) (by decide) c sched hs h0]
    rfl
  · rw [C133_dot_partial everySecond everySecond everySecond_wf everySecond_wf (by decide) rfl _ _ everySecond_represents
      everySecond_represents c sched hs h0]
    rfl

/-- The interleaving in which the workers run one after the other meets the condition. -/
example {K : Type} (A : Strided K) : Schedule (dotThreads A) (dotThreads A).flatten ∧
    (dotThreads A).flatten.head? = some (0, .zero) := by
  refine ⟨Schedule.sequential _, ?_⟩
  rw [dotThreads_eq, dot_flatten (launchSwapped_pos _)]
  rfl

/-- **C133 (shapes, refuted).** The shapes are not compared: with an element of the first operand whose place in the second lies
outside its memory, every execution reads outside the allocation. -/
theorem C133_shape_refuted {K : Type} [CommSemiring K] (A B : Strided K) (wA : A.WF) (hd0 : A.dims ≠ [])
    (lB : B.strides.length = A.dims.length) (i : List Nat) (hi : InBox i A.dims) (hb : B.data.length ≤ B.off + dot i B.strides)
    (c : K) (sched : List (Nat × AtomicOp)) (hs : Schedule (dotThreads A) sched) : (deviceDot A B c sched).isUb = true := by
  have hsz := launchSwapped_pos (sizeMethod A.dims)
  have hne : ∀ w, (dotTemp (dotTerm A B) A w).isError = false := by
    intro w
    unfold dotTemp
    exact sumLoop_noError (fun i => by
      unfold dotTerm
      exact bind_noError (divAddr_noError _ _ _) fun _ => bind_noError (divAddr_noError _ _ _) fun _ =>
        bind_noError (memGet_noError _ _) fun _ => bind_noError (memGet_noError _ _) fun _ => rfl) _ _
  have hterm : (dotTerm A B (rowMajor i A.dims)).isUb = true := by
    have hq := rowMajor_lt hi
    unfold dotTerm
    rw [divAddr_eq wA.len hq, divAddr_eq lB hq, unflat_rowMajor hi]
    simp only [Outcome.ok_bind]
    have hlt := wA.bound i hi
    simp only [memGet, List.getElem?_eq_getElem hlt, List.getElem?_eq_none hb, Outcome.ok_bind]
    rfl
  have hw : rowMajor i A.dims % (launchSwapped (sizeMethod A.dims)).size < (launchSwapped (sizeMethod A.dims)).size :=
    Nat.mod_lt _ hsz
  have hub : (dotTemp (dotTerm A B) A (rowMajor i A.dims % (launchSwapped (sizeMethod A.dims)).size)).isUb = true := by
    have hmem : rowMajor i A.dims ∈ countersOf (dotCount A.dims) (launchSwapped (sizeMethod A.dims)).size
        (rowMajor i A.dims % (launchSwapped (sizeMethod A.dims)).size) := by
      rw [mem_countersOf hw, show dotCount A.dims = numel A.dims from head_mul_stride hd0]
      exact ⟨rowMajor_lt hi, rfl⟩
    exact sumLoop_ub (fun i => by
      unfold dotTerm
      exact bind_noError (divAddr_noError _ _ _) fun _ => bind_noError (divAddr_noError _ _ _) fun _ =>
        bind_noError (memGet_noError _ _) fun _ => bind_noError (memGet_noError _ _) fun _ => rfl) hterm hmem _
  unfold deviceDot
  refine foldlM_ub (bad := (rowMajor i A.dims % (launchSwapped (sizeMethod A.dims)).size, .add)) ?_ ?_ _ _ ?_
  · intro s a
    unfold atomicStep
    split
    · rfl
    · exact bind_noError (hne _) fun _ => rfl
  · intro s
    unfold atomicStep
    simp only
    revert hub
    cases dotTemp (dotTerm A B) A (rowMajor i A.dims % (launchSwapped (sizeMethod A.dims)).size) <;> simp [Outcome.isUb]
  · rw [dotThreads_eq] at hs
    rw [hs.perm.mem_iff, dot_flatten hsz]
    exact List.mem_cons_of_mem _ (List.mem_map.2 ⟨_, List.mem_range.2 hw, rfl⟩)

/-- A vector of two against a vector of one. -/
example : InBox [1] (⟨[1, 2], 0, [2], [1]⟩ : Strided Int).dims ∧
    (⟨[1], 0, [1], [1]⟩ : Strided Int).data.length ≤ 0 + dot [1] [1] := by decide

/-! ### C134 -/

section
variable {K : Type} [CommSemiring K] [BEq K] [LawfulBEq K] {L : Type} [DecidableEq L]

/-- A kernel that stores or updates every element of `C` once. -/
theorem direct_general {δ : L → Nat} {U Cl Al Bl : List L} {C : Strided K} {fC fA fB : List Nat → K} (cp ab : K) (hUn : U.Nodup)
    (mC : ∀ l ∈ Cl, l ∈ U) (mU : ∀ l ∈ U, l ∈ Cl) (hAC : ∀ l ∈ Al, l ∈ Cl) (hBC : ∀ l ∈ Bl, l ∈ Cl) (hn : Cl.Nodup)
    (dC : C.dims = Cl.map δ) (hC : C.Represents fC) (w : C.WF) {pos : Nat → Outcome Nat} {term : Nat → Outcome K}
    (hpos : ∀ c, c < numel (U.map δ) → pos c = .ok (C.off + dot (Cl.map (iterEnv U δ c)) C.strides))
    (hterm : ∀ c, c < numel (U.map δ) → term c = .ok (ab * fA (Al.map (iterEnv U δ c)) * fB (Bl.map (iterEnv U δ c))))
    (r : Nat → K) {sched : List (Nat × RmwOp)} (hs : Schedule (directThreadsOf cp (numel (U.map δ))) sched) :
    ∃ C' f', runKernel C pos (fun i v => do
        let x ← term i
        return if cp == 0 then x else cp * v + x) r sched = .ok C' ∧ C.Frame C' ∧ C'.Represents f' ∧
      ∀ ρ, InRange δ Cl ρ → f' (Cl.map ρ) = cp * fC (Cl.map ρ) + ab * (fA (Al.map ρ) * fB (Bl.map ρ)) := by
  unfold directThreadsOf at hs
  have hsize := launchSwapped_pos (numel (U.map δ))
  have hbox : ∀ c, c < numel (U.map δ) → InBox (Cl.map (iterEnv U δ c)) C.dims := fun c hc => by
    rw [dC]; exact operand_inBox mC hc
  have hbd : ∀ c, c < numel (U.map δ) → C.off + dot (Cl.map (iterEnv U δ c)) C.strides < C.data.length := fun c hc =>
    w.bound _ (hbox c hc)
  have hinj : ∀ c d, c < numel (U.map δ) → d < numel (U.map δ) → C.off + dot (Cl.map (iterEnv U δ c)) C.strides =
      C.off + dot (Cl.map (iterEnv U δ d)) C.strides → c = d := by
    intro c d hc hd e
    exact iterEnv_inj hUn mU hc hd (w.inj _ _ (hbox c hc) (hbox d hd) (by omega))
  obtain ⟨d, e, h1, h2, h3⟩ : ∃ d, runKernel C pos (fun i v => do
        let x ← term i
        return if cp == 0 then x else cp * v + x) r sched = .ok { C with data := d } ∧ d.length = C.data.length ∧
      (∀ p, (∀ c, c < numel (U.map δ) → p ≠ C.off + dot (Cl.map (iterEnv U δ c)) C.strides) → d[p]? = C.data[p]?) ∧
      ∀ c, c < numel (U.map δ) → d[C.off + dot (Cl.map (iterEnv U δ c)) C.strides]? =
        some (cp * fC (Cl.map (iterEnv U δ c)) + ab * (fA (Al.map (iterEnv U δ c)) * fB (Bl.map (iterEnv U δ c)))) := by
    by_cases hcp : (cp == 0) = true
    · simp only [hcp, if_true] at hs
      obtain ⟨d, e, h1, h2, h3⟩ := store_run (t := C) (f := fun i v => do
          let x ← term i
          return if cp == 0 then x else cp * v + x)
        (h := fun c => ab * fA (Al.map (iterEnv U δ c)) * fB (Bl.map (iterEnv U δ c))) hsize hpos hbd
        (fun c d hc hd e => by rw [hinj c d hc hd e])
        (fun c hc v => by
          simp only [hterm c hc, Outcome.ok_bind, hcp, if_true]
          rfl) r hs
      refine ⟨d, e, h1, h2, fun c hc => ?_⟩
      rw [h3 c hc, eq_of_beq hcp, zero_mul, zero_add, mul_assoc]
    · simp only [hcp, if_false, Bool.false_eq_true] at hs
      obtain ⟨d, e, h1, h2, h3⟩ := update_run (t := C) (f := fun i v => do
          let x ← term i
          return if cp == 0 then x else cp * v + x)
        (h := fun c v => cp * v + ab * fA (Al.map (iterEnv U δ c)) * fB (Bl.map (iterEnv U δ c))) hsize hpos hbd hinj
        (fun c hc v => by
          simp only [hterm c hc, Outcome.ok_bind, hcp]
          rfl) r hs
      refine ⟨d, e, h1, h2, fun c hc => ?_⟩
      rw [h3 c hc, represents_get hC (hbox c hc), Option.map_some, mul_assoc]
  have hback : ∀ ρ, InRange δ Cl ρ → ∃ c, c < numel (U.map δ) ∧ ∀ l ∈ Cl, iterEnv U δ c l = ρ l := by
    intro ρ hρ
    refine ⟨rowMajor (U.map ρ) (U.map δ), rowMajor_lt (inBox_map fun l hl => hρ l (mU l hl)), ?_⟩
    intro l hl
    exact iterEnv_rowMajor (fun l hl => hρ l (mU l hl)) (mC l hl)
  have hsub : ∀ (Xl : List L), (∀ l ∈ Xl, l ∈ Cl) → ∀ σ ρ : L → Nat, (∀ l ∈ Cl, σ l = ρ l) → Xl.map σ = Xl.map ρ :=
    fun Xl h σ ρ hσ => List.map_congr_left fun l hl => hσ l (h l hl)
  obtain ⟨fr, rp⟩ := frame_of_mem (t := C) w (d := d)
    (f' := fun i => cp * fC i + ab * (fA (Al.map (bindEnv Cl i fun _ => 0)) * fB (Bl.map (bindEnv Cl i fun _ => 0)))) h1 (by
      intro i hi
      have hlen : i.length = Cl.length := by rw [hi.length, dC, List.length_map]
      have hci : Cl.map (bindEnv Cl i fun _ => 0) = i := map_bindEnv hn hlen _
      rw [dC] at hi
      obtain ⟨c, hc, hl⟩ := hback (bindEnv Cl i fun _ => 0) (fun l hl => box_bindEnv_inBox hi hl)
      have := h3 c hc
      rw [hsub Cl (fun _ h => h) _ _ hl, hsub Al hAC _ _ hl, hsub Bl hBC _ _ hl, hci] at this
      exact this) (by
      intro p hp
      exact h2 p fun c hc e => hp _ (hbox c hc) e)
  refine ⟨_, _, e, fr, rp, ?_⟩
  intro ρ hρ
  have hb : ∀ l ∈ Cl, bindEnv Cl (Cl.map ρ) (fun _ => 0) l = ρ l := by
    intro l hl
    rw [bindEnv_map, if_pos hl]
  simp only [hsub Al hAC _ _ hb, hsub Bl hBC _ _ hb]

/-- **C134 (element-wise products).** When `C`, `A` and `B` carry the same labels, in any order, `einsum` on the device computes
`C(..) = cp C(..) + ab A(..) B(..)` for every interleaving of the workers. -/
theorem C134_direct (δ : L → Nat) (Cl Al Bl : List L) (C A B : Strided K) (fC fA fB : List Nat → K) (cp ab : K)
    (dC : C.dims = Cl.map δ) (dA : A.dims = Al.map δ) (dB : B.dims = Bl.map δ) (hC : C.Represents fC) (hA : A.Represents fA)
    (hB : B.Represents fB) (w : C.WF) (hn : Cl.Nodup) (h0 : Cl ≠ []) (hsw : directSwap Cl Al Bl = true) (r : Nat → K)
    (sched : List (Nat × RmwOp)) (hs : Schedule (directThreads cp (dimRanges Cl C.dims Al A.dims Bl B.dims)) sched) :
    ∃ C' f', deviceDirect cp Cl C ab Al A Bl B r sched = .ok C' ∧ C.Frame C' ∧ C'.Represents f' ∧
      ∀ ρ, InRange δ Cl ρ → f' (Cl.map ρ) = cp * fC (Cl.map ρ) + ab * (fA (Al.map ρ) * fB (Bl.map ρ)) := by
  obtain ⟨hAC, hBC⟩ := directSwap_labels hn hsw
  have hUn : (uniqueLabels Cl Al Bl).Nodup := nodup_unique _
  have mC : ∀ l ∈ Cl, l ∈ uniqueLabels Cl Al Bl := fun l hl => mem_uniqueLabels.2 (.inl hl)
  have mA : ∀ l ∈ Al, l ∈ uniqueLabels Cl Al Bl := fun l hl => mem_uniqueLabels.2 (.inr (.inl hl))
  have mB : ∀ l ∈ Bl, l ∈ uniqueLabels Cl Al Bl := fun l hl => mem_uniqueLabels.2 (.inr (.inr hl))
  have mU : ∀ l ∈ uniqueLabels Cl Al Bl, l ∈ Cl := by
    intro l hl
    rcases mem_uniqueLabels.1 hl with h | h | h
    · exact h
    · exact hAC l h
    · exact hBC l h
  have hU0 : (uniqueLabels Cl Al Bl).map δ ≠ [] := labels_ne_nil (.inl h0) δ
  have hdim : dimRanges Cl C.dims Al A.dims Bl B.dims = (uniqueLabels Cl Al Bl).map δ := by
    rw [dA, dB, dC]; exact gridRanges_eq δ Cl Al Bl
  unfold directThreads at hs
  unfold deviceDirect
  rw [hdim, einsumCount_eq hU0] at hs
  simp only [hdim]
  exact direct_general cp ab hUn mC mU hAC hBC hn dC hC w (fun c hc => operandAddr_eq mC C hc)
    (fun c hc => einsumTerm_eq mA mB dA dB hA hB ab hc) r hs

/-- **C134 (numbers).** When the result is a number, `einsum` on the device computes `c = cp c + ab Σ A(..) B(..)`, the sum over all
labels, for every interleaving of the workers. -/
theorem C134_scalar (δ : L → Nat) (Al Bl ls : List L) (A B : Strided K) (fA fB : List Nat → K) (cp c ab : K)
    (dA : A.dims = Al.map δ) (dB : B.dims = Bl.map δ) (hA : A.Represents fA) (hB : B.Represents fB) (h0 : Al ≠ [] ∨ Bl ≠ [])
    (hls : Summed Al Bl [] ls) (sched : List (Nat × AtomicOp))
    (hs : Schedule (scalarThreads (dimRanges [] [] Al A.dims Bl B.dims)) sched) :
    deviceScalar cp c ab Al A Bl B sched = .ok (cp * c + ab * contraction δ ls Al Bl fA fB fun _ => 0) := by
  have hUn : (uniqueLabels [] Al Bl).Nodup := nodup_unique _
  have mA : ∀ l ∈ Al, l ∈ uniqueLabels [] Al Bl := fun l hl => mem_uniqueLabels.2 (.inr (.inl hl))
  have mB : ∀ l ∈ Bl, l ∈ uniqueLabels [] Al Bl := fun l hl => mem_uniqueLabels.2 (.inr (.inr hl))
  have hU0 : (uniqueLabels [] Al Bl).map δ ≠ [] := labels_ne_nil (.inr h0) δ
  have hdim : dimRanges [] [] Al A.dims Bl B.dims = (uniqueLabels [] Al Bl).map δ := by
    rw [dA, dB]; exact gridRanges_eq δ [] Al Bl
  have hsum := sum_labels (δ := δ) (Cl := []) hls fA fB (fun _ => 0) (by intro l hl; simp at hl)
  simp only [List.map_nil, if_true] at hsum
  rw [← hsum, ← sum_iterations hUn]
  unfold scalarThreads at hs
  unfold deviceScalar
  rw [hdim, einsumCount_eq hU0, threads_eq] at hs
  simp only [hdim, einsumCount_eq hU0]
  clear hsum
  generalize uniqueLabels [] Al Bl = U at *
  have hsize := launchSwapped_pos (numel (U.map δ))
  generalize (launchSwapped (numel (U.map δ))).size = size at *
  have hp : sched.Perm ((List.range size).map fun w => (w, AtomicOp.add)) := by
    refine hs.perm.trans ?_
    rw [show ((List.range size).map fun w => [(w, AtomicOp.add)]) = ((List.range size).map fun w => (w, AtomicOp.add)).map fun x => [x]
      by rw [List.map_map]; rfl]
    rw [← List.flatMap_def, List.flatMap_singleton']
  have hmem : ∀ a ∈ sched, a.2 = .add ∧ a.1 < size := by
    intro a ha
    obtain ⟨w, hw, rfl⟩ := List.mem_map.1 (hp.mem_iff.1 ha)
    exact ⟨rfl, List.mem_range.1 hw⟩
  rw [atomicRun (v := fun w => ab * ((countersOf (numel (U.map δ)) size w).map fun s =>
    fA (Al.map (iterEnv U δ s)) * fB (Bl.map (iterEnv U δ s))).sum)]
  · rw [foldl_adds (v := fun w => ab * ((countersOf (numel (U.map δ)) size w).map fun s =>
      fA (Al.map (iterEnv U δ s)) * fB (Bl.map (iterEnv U δ s))).sum) _ fun a ha => (hmem a ha).1, (hp.map _).sum_eq, List.map_map]
    have hcp : (if (cp == 0) = true then 0 else c * cp) = cp * c := by
      by_cases h : (cp == 0) = true
      · rw [if_pos h, eq_of_beq h, zero_mul]
      · rw [if_neg h, mul_comm]
    rw [hcp]
    congr 2
    rw [← sum_workers (n := numel (U.map δ)) hsize fun s => fA (Al.map (iterEnv U δ s)) * fB (Bl.map (iterEnv U δ s)),
      ← List.sum_map_mul_left]
    rfl
  · intro a ha _
    rw [sumLoop_eq (fun s => fA (Al.map (iterEnv U δ s)) * fB (Bl.map (iterEnv U δ s))), foldl_add_sum, zero_add]
    · rfl
    · intro s hsm
      have hlt := ((mem_countersOf (hmem a ha).2).1 hsm).1
      rw [operandAddr_eq mA A hlt, operandAddr_eq mB B hlt]
      simp only [Outcome.ok_bind, operand_get mA dA hA hlt, operand_get mB dB hB hlt]
      rfl

/-- **C134 (contractions, partial).** Any other contraction: for every execution of the blocks in which no element of `C` is added to
before it has been initialised, `C(..) = cp C(..) + ab Σ A(..) B(..)`, the sum over the labels that `C` does not have; elements of `C`
that no values of the labels name are multiplied with `cp`.  The blocks are independent of each other, a barrier within each of them
separates initialisation and addition.  Missing: executions in which a block adds to an element that another block initialises
later (refuted below); 2^31 and more elements. -/
theorem C134_contract_partial (δ : L → Nat) (Cl Al Bl ls : List L) (C A B : Strided K) (fC fA fB : List Nat → K) (cp ab : K)
    (dC : C.dims = Cl.map δ) (dA : A.dims = Al.map δ) (dB : B.dims = Bl.map δ) (hC : C.Represents fC) (hA : A.Represents fA)
    (hB : B.Represents fB) (w : C.WF) (h0 : Cl ≠ []) (hn : numel C.dims < 2 ^ 31) (hls : Summed Al Bl Cl ls) (r : Nat → K)
    (sched : List (Nat × EinOp)) (hs : GridRun (einBlocks cp C (dimRanges Cl C.dims Al A.dims Bl B.dims)) sched)
    (ho : sched.Pairwise fun a b => a.2 = .add → b.2 ≠ .add → einAddr Cl C Al A Bl B a ≠ einAddr Cl C Al A Bl B b) :
    ∃ C' f', deviceContract cp Cl C ab Al A Bl B r sched = .ok C' ∧ C.Frame C' ∧ C'.Represents f' ∧
      (∀ ρ, InRange δ Cl ρ → f' (Cl.map ρ) = cp * fC (Cl.map ρ) + ab * contraction δ ls Al Bl fA fB ρ) ∧
      ∀ i, InBox i C.dims → (∀ ρ : L → Nat, Cl.map ρ ≠ i) → f' i = cp * fC i := by
  obtain ⟨C', f', e, fr, rp, h⟩ := contract_sem cp ab dA dB dC hA hB hC w h0 hn r hs ho
  refine ⟨C', f', e, fr, rp, ?_, ?_⟩
  · intro ρ hρ
    rw [h _ (by rw [dC]; exact inBox_map hρ), sum_labels hls fA fB ρ hρ]
  · intro i hi hρ
    rw [h i hi]
    simp only [hρ, if_false]
    rw [sumOver_zero, mul_zero, add_zero]

end

/-- A phase after which the threads still have their other operations to do. -/
theorem schedule_phase {β α : Type} (x y : β → List α) (bs pre : List β) {s : List α}
    (h : Schedule (pre.map y ++ bs.map y) s) :
    Schedule (pre.map y ++ bs.map fun b => x b ++ y b) (bs.flatMap x ++ s) := by
  induction bs generalizing pre with
  | nil => simpa using h
  | cons b bs ih =>
    have h' := ih (pre ++ [b]) (by simpa using h)
    have key : ∀ u : List α, Schedule (pre.map y ++ (u ++ y b) :: bs.map fun b => x b ++ y b) (u ++ (bs.flatMap x ++ s)) := by
      intro u
      induction u with
      | nil => simpa using h'
      | cons a u ihu =>
        refine .step (i := (pre.map y).length) (xs := u ++ y b) ?_ ?_
        · rw [List.getElem?_append_right (Nat.le_refl _), Nat.sub_self]; rfl
        · rw [List.set_append_right _ _ (Nat.le_refl _), Nat.sub_self]
          exact ihu
    have := key (x b)
    rw [List.map_cons, List.flatMap_cons, List.append_assoc]
    exact this

/-- First all initialisations, then all additions. -/
theorem ordered_exists {K : Type} [CommSemiring K] [BEq K] (cp : K) (n count : Nat) (addr : Nat × EinOp → Outcome Nat) :
    ∃ sched, GridRun (einBlocksOf cp n count) sched ∧
      sched.Pairwise fun a b => a.2 = .add → b.2 ≠ .add → addr a ≠ addr b := by
  let l := launchSwapped count
  let p1 : Dim3 → List (Nat × EinOp) := fun b =>
    (l.block.coords.map fun t => einFirst cp (n) l.size (l.worker b t)).flatten
  let p2 : Dim3 → List (Nat × EinOp) := fun b =>
    (l.block.coords.map fun t => einSecond (count) l.size (l.worker b t)).flatten
  refine ⟨l.grid.coords.flatMap p1 ++ (l.grid.coords.map p2).flatten, ⟨l.grid.coords.map fun b => p1 b ++ p2 b, ?_, ?_⟩, ?_⟩
  · unfold einBlocksOf
    rw [List.forall₂_map_left_iff, List.forall₂_map_right_iff, List.forall₂_same]
    intro b _
    have h : BlockRun [l.block.coords.map fun t => einFirst cp (n) l.size (l.worker b t),
       l.block.coords.map fun t => einSecond (count) l.size (l.worker b t)] (p1 b ++ (p2 b ++ [])) :=
      .phase (Schedule.sequential _) (.phase (Schedule.sequential _) .done)
    rw [List.append_nil] at h
    exact h
  · exact schedule_phase p1 p2 l.grid.coords [] (Schedule.sequential _)
  · have n1 : ∀ a ∈ l.grid.coords.flatMap p1, a.2 ≠ .add := by
      intro a ha
      obtain ⟨b, _, hb⟩ := List.mem_flatMap.1 ha
      obtain ⟨t, ht, hat⟩ := List.mem_flatten.1 hb
      obtain ⟨x, _, rfl⟩ := List.mem_map.1 ht
      unfold einFirst at hat
      obtain ⟨c, _, hc⟩ := List.mem_flatMap.1 hat
      split at hc
      · simp only [List.mem_singleton] at hc
        subst hc
        simp
      · simp only [List.mem_cons, List.not_mem_nil, or_false] at hc
        rcases hc with rfl | rfl <;> simp
    have n2 : ∀ a ∈ (l.grid.coords.map p2).flatten, a.2 = .add := by
      intro a ha
      obtain ⟨t, ht, hat⟩ := List.mem_flatten.1 ha
      obtain ⟨b, _, rfl⟩ := List.mem_map.1 ht
      obtain ⟨u, hu, hau⟩ := List.mem_flatten.1 hat
      obtain ⟨x, _, rfl⟩ := List.mem_map.1 hu
      unfold einSecond at hau
      obtain ⟨c, _, rfl⟩ := List.mem_map.1 hau
      rfl
    rw [List.pairwise_append]
    refine ⟨?_, ?_, ?_⟩
    · rw [List.pairwise_iff_forall_sublist]
      intro a b hab e
      exact (n1 a (hab.subset (by simp)) e).elim
    · rw [List.pairwise_iff_forall_sublist]
      intro a b hab _ e
      exact (e (n2 b (hab.subset (by simp)))).elim
    · intro a ha b _ e
      exact (n1 a ha e).elim

/-- Executions as in the theorem exist for all operands: first all initialisations, then all additions. -/
theorem C134_order_exists {K : Type} [CommSemiring K] [BEq K] {L : Type} [DecidableEq L] (cp : K) (Cl Al Bl : List L)
    (C A B : Strided K) (dims : List Nat) : ∃ sched, GridRun (einBlocks cp C dims) sched ∧
      sched.Pairwise fun a b => a.2 = .add → b.2 ≠ .add → einAddr Cl C Al A Bl B a ≠ einAddr Cl C Al A Bl B b :=
  ordered_exists _ _ _ _

/-- `C(i) = Σ_k A(i,k) B(i,k)` with one value of `i` and two of `k`. -/
def oneRow : Strided Int := ⟨[1, 1], 0, [1, 2], [2, 1]⟩
def oneSum : Strided Int := ⟨[7], 0, [1], [1]⟩

/-- The blocks of that contraction. -/
theorem oneBlocks : einBlocks (0 : Int) oneSum (dimRanges [0] oneSum.dims [0, 1] oneRow.dims [0, 1] oneRow.dims) =
    [[[(0, EinOp.store)]], [[(0, .add)]]] :: [[[]], [[(1, .add)]]] :: List.replicate 30 [[[]], [[]]] := by decide +kernel

/-- **C134 (refuted).** Worker 1, a thread of another block, adds its product before worker 0 clears the element; the barrier does not
concern it.  The result is 1 instead of 2. -/
theorem C134_refuted (r : Nat → Int) : ∃ sched,
    GridRun (einBlocks (0 : Int) oneSum (dimRanges [0] oneSum.dims [0, 1] oneRow.dims [0, 1] oneRow.dims)) sched ∧
    deviceContract 0 [0] oneSum 1 [0, 1] oneRow [0, 1] oneRow r sched = .ok { oneSum with data := [1] } := by
  refine ⟨[(1, .add), (0, .store), (0, .add)], ?_, ?_⟩
  · rw [oneBlocks]
    refine ⟨[(0, .store), (0, .add)] :: [(1, .add)] :: List.replicate 30 [], ?_, ?_⟩
    · have one : ∀ t : List (Nat × EinOp), Schedule [t] t := fun t => by simpa using Schedule.sequential [t]
      have two : ∀ s t : List (Nat × EinOp), BlockRun [[s], [t]] (s ++ (t ++ [])) := fun s t =>
        .phase (one s) (.phase (one t) .done)
      refine .cons (two [(0, .store)] [(0, .add)]) (.cons (two [] [(1, .add)]) ?_)
      generalize 30 = n
      induction n with
      | zero => exact .nil
      | succ n ih => exact .cons (two [] []) ih
    · refine .step (i := 1) (xs := []) rfl (.step (i := 0) (xs := [(0, .add)]) rfl (.step (i := 0) (xs := []) rfl (.done ?_)))
      intro t ht
      simp only [List.set_cons_succ, List.set_cons_zero, List.mem_cons, List.mem_replicate] at ht
      rcases ht with h | h | h
      · exact h
      · exact h
      · exact h.2
  · rfl

/-- The same operands when the element is cleared first: 2. -/
example (r : Nat → Int) : ∃ sched C' f', deviceContract 0 [0] oneSum 1 [0, 1] oneRow [0, 1] oneRow r sched = .ok C' ∧
    C'.Represents f' ∧ f' [0] = 2 := by
  have tSum : oneSum.IsTensor := ⟨rfl, rfl, rfl⟩
  have tRow : oneRow.IsTensor := ⟨rfl, rfl, rfl⟩
  have hSum : oneSum.Represents fun _ => 7 := (represents_iff tSum.wf).2 fun i hi => by
    have : ∀ i ∈ box oneSum.dims, oneSum.data[oneSum.off + dot i oneSum.strides]? = some 7 := by decide
    exact this i (mem_box.2 hi)
  have hRow : oneRow.Represents fun _ => 1 := (represents_iff tRow.wf).2 fun i hi => by
    have : ∀ i ∈ box oneRow.dims, oneRow.data[oneRow.off + dot i oneRow.strides]? = some 1 := by decide
    exact this i (mem_box.2 hi)
  obtain ⟨sched, hs, ho⟩ := C134_order_exists (0 : Int) [0] [0, 1] [0, 1] oneSum oneRow oneRow
    (dimRanges [0] oneSum.dims [0, 1] oneRow.dims [0, 1] oneRow.dims)
  obtain ⟨C', f', e, _, rp, h, _⟩ := C134_contract_partial (fun l : Nat => if l = 0 then 1 else 2) [0] [0, 1] [0, 1] [1] oneSum oneRow
    oneRow (fun _ => 7) (fun _ => 1) (fun _ => 1) 0 1 rfl rfl rfl
    hSum hRow hRow tSum.wf (by decide) (by decide) (by unfold Summed; refine ⟨by decide, ?_⟩; intro l; simp; omega) r sched hs ho
  refine ⟨sched, C', f', e, rp, ?_⟩
  have := h (fun _ => 0) (by intro l hl; simp at hl; subst hl; decide)
  simpa [contraction, sumOver] using this

end Einsums.Props
