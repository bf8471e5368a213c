import Verif.Spec.PythonTensor
import Verif.Proofs.RuntimeAccess
import Verif.Proofs.RuntimeSlice
import Verif.Proofs.Size
/-
Lemmas about Python subscripts, iterators and buffers.
-/
namespace Einsums
open Spec Model

variable {α β : Type}

/-! ### Subscripts -/

theorem adjustBound_eq (d n : Nat) (x : Option Int) : adjustBound d n x = (sliceBound d n x : Int) := by
  cases x with
  | none => rfl
  | some k =>
    simp only [adjustBound, sliceBound]
    split
    · split <;> omega
    · split <;> omega

theorem castSize_nat {k : Int} (h0 : 0 ≤ k) (h1 : k < 2 ^ 63) : castSize k = .ok k.toNat := by
  rw [castSize, if_pos ⟨h0, by omega⟩]

theorem pySliceRange_eq (d : Nat) (a b : Option Int) {s : Option Int} (h : s = none ∨ s = some 1) :
    pySliceRange d a b s = .ok ((sliceBound d 0 a : Int), (sliceBound d d b : Int)) := by
  have : s.getD 1 = 1 := by rcases h with h | h <;> simp [h]
  simp only [pySliceRange]
  rw [if_neg (by simpa using this)]
  have h1 := adjustBound_eq d 0 a
  rw [← h1, ← adjustBound_eq]; rfl

/-- The arguments of a subscript as selections of the C++ interface. -/
def selsOf (dims : List Nat) (args : List PyArg) : List Sel := (dims.zip args).map fun p => pySel p.1 p.2

theorem pyRanges_eq {ds : List Nat} {args : List PyArg} (h : ∀ p ∈ ds.zip args, GoodArg p.1 p.2) :
    pyRanges ds args = .ok ((ds.zip (selsOf ds args)).map fun p => argSlice p.1 p.2) := by
  induction ds generalizing args with
  | nil => cases args <;> rfl
  | cons d ds ih =>
    cases args with
    | nil => rfl
    | cons a as =>
      have ha := h (d, a) (by simp)
      have ih' := ih (args := as) fun p hp => h p (by simp [hp])
      cases a with
      | int k =>
        obtain ⟨_, h0, h1⟩ := ha
        have h0 : 0 ≤ k := h0
        have h1 : k < 2 ^ 63 := h1
        simp only [pyRanges, castSize_nat h0 h1, ih', Outcome.ok_bind]
        simp only [selsOf, List.zip_cons_cons, List.map_cons, pySel, argSlice]
        rw [if_neg (by omega), Int.toNat_of_nonneg h0]; rfl
      | slice x y s =>
        obtain ⟨_, h2⟩ := ha
        simp only [pyRanges, pySliceRange_eq d x y h2, ih', Outcome.ok_bind]
        rfl

theorem selsOf_length {ds : List Nat} {args : List PyArg} (hn : args.length ≤ ds.length) :
    (selsOf ds args).length = args.length := by
  simp [selsOf]; omega

theorem forward_selsOf {ds : List Nat} {args : List PyArg} (h : ∀ p ∈ ds.zip args, GoodArg p.1 p.2) :
    ForwardRanges (selsOf ds args) := by
  intro a b hm
  obtain ⟨⟨d, x⟩, hp, he⟩ := List.mem_map.1 hm
  have := (h _ hp).1
  cases x with
  | int k => simp [pySel] at he
  | slice x y s =>
    simp only [pySel, Sel.range.injEq] at he
    simp only [NonEmptySlice] at this
    omega

/-- The view that a subscript makes. -/
theorem pySubView_ok {v : RtView α} (w : v.view.WF) {args : List PyArg} {vd : List Nat}
    (hn : args.length ≤ v.view.dims.length) (hg : ∀ p ∈ v.view.dims.zip args, GoodArg p.1 p.2)
    (h : selDims v.view.dims (pySels v.view.dims args) = some vd) (h0 : numel v.view.dims ≠ 0)
    (hd : ∀ d ∈ v.view.dims, d < 2 ^ 63) (hv : numel vd < 2 ^ 31) :
    ∃ u, pySubView v args = .ok u ∧ u.WF ∧ u.view.dims = vd ∧
      v.view.ViewOf u.view (selIndex v.view.dims (pySels v.view.dims args)) := by
  have hl := selsOf_length hn
  obtain ⟨u, h1, h2, h3, h4, h5⟩ := rtSlice_eq false w (xs := (v.view.dims.zip (selsOf v.view.dims args)).map fun p => argSlice p.1 p.2)
    (by simp) (slicesMean_args (args := selsOf v.view.dims args) (by omega) h (forward_selsOf hg) (numel_ne_zero.1 h0) hd) h h0 hd
  refine ⟨u, ?_, ⟨h5.wf w, by rw [h3, h2], by rw [h4, h2, Props.C05_size_partial _ hv]⟩, h2, h5⟩
  simp only [pySubView]
  rw [pyRanges_eq hg]
  exact h1

/-- What happens to a tensor when the elements of a view of it are changed. -/
theorem Model.Strided.ViewOf.frame {t v v' : Strided α} {φ : List Nat → List Nat} (h : t.ViewOf v φ) (w : t.WF)
    {f g F : List Nat → α} (hf : t.Represents f) (fr : v.Frame v') (hr : v'.Represents g)
    (h1 : ∀ j, InBox j v.dims → F (φ j) = g j) (h2 : ∀ i, (∀ j, InBox j v.dims → φ j ≠ i) → F i = f i) :
    t.Frame { t with data := v'.data } ∧ Strided.Represents { t with data := v'.data } F := by
  have hlen : v'.data.length = t.data.length := by rw [fr.length, h.data]
  have fr' : t.Frame { t with data := v'.data } := by
    refine ⟨rfl, rfl, rfl, hlen, ?_⟩
    intro p hp
    rw [← h.data]
    apply fr.outside
    intro j hj e
    obtain ⟨a1, a2⟩ := h.addr j hj
    exact hp _ a1 (by omega)
  refine ⟨fr', (represents_iff (fr'.wf w)).2 ?_⟩
  intro i hi
  have hi : InBox i t.dims := hi
  by_cases hex : ∃ j, InBox j v.dims ∧ φ j = i
  · obtain ⟨j, hj, rfl⟩ := hex
    obtain ⟨_, a2⟩ := h.addr j hj
    have := (represents_iff (fr.wf (h.wf w))).1 hr j (by rw [fr.dims]; exact hj)
    rw [fr.off, fr.strides, a2] at this
    rw [h1 j hj]; exact this
  · have hne : ∀ j, InBox j v.dims → φ j ≠ i := fun j hj e => hex ⟨j, hj, e⟩
    rw [h2 i hne]
    have := fr.outside (t.off + dot i t.strides) (by
      intro j hj e
      obtain ⟨a1, a2⟩ := h.addr j hj
      exact hne j hj (w.inj _ _ a1 hi (by omega)))
    rw [show ({ t with data := v'.data } : Strided α).data = v'.data from rfl, this, h.data]
    exact (represents_iff w).1 hf i hi

theorem pyVals_eq {ks : List Int} (hi : ∀ k ∈ ks, 0 ≤ k ∧ k < 2 ^ 63) : pyVals (ks.map .int) = .ok ks := by
  induction ks with
  | nil => rfl
  | cons k ks ih =>
    obtain ⟨h0, h1⟩ := hi k (by simp)
    simp only [List.map_cons, pyVals, castSize_nat h0 h1, ih (fun a ha => hi a (by simp [ha])), Outcome.ok_bind]
    rw [toPtrdiff_nat (by omega), Int.toNat_of_nonneg h0]; rfl

theorem pyVals_negative {ks : List Int} (hi : ∃ k ∈ ks, k < 0) : (pyVals (ks.map .int)).isError = true := by
  induction ks with
  | nil => simp at hi
  | cons k ks ih =>
    simp only [List.map_cons, pyVals, castSize]
    by_cases h : 0 ≤ k ∧ k < 2 ^ 64
    · rw [if_pos h]
      have : ∃ k ∈ ks, k < 0 := by
        obtain ⟨x, hx, h0⟩ := hi
        rcases List.mem_cons.1 hx with rfl | hx
        · omega
        · exact ⟨x, hx, h0⟩
      have := ih this
      simp only [Outcome.ok_bind]
      cases hv : pyVals (ks.map .int) with
      | ok r => rw [hv] at this; simp [Outcome.isError] at this
      | error e => rfl
      | ub e => rw [hv] at this; simp [Outcome.isError] at this
    · rw [if_neg h]; rfl

/-! ### Iterators -/

theorem box_eq_map (ds : List Nat) : box ds = (List.range (numel ds)).map fun p => sentinelToIndices p (dimsToStrides ds).2 := by
  rw [← map_rowMajor_box ds, List.map_map]
  symm
  calc (box ds).map _ = (box ds).map id := by
        apply List.map_congr_left
        intro i hi
        exact sentinelToIndices_rowMajor (mem_box.1 hi)
    _ = box ds := List.map_id _

theorem map_toPtrdiff {j ds : List Nat} (h : InBox j ds) (hd : ∀ d ∈ ds, d ≤ 2 ^ 63) : j.map toPtrdiff = toIdx j := by
  induction ds generalizing j with
  | nil => rw [InBox_nil_right.1 h]; simp [toIdx]
  | cons d ds ih =>
    obtain ⟨i, js, rfl, hi, hjs⟩ := InBox_cons_right.1 h
    have := hd d (by simp)
    have ih' := ih hjs fun x hx => hd x (by simp [hx])
    simp only [List.map_cons, toIdx] at ih' ⊢
    rw [toPtrdiff_nat (by omega), ih']; rfl

theorem le_numel {ds : List Nat} (h : numel ds ≠ 0) : ∀ d ∈ ds, d ≤ numel ds := by
  induction ds with
  | nil => simp
  | cons a ds ih =>
    simp only [numel] at h ⊢
    have ha : 0 < a := Nat.pos_of_ne_zero (by rintro rfl; simp at h)
    have hb : 0 < numel ds := Nat.pos_of_ne_zero (by intro e; simp [e] at h)
    intro d hd
    rcases List.mem_cons.1 hd with rfl | hd
    · exact Nat.le_mul_of_pos_right _ hb
    · exact (ih (by omega) d hd).trans (Nat.le_mul_of_pos_left _ ha)

/-- An iterator over `v` that stands before element number `i`, or has come to its end. -/
structure PyIter.At (v : RtView α) (rev : Bool) (i : Nat) (it : PyIter α) : Prop where
  cur : it.cur = i
  elements : it.elements = v.size
  strides : it.ixStrides = (dimsToStrides v.view.dims).2
  tensor : it.tensor = v
  stop : it.stop = false
  reverse : it.reverse = rev

theorem next_at {v : RtView α} (w : v.WF) {f : List Nat → α} (hf : v.view.Represents f) (hn : numel v.view.dims < 2 ^ 63)
    {rev : Bool} {i : Nat} {it : PyIter α} (ha : PyIter.At v rev i it) (hi : i < numel v.view.dims) :
    it.next = .ok (some (f (sentinelToIndices i (dimsToStrides v.view.dims).2)),
      { it with cur := toSize ((i : Int) + if rev then -1 else 1),
                stop := decide (toSize ((i : Int) + if rev then -1 else 1) ≥ v.size) }) := by
  obtain ⟨h1, h2⟩ := sentinelToIndices_spec hi
  have h0 : numel v.view.dims ≠ 0 := by omega
  have hle : ∀ d ∈ v.view.dims, d ≤ 2 ^ 63 := fun d hd => (le_numel h0 d hd).trans (by omega)
  have hg := rtvGet_eq w.view hf (pyIndices_toIdx h1)
  rw [← map_toPtrdiff h1 hle] at hg
  unfold PyIter.next
  rw [ha.stop, ha.tensor, ha.strides, ha.cur, hg, ha.elements, ha.reverse]
  simp only [Outcome.ok_bind, Bool.false_or]
  cases rev <;> rfl

theorem nexts_stopped {it : PyIter α} (h : it.stop = true) (m : Nat) : it.nexts m = .ok (List.replicate m none, it) := by
  induction m with
  | zero => rfl
  | succ m ih =>
    have : it.next = .ok (none, it) := by rw [PyIter.next, if_pos h]
    simp only [PyIter.nexts, this, Outcome.ok_bind, ih]
    rfl

theorem nexts_forward {v : RtView α} (w : v.WF) {f : List Nat → α} (hf : v.view.Represents f) (hn : numel v.view.dims < 2 ^ 63)
    (m : Nat) {k i : Nat} {it : PyIter α} (ha : PyIter.At v false i it) (hi : i + k + 1 = numel v.view.dims) :
    ∃ it', it.nexts (k + 1 + m) = .ok ((((box v.view.dims).drop i).map f).map some ++ List.replicate m none, it') := by
  induction k generalizing i it with
  | zero =>
    have e := next_at w hf hn ha (by omega)
    simp only [Bool.false_eq_true, if_false] at e
    have hs : toSize ((i : Int) + 1) = i + 1 := toSize_nat (n := i + 1) (by omega)
    rw [hs, w.size, decide_eq_true (by omega)] at e
    refine ⟨{ it with cur := i + 1, stop := true }, ?_⟩
    rw [show 0 + 1 + m = m + 1 by omega]
    simp only [PyIter.nexts, e, Outcome.ok_bind]
    rw [nexts_stopped (by rfl)]
    rw [box_eq_map, ← List.map_drop, show (List.range (numel v.view.dims)).drop i = [i] by
      rw [← hi]; simp [List.range_succ]]
    rfl
  | succ k ih =>
    have e := next_at w hf hn ha (by omega)
    simp only [Bool.false_eq_true, if_false] at e
    have hs : toSize ((i : Int) + 1) = i + 1 := toSize_nat (n := i + 1) (by omega)
    rw [hs, w.size, decide_eq_false (by omega)] at e
    obtain ⟨it', e'⟩ := ih (i := i + 1) (it := { it with cur := i + 1, stop := false })
      ⟨rfl, ha.elements, ha.strides, ha.tensor, rfl, ha.reverse⟩ (by omega)
    refine ⟨it', ?_⟩
    rw [show k + 1 + 1 + m = (k + 1 + m) + 1 by omega]
    simp only [PyIter.nexts, e, Outcome.ok_bind, e']
    have hb : (box v.view.dims).drop i = sentinelToIndices i (dimsToStrides v.view.dims).2 :: (box v.view.dims).drop (i + 1) := by
      rw [box_eq_map, ← List.map_drop, ← List.map_drop, List.drop_eq_getElem_cons (by simp; omega)]
      simp
    rw [hb]; rfl

theorem nexts_backward {v : RtView α} (w : v.WF) {f : List Nat → α} (hf : v.view.Represents f) (hn : numel v.view.dims < 2 ^ 63)
    (m : Nat) {i : Nat} {it : PyIter α} (ha : PyIter.At v true i it) (hi : i < numel v.view.dims) :
    ∃ it', it.nexts (i + 1 + m) = .ok ((((box v.view.dims).take (i + 1)).reverse.map f).map some ++ List.replicate m none, it') := by
  have hb : ∀ i, i < numel v.view.dims → (box v.view.dims).take (i + 1) =
      (box v.view.dims).take i ++ [sentinelToIndices i (dimsToStrides v.view.dims).2] := by
    intro i hi
    rw [box_eq_map, ← List.map_take, ← List.map_take, List.take_succ_eq_append_getElem (by simpa using hi)]
    simp
  induction i generalizing it with
  | zero =>
    have e := next_at w hf hn ha (by omega)
    simp only [if_true] at e
    have hs : toSize (((0 : Nat) : Int) + -1) = 2 ^ 64 - 1 := toSize_minus_one
    rw [hs, w.size, decide_eq_true (by omega)] at e
    refine ⟨{ it with cur := 2 ^ 64 - 1, stop := true }, ?_⟩
    rw [show 0 + 1 + m = m + 1 by omega]
    simp only [PyIter.nexts, e, Outcome.ok_bind]
    rw [nexts_stopped (by rfl), hb 0 hi]
    rfl
  | succ i ih =>
    have e := next_at w hf hn ha hi
    simp only [if_true] at e
    have hs : toSize (((i + 1 : Nat) : Int) + -1) = i := by
      rw [show (((i + 1 : Nat) : Int) + -1) = (i : Nat) by omega]
      exact toSize_nat (by omega)
    rw [hs, w.size, decide_eq_false (by omega)] at e
    obtain ⟨it', e'⟩ := ih (it := { it with cur := i, stop := false })
      ⟨rfl, ha.elements, ha.strides, ha.tensor, rfl, ha.reverse⟩ (by omega)
    refine ⟨it', ?_⟩
    rw [show i + 1 + 1 + m = (i + 1 + m) + 1 by omega]
    simp only [PyIter.nexts, e, Outcome.ok_bind, e']
    rw [hb (i + 1) hi]
    simp

theorem nexts_snoc : ∀ (k : Nat) (it it' : PyIter α) (l : List (Option α)) (y : Option α) (it'' : PyIter α),
    it.nexts k = .ok (l, it') → it'.next = .ok (y, it'') → it.nexts (k + 1) = .ok (l ++ [y], it'') := by
  intro k
  induction k with
  | zero =>
    intro it it' l y it'' h1 h2
    simp only [PyIter.nexts, Outcome.ok.injEq, Prod.mk.injEq] at h1
    obtain ⟨rfl, rfl⟩ := h1
    simp [PyIter.nexts, h2]
  | succ k ih =>
    intro it it' l y it'' h1 h2
    rw [PyIter.nexts] at h1
    cases hx : it.next with
    | error e => simp [hx] at h1
    | ub e => simp [hx] at h1
    | ok r =>
      rw [hx] at h1
      simp only [Outcome.ok_bind] at h1
      cases hy : PyIter.nexts k r.2 with
      | error e => simp [hy] at h1
      | ub e => simp [hy] at h1
      | ok s =>
        rw [hy] at h1
        simp only [Outcome.ok_bind, Outcome.pure_eq, Outcome.ok.injEq, Prod.mk.injEq] at h1
        obtain ⟨rfl, rfl⟩ := h1
        rw [PyIter.nexts, hx]
        simp only [Outcome.ok_bind]
        rw [ih r.2 s.2 s.1 y it'' hy h2]
        rfl

/-- The position before which an iterator stands after `k` calls. -/
def iterPos (n : Nat) (rev : Bool) (k : Nat) : Nat := if rev then n - 1 - k else k

theorem nexts_prefix {v : RtView α} (w : v.WF) {f : List Nat → α} (hf : v.view.Represents f) (hn : numel v.view.dims < 2 ^ 63)
    (rev : Bool) : ∀ k < numel v.view.dims, ∃ it, (pyIter v rev).nexts k =
      .ok ((((if rev then (box v.view.dims).reverse else box v.view.dims).take k).map f).map some, it) ∧
      PyIter.At v rev (iterPos (numel v.view.dims) rev k) it := by
  intro k
  induction k with
  | zero =>
    intro hk
    refine ⟨pyIter v rev, by simp [PyIter.nexts], ⟨?_, rfl, rfl, rfl, rfl, rfl⟩⟩
    cases rev
    · rfl
    · simp only [pyIter, iterPos, if_true, w.size]
      rw [show (numel v.view.dims : Int) - 1 = ((numel v.view.dims - 1 : Nat) : Int) by omega]
      exact toSize_nat (by omega)
  | succ k ih =>
    intro hk
    obtain ⟨it, e, ha⟩ := ih (by omega)
    have hp : iterPos (numel v.view.dims) rev k < numel v.view.dims := by
      cases rev <;> simp [iterPos] <;> omega
    have e2 := next_at w hf hn ha hp
    have hs : toSize ((iterPos (numel v.view.dims) rev k : Int) + if rev then -1 else 1) =
        iterPos (numel v.view.dims) rev (k + 1) := by
      rw [show (iterPos (numel v.view.dims) rev k : Int) + (if rev then -1 else 1) =
        ((iterPos (numel v.view.dims) rev (k + 1) : Nat) : Int) by
          cases rev
          · simp [iterPos]
          · simp [iterPos]; omega]
      apply toSize_nat
      cases rev <;> simp [iterPos] <;> omega
    rw [hs, w.size, decide_eq_false (by cases rev <;> simp [iterPos] <;> omega)] at e2
    refine ⟨_, ?_, (⟨rfl, ha.elements, ha.strides, ha.tensor, rfl, ha.reverse⟩ :
      PyIter.At v rev (iterPos (numel v.view.dims) rev (k + 1)) { it with cur := iterPos (numel v.view.dims) rev (k + 1), stop := false })⟩
    rw [nexts_snoc k _ _ _ _ _ e e2]
    have hb : (if rev then (box v.view.dims).reverse else box v.view.dims).take (k + 1) =
        (if rev then (box v.view.dims).reverse else box v.view.dims).take k ++
          [sentinelToIndices (iterPos (numel v.view.dims) rev k) (dimsToStrides v.view.dims).2] := by
      have hl : k < (if rev then (box v.view.dims).reverse else box v.view.dims).length := by
        cases rev <;> simp [length_box] <;> omega
      rw [List.take_succ_eq_append_getElem hl]
      congr 2
      cases rev
      · simp [box_eq_map, iterPos]
      · simp [box_eq_map, iterPos]
    rw [hb]
    simp

/-! ### Buffers -/

theorem bufSent_eq {isz : Nat} (h0 : 0 < isz) {ds : List Nat} {ss : List Int} (hl : ss.length = ds.length)
    (hd : ∀ s ∈ ss, (isz : Int) ∣ s) {p : Nat} (h : p < numel ds) :
    ∃ k, bufSent isz p (dimsToStrides ds).2 ss = .ok k ∧ isz * k = byteOffset (sentinelToIndices p (dimsToStrides ds).2) ss := by
  induction ds generalizing ss p with
  | nil => cases ss <;> simp_all [bufSent, sentinelToIndices, byteOffset]
  | cons d ds ih =>
    cases ss with
    | nil => simp at hl
    | cons s ss =>
      have hne : numel ds ≠ 0 := by intro e; simp [numel, e] at h
      rw [dimsToStrides_snd_cons]
      obtain ⟨k, e, he⟩ := ih (ss := ss) (by simpa using hl) (fun x hx => hd x (by simp [hx])) (p := p % numel ds)
        (Nat.mod_lt _ (by omega))
      refine ⟨s.tdiv isz * (p / numel ds : Nat) + k, ?_, ?_⟩
      · simp only [bufSent]
        rw [if_neg (by omega), e]; rfl
      · simp only [sentinelToIndices]
        rw [if_pos hne]
        simp only [byteOffset]
        rw [← he, Int.mul_add, ← Int.mul_assoc, Int.mul_tdiv_cancel' (hd s (by simp)), Int.mul_comm s]

/-- Without gaps and in row-major order, element number `p` is item number `p`. -/
theorem byteOffset_contiguous {b : PyBuffer β} (ha : b.Aligned) (hv : bufIsView (dimsToStrides b.shape).2 b = false) {p : Nat}
    (h : p < numel b.shape) : (b.itemsize : Int) * p = byteOffset (sentinelToIndices p (dimsToStrides b.shape).2) b.strides := by
  have hst : b.strides = (dimsToStrides b.shape).2.map fun n : Nat => (b.itemsize : Int) * n := by
    have h1 : b.strides.map (fun s => s.tdiv b.itemsize) = (dimsToStrides b.shape).2.map fun n : Nat => (n : Int) := by
      simpa [bufIsView] using hv
    have h2 : b.strides = (b.strides.map fun s => s.tdiv b.itemsize).map fun k => (b.itemsize : Int) * k := by
      rw [List.map_map]
      symm
      calc _ = b.strides.map id := List.map_congr_left fun s hs => Int.mul_tdiv_cancel' (ha.dvd s hs)
        _ = _ := List.map_id _
    rw [h2, h1, List.map_map]; rfl
  rw [hst]
  have : ∀ (j ss : List Nat), byteOffset j (ss.map fun n : Nat => (b.itemsize : Int) * n) = (b.itemsize : Int) * (dot j ss : Nat) := by
    intro j ss
    induction j generalizing ss with
    | nil => cases ss <;> simp [byteOffset, dot]
    | cons x j ih =>
      cases ss with
      | nil => simp [byteOffset, dot]
      | cons s ss =>
        simp only [List.map_cons, byteOffset, dot, ih]
        push_cast
        rw [Int.mul_add]
        rw [← Int.mul_assoc, ← Int.mul_assoc, Int.mul_comm (x : Int)]
  obtain ⟨h1, h2⟩ := sentinelToIndices_spec h
  rw [this, dot_strides_eq h1.length, h2]

theorem bufRead_eq {b : PyBuffer β} {g : List Nat → β} (hg : b.Represents g) {j : List Nat} (hj : InBox j b.shape) {k : Int}
    (hk : (b.itemsize : Int) * k = byteOffset j b.strides) : b.read k = .ok (g j) := by
  rw [PyBuffer.read, hk, hg j hj]

theorem bufLoop_eq (op : α → α → α) (conv : β → α) {t : Strided α} (ht : t.IsTensor) {f : List Nat → α} (hf : t.Represents f)
    {b : PyBuffer β} (ha : b.Aligned) {g : List Nat → β} (hg : b.Represents g) (hd : t.dims = b.shape) {sch : List Nat}
    (hs : sch.Perm (List.range (numel t.dims))) :
    ∃ t', bufLoop op conv t b sch = .ok t' ∧ t'.IsTensor ∧ t'.dims = t.dims ∧ t'.Represents fun i => op (f i) (conv (g i)) := by
  obtain ⟨C', e, fr, r⟩ := elementLoop ht.wf hf hs
    (fun (t' : Strided α) (i : Nat) => do
      let k ← bufPos t.strides b i
      let x ← b.read k
      ptrModify t' i fun y => op y (conv x)) (fun j y => op y (conv (g j))) (by
    intro i hi C1 f1 hd1 hst w1 r1 j
    have hj := (sentinelToIndices_spec hi).1
    obtain ⟨C2, e2, fr2, r2⟩ := ptrModify_eq w1 r1 (j := j) (by rw [hd1]; exact hj) fun y => op y (conv (g j))
    refine ⟨C2, ?_, fr2, r2⟩
    have hk : ∃ k, bufPos t.strides b i = .ok k ∧
        (b.itemsize : Int) * k = byteOffset j b.strides := by
      rw [ht.strides, bufPos]
      split
      · simp only [j]
        rw [hd] at hi ⊢
        exact bufSent_eq ha.size ha.len ha.dvd hi
      · rename_i hv
        refine ⟨i, rfl, ?_⟩
        simp only [j]
        rw [hd] at hi hv ⊢
        exact byteOffset_contiguous ha (by simpa using hv) hi
    obtain ⟨k, hk1, hk2⟩ := hk
    simp only [hk1, Outcome.ok_bind]
    rw [bufRead_eq hg (j := j) (by rw [← hd]; exact hj) hk2]
    simp only [Outcome.ok_bind]
    rw [hst, isTensor_dot ht hi] at e2
    exact e2)
  exact ⟨C', e, frame_isTensor ht fr, fr.dims, r⟩

theorem rtvOpBuffer_eq (op : α → α → α) (conv : β → α) {v : RtView α} (w : v.WF) {f : List Nat → α} (hf : v.view.Represents f)
    {b : PyBuffer β} (ha : b.Aligned) {g : List Nat → β} (hg : b.Represents g) (hd : v.view.dims = b.shape) {sch : List Nat}
    (hs : sch.Perm (List.range v.size)) :
    ∃ v', rtvOpBuffer op (some conv) v b sch = .ok v' ∧ v'.WF ∧ v.view.Frame v'.view ∧
      v'.view.Represents fun i => op (f i) (conv (g i)) := by
  rw [w.size] at hs
  obtain ⟨C', e, fr, r⟩ := elementLoop w.view hf hs
    (fun (t : Strided α) (i : Nat) => do
      let o ← ordLoop i v.ixStrides v.view.strides
      let k ← bufSent b.itemsize i v.ixStrides b.strides
      let x ← b.read k
      ptrModify t o fun y => op y (conv x)) (fun j y => op y (conv (g j))) (by
    intro i hi C1 f1 hd1 hst w1 r1 j
    have hj := (sentinelToIndices_spec hi).1
    obtain ⟨C2, e2, fr2, r2⟩ := ptrModify_eq w1 r1 (j := j) (by rw [hd1]; exact hj) fun y => op y (conv (g j))
    refine ⟨C2, ?_, fr2, r2⟩
    obtain ⟨k, hk1, hk2⟩ := bufSent_eq ha.size (ds := v.view.dims) (by rw [hd]; exact ha.len) ha.dvd hi
    rw [w.strides, ordLoop_eq w.view.len hi, hk1]
    simp only [Outcome.ok_bind]
    rw [bufRead_eq hg (j := j) (by rw [← hd]; exact hj) hk2]
    simp only [Outcome.ok_bind]
    rw [hst] at e2
    exact e2)
  refine ⟨{ v with view := C' }, ?_, ⟨fr.wf w.view, by rw [w.strides, fr.dims], by rw [w.size, fr.dims]⟩, fr, r⟩
  rw [rtvOpBuffer, if_neg (by simp [hd]), if_neg (by simpa using hd)]
  simp only [e, Outcome.ok_bind]
  rfl

end Einsums
