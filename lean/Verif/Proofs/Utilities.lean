import Verif.Model.Utilities
import Verif.Proofs.ElementOps
import Mathlib.Tactic.Ring
import Mathlib.Tactic.Positivity
/-
Proofs about the factory functions.
-/
namespace Einsums
open Spec Model

section
variable {R : Type}

/-- A loop of in-range writes. -/
theorem writeLoop {β : Type} (idx : β → List Nat) (val : β → R) (xs : List β) (hn : (xs.map idx).Nodup) {t : Strided R}
    (h : t.IsTensor) {f : List Nat → R} (hf : t.Represents f) (hb : ∀ x ∈ xs, InBox (idx x) t.dims) :
    ∃ t', xs.foldlM (fun t x => t.write (toIdx (idx x)) (val x)) t = Outcome.ok t' ∧ t'.IsTensor ∧ t'.dims = t.dims ∧
      ∃ f', t'.Represents f' ∧ (∀ x ∈ xs, f' (idx x) = val x) ∧ ∀ i, i ∉ xs.map idx → f' i = f i := by
  induction xs generalizing t f with
  | nil => exact ⟨t, rfl, h, rfl, f, hf, by simp, fun _ _ => rfl⟩
  | cons x xs ih =>
    obtain ⟨t1, h1, fr, r1⟩ := write_represents h.wf hf (hb x (by simp)) (val x)
    rw [List.map_cons, List.nodup_cons] at hn
    obtain ⟨t2, h2, h3, h4, f', h5, h6, h7⟩ := ih hn.2 (fr.isTensor h) r1 (by
      intro y hy; rw [fr.dims]; exact hb y (by simp [hy]))
    refine ⟨t2, ?_, h3, h4.trans fr.dims, f', h5, ?_, ?_⟩
    · rw [List.foldlM_cons, h1]; exact h2
    · intro y hy
      rcases List.mem_cons.1 hy with rfl | hy
      · rw [h7 _ hn.1]; simp
      · exact h6 y hy
    · intro i hi
      rw [List.map_cons, List.mem_cons, not_or] at hi
      rw [h7 i hi.2, if_neg hi.1]

theorem setAll_mk' (z : Nat → R) {dims : List Nat} (h : dims ≠ []) (v : R) :
    ((Strided.mk' z dims).setAll v).IsTensor ∧ ((Strided.mk' z dims).setAll v).dims = dims ∧
      ((Strided.mk' z dims).setAll v).Represents fun _ => v := by
  have ht := isTensor_mk' z h
  have := setAll_represents ht v
  exact ⟨this.1.isTensor ht, rfl, this.2⟩

/-! ### create_incremented_tensor -/

theorem incremented_loop [AddMonoid R] (unit : R) (xs : List (List Nat)) (hn : xs.Nodup) (k : Nat) {t : Strided R}
    (h : t.IsTensor) {f : List Nat → R} (hf : t.Represents f) (hb : ∀ x ∈ xs, InBox x t.dims) :
    ∃ t', xs.foldlM (fun (s : Strided R × R) idx => do
        let a ← s.1.write (toIdx idx) s.2
        return (a, s.2 + unit)) (t, k • unit) = Outcome.ok (t', (k + xs.length) • unit) ∧ t'.IsTensor ∧ t'.dims = t.dims ∧
      ∃ f', t'.Represents f' ∧ (∀ (p : Nat) (hp : p < xs.length), f' xs[p] = (k + p) • unit) ∧ ∀ i, i ∉ xs → f' i = f i := by
  induction xs generalizing t f k with
  | nil => exact ⟨t, by simp, h, rfl, f, hf, by simp, fun _ _ => rfl⟩
  | cons x xs ih =>
    obtain ⟨t1, h1, fr, r1⟩ := write_represents h.wf hf (hb x (by simp)) (k • unit)
    rw [List.nodup_cons] at hn
    obtain ⟨t2, h2, h3, h4, f', h5, h6, h7⟩ := ih hn.2 (k + 1) (fr.isTensor h) r1 (by
      intro y hy; rw [fr.dims]; exact hb y (by simp [hy]))
    refine ⟨t2, ?_, h3, h4.trans fr.dims, f', h5, ?_, ?_⟩
    · rw [List.foldlM_cons]
      simp only [h1, Outcome.ok_bind, pure_bind, ← succ_nsmul]
      rw [h2, List.length_cons]
      congr 3; omega
    · intro p hp
      match p with
      | 0 => simp only [List.getElem_cons_zero]; rw [h7 _ hn.1]; simp
      | p + 1 =>
        simp only [List.getElem_cons_succ]
        rw [h6 p (by simpa using hp)]
        congr 1; omega
    · intro i hi
      rw [List.mem_cons, not_or] at hi
      rw [h7 i hi.2, if_neg hi.1]

theorem incremented_eq [AddMonoid R] (unit : R) (z : Nat → R) {dims : List Nat} (hd : dims ≠ []) :
    ∃ t, incremented unit z dims = .ok t ∧ t.IsTensor ∧ t.dims = dims ∧
      t.Represents fun i => rowMajor i dims • unit := by
  have ht := isTensor_mk' z hd
  have : Inhabited R := ⟨0⟩
  obtain ⟨f, hf⟩ := exists_represents ht.wf
  obtain ⟨t, h1, h2, h3, f', h4, h5, _⟩ := incremented_loop unit (box dims) (nodup_box dims) 0 ht hf
    (fun x hx => mem_box.1 hx)
  refine ⟨t, ?_, h2, h3, ?_⟩
  · unfold incremented
    rw [cartesian_eq_box]
    simp only [zero_nsmul] at h1
    rw [h1]; rfl
  · intro i hi
    have hi' : InBox i dims := by rw [h3] at hi; exact hi
    rw [h4 i hi]
    have hl : rowMajor i dims < (box dims).length := by rw [length_box]; exact rowMajor_lt hi'
    have := h5 _ hl
    have hg := getElem_box_rowMajor hi'
    rw [List.getElem?_eq_getElem hl] at hg
    rw [Option.some.inj hg] at this
    rw [this, Nat.zero_add]

/-! ### diagonals -/

theorem diagonalOf_eq [Zero R] (z : Nat → R) {v : Strided R} {n : Nat} (hn : v.dims = [n])
    {f : List Nat → R} (hf : v.Represents f) {a b : Nat} (ha : n ≤ a) (hb : n ≤ b) :
    ∃ t, diagonalOf z v [a, b] = .ok t ∧ t.IsTensor ∧ t.dims = [a, b] ∧
      ∀ i j, i < a → j < b → t.read (toIdx [i, j]) = .ok (if i = j ∧ i < n then f [i] else 0) := by
  obtain ⟨s1, s2, s3⟩ := setAll_mk' z (dims := [a, b]) (by simp) (0 : R)
  obtain ⟨t, h1, h2, h3, f', h4, h5, h6⟩ := writeLoop (fun i => [i, i]) (fun i => f [i]) (List.range n) (by
    refine List.nodup_range.map ?_
    intro x y h; simpa using h) s1 s3 (by
    intro x hx
    have := List.mem_range.1 hx
    rw [s2]
    exact ⟨by omega, by omega, trivial⟩)
  rw [s2] at h3
  refine ⟨t, ?_, h2, h3, ?_⟩
  · unfold diagonalOf
    rw [hn, ← h1]
    simp only [List.headD_cons]
    have key : ∀ (xs : List Nat), (∀ x ∈ xs, x < n) → ∀ (u : Strided R),
        xs.foldlM (fun r (i : Nat) => do
          let x ← v.read [(i : Int)]
          r.write [(i : Int), (i : Int)] x) u = xs.foldlM (fun t x => t.write (toIdx [x, x]) (f [x])) u := by
      intro xs
      induction xs with
      | nil => intro _ _; rfl
      | cons x xs ih =>
        intro hx u
        have hr : v.read [(x : Int)] = .ok (f [x]) := hf [x] (by rw [hn]; exact ⟨hx x (by simp), trivial⟩)
        rw [List.foldlM_cons, List.foldlM_cons, hr]
        simp only [Outcome.ok_bind]
        congr 1
        funext w
        exact ih (fun y hy => hx y (by simp [hy])) w
    exact key _ (fun x hx => List.mem_range.1 hx) _
  · intro i j hi hj
    rw [h4 [i, j] (by rw [h3]; exact ⟨hi, hj, trivial⟩)]
    by_cases e : i = j ∧ i < n
    · obtain ⟨rfl, h⟩ := e
      rw [h5 i (List.mem_range.2 h), if_pos ⟨rfl, h⟩]
    · rw [if_neg e, h6]
      simp only [List.mem_map, List.mem_range, not_exists, not_and]
      intro x hx he
      simp at he
      omega

/-! ### identity -/

/-- One if all components are equal, else zero. -/
theorem allEq_iff {i : List Nat} : (∀ x ∈ i, ∀ y ∈ i, x = y) ↔ i = List.replicate i.length (i.headD 0) := by
  cases i with
  | nil => simp
  | cons a l =>
    rw [List.eq_replicate_iff]
    simp only [List.headD_cons]
    constructor
    · intro h
      exact ⟨trivial, fun b hb => h b hb a (by simp)⟩
    · rintro ⟨_, h⟩ x hx y hy
      rw [h x hx, h y hy]

theorem toIdx_replicate (r d : Nat) : List.replicate r (d : Int) = toIdx (List.replicate r d) := by
  simp [toIdx]

theorem identity_ok [Zero R] [One R] (z : Nat → R) {dims : List Nat} (hd : dims ≠ []) (hle : ∀ d ∈ dims, dims.headD 0 ≤ d) :
    ∃ t, identityTensor z dims = .ok t ∧ t.IsTensor ∧ t.dims = dims ∧
      t.Represents fun i => if ∀ x ∈ i, ∀ y ∈ i, x = y then 1 else 0 := by
  obtain ⟨s1, s2, s3⟩ := setAll_mk' z hd (0 : R)
  have hpos : 0 < dims.length := List.length_pos_iff.2 hd
  obtain ⟨t, h1, h2, h3, f', h4, h5, h6⟩ := writeLoop (fun d => List.replicate dims.length d) (fun _ => (1 : R))
    (List.range (dims.headD 0)) (by
    refine List.nodup_range.map ?_
    intro x y h
    have := congrArg (fun l => l.headD 0) h
    obtain ⟨m, hm⟩ : ∃ m, dims.length = m + 1 := ⟨dims.length - 1, by omega⟩
    simpa [hm, List.replicate_succ] using this) s1 s3 (by
    intro x hx
    have := List.mem_range.1 hx
    rw [s2, InBox_iff_getElem]
    refine ⟨by simp, ?_⟩
    intro k h1 h2
    have := hle dims[k] (List.getElem_mem h2)
    simp only [List.getElem_replicate]
    omega)
  rw [s2] at h3
  refine ⟨t, ?_, h2, h3, ?_⟩
  · unfold identityTensor
    rw [← h1]
    exact congrArg (fun g => List.foldlM g _ _) (by funext A d; rw [toIdx_replicate])
  · intro i hi
    rw [h4 i hi]
    beta_reduce
    rw [h3] at hi
    have hl := hi.length
    by_cases e : ∀ x ∈ i, ∀ y ∈ i, x = y
    · rw [if_pos e]
      have e' := allEq_iff.1 e
      rw [e', hl, h5]
      match dims, i, hi, hd with
      | d :: ds, a :: l, hi, _ => exact List.mem_range.2 hi.1
    · rw [if_neg e, h6]
      intro hm
      obtain ⟨d, _, rfl⟩ := List.mem_map.1 hm
      apply e
      intro x hx y hy
      rw [List.eq_of_mem_replicate hx, List.eq_of_mem_replicate hy]

theorem innerProduct_replicate (d : Nat) (ss : List Nat) :
    innerProduct (List.replicate ss.length (d : Int)) ss = (d * ss.sum : Nat) := by
  induction ss with
  | nil => rfl
  | cons s ss ih =>
    rw [List.length_cons, List.replicate_succ, innerProduct, ih, List.sum_cons]
    push_cast
    ring

theorem normIdx_toIdx (ds : List Nat) (is : List Nat) : normIdx ds (toIdx is) = toIdx is := by
  induction is generalizing ds with
  | nil => cases ds <;> rfl
  | cons i is ih =>
    cases ds with
    | nil => rfl
    | cons d ds =>
      change (if ((i : Nat) : Int) < 0 then _ else _) :: normIdx ds (toIdx is) = _
      rw [if_neg (by omega), ih]
      rfl

theorem dot_replicate (d : Nat) (ss : List Nat) : dot (List.replicate ss.length d) ss = d * ss.sum := by
  induction ss with
  | nil => rfl
  | cons s ss ih =>
    rw [List.length_cons, List.replicate_succ, dot, ih, List.sum_cons, Nat.mul_add]

/-- A write at equal indices, in range or not. -/
theorem write_diag {t : Strided R} (h : t.IsTensor) (d : Nat) (v : R) :
    t.write (List.replicate t.dims.length (d : Int)) v =
      if d * t.strides.sum < t.data.length then .ok { t with data := t.data.set (d * t.strides.sum) v }
      else .ub "access outside the storage" := by
  have hl : t.strides.length = t.dims.length := h.wf.len
  unfold Strided.write Strided.addr
  rw [if_neg (by simp), toIdx_replicate, normIdx_toIdx, ← toIdx_replicate, ← hl, innerProduct_replicate, h.off]
  by_cases hc : d * t.strides.sum < t.data.length
  · rw [if_pos ⟨by positivity, by push_cast at *; omega⟩, if_pos hc]
    simp
    rw [show ((d : Int) * (t.strides.sum : Int)).toNat = d * t.strides.sum by
      rw [← Nat.cast_mul, Int.toNat_natCast]]
  · rw [if_neg (by push_cast at *; omega), if_neg hc]
    rfl

theorem diag_loop {t t' : Strided R} (h : t.IsTensor) (v : R) {n : Nat}
    (he : (List.range n).foldlM (fun (A : Strided R) (d : Nat) => A.write (List.replicate t.dims.length (d : Int)) v) t = .ok t') :
    t'.IsTensor ∧ t'.dims = t.dims ∧ ∀ d, d < n → t'.data[d * t.strides.sum]? = some v := by
  induction n generalizing t' with
  | zero =>
    simp at he
    subst he
    exact ⟨h, rfl, by simp⟩
  | succ n ih =>
    rw [List.range_succ, List.foldlM_append] at he
    match hm : (List.range n).foldlM (fun (A : Strided R) (d : Nat) => A.write (List.replicate t.dims.length (d : Int)) v) t with
    | .ok t1 =>
      rw [hm] at he
      obtain ⟨g1, g2, g3⟩ := ih hm
      simp only [Outcome.ok_bind, List.foldlM_cons, List.foldlM_nil, bind_pure] at he
      rw [← g2, write_diag g1] at he
      have hs : t1.strides.sum = t.strides.sum := by rw [g1.strides, h.strides, g2]
      by_cases hc : n * t1.strides.sum < t1.data.length
      · rw [if_pos hc] at he
        cases he
        refine ⟨⟨g1.off, g1.strides, by simpa using g1.length⟩, g2, ?_⟩
        intro d hd
        simp only [hs] at hc ⊢
        rw [List.getElem?_set]
        by_cases e : n * t.strides.sum = d * t.strides.sum
        · rw [if_pos e, if_pos hc]
        · rw [if_neg e]
          apply g3
          by_contra hcon
          have : d = n := by omega
          exact e (by rw [this])
      · rw [if_neg hc] at he; cases he
    | .error _ => rw [hm] at he; cases he
    | .ub _ => rw [hm] at he; cases he

theorem strides_sum_pos {dims : List Nat} (h : dims ≠ []) : 0 < (dimsToStrides dims).2.sum := by
  induction dims with
  | nil => exact absurd rfl h
  | cons d ds ih =>
    rw [dimsToStrides_snd_cons, List.sum_cons]
    by_cases hd : ds = []
    · subst hd; simp [numel]
    · have := ih hd; omega

theorem identity_exact [Zero R] [One R] (h01 : (1 : R) ≠ 0) (z : Nat → R) {dims : List Nat} (hd : dims ≠ []) {t : Strided R}
    (he : identityTensor z dims = .ok t)
    (hr : t.Represents fun i => if ∀ x ∈ i, ∀ y ∈ i, x = y then 1 else 0) :
    ∀ d ∈ dims, dims.headD 0 ≤ d := by
  intro m hm
  by_contra hlt
  rw [not_le] at hlt
  obtain ⟨s1, s2, s3⟩ := setAll_mk' z hd (0 : R)
  obtain ⟨g1, g2, g3⟩ := diag_loop s1 (1 : R) (n := dims.headD 0) (t' := t) (by rw [s2]; exact he)
  rw [s2] at g2
  have hpos := g3 m hlt
  have hS : ((Strided.mk' z dims).setAll 0).strides = (dimsToStrides dims).2 := by rw [s1.strides, s2]
  rw [hS] at hpos
  have hlt2 : m * (dimsToStrides dims).2.sum < numel dims := by
    have := (List.getElem?_eq_some_iff.1 hpos).1
    rwa [g1.length, g2] at this
  have hb := unflat_inBox hlt2
  have hrm := rowMajor_unflat hlt2
  have hread := hr (unflat dims (m * (dimsToStrides dims).2.sum)) (by rw [g2]; exact hb)
  have hget := rowMajor_get g1.rowMajor hr (i := unflat dims (m * (dimsToStrides dims).2.sum)) (by rw [g2]; exact hb)
  rw [g1.off, Nat.zero_add, g2, hrm, hpos] at hget
  have hone := Option.some.inj hget
  by_cases e : ∀ x ∈ unflat dims (m * (dimsToStrides dims).2.sum), ∀ y ∈ unflat dims (m * (dimsToStrides dims).2.sum), x = y
  · have e' := allEq_iff.1 e
    generalize unflat dims (m * (dimsToStrides dims).2.sum) = j at *
    have hjl := hb.length
    have hd2 : dot j (dimsToStrides dims).2 = rowMajor j dims := dot_strides_eq hjl
    rw [hrm, e', hjl, ← length_dimsToStrides dims, dot_replicate] at hd2
    have hem : j.headD 0 = m := Nat.eq_of_mul_eq_mul_right (strides_sum_pos hd) hd2
    obtain ⟨k, hk, hmk⟩ := List.getElem_of_mem hm
    have hin := (InBox_iff_getElem.1 hb).2 k (by omega) hk
    have hjk : j[k]'(by omega) = m := by
      rw [e j[k] (List.getElem_mem _) (j.headD 0) (by
        match j, hjl with
        | [], hjl => simp at hjl; omega
        | a :: l, _ => simp), hem]
    rw [hjk, hmk] at hin
    omega
  · rw [if_neg e] at hone
    exact h01 hone

/-! ### arange -/

theorem write_rank1 {data : List R} {n k : Nat} (hl : data.length = n) (v : R) :
    (Strided.mk data 0 [n] [1]).write [(k : Int)] v =
      if k < n then .ok ⟨data.set k v, 0, [n], [1]⟩ else .ub "access outside the storage" := by
  have h : (Strided.mk data 0 [n] [1]).IsTensor := ⟨rfl, rfl, by simp [numel, hl]⟩
  have := write_diag h k v
  simpa [hl] using this

theorem arangeLoop_eq {T : Type} {A : Arith T} {stop step : T} {n : Nat} (val : Nat → T)
    (hadd : ∀ k, k < n → A.add (val k) step = .ok (val (k + 1))) (hlt : ∀ k, k < n → A.lt (val k) stop = true)
    (m k : Nat) (hk : k + m = n) {data : List T} (hl : data.length = n) (hdata : ∀ j, j < k → data[j]? = some (val j)) :
    (A.lt (val n) stop = true → (arangeLoop A stop step (m + 1) (val k) k ⟨data, 0, [n], [1]⟩).isUb = true) ∧
    (A.lt (val n) stop = false → ∃ data', arangeLoop A stop step (m + 1) (val k) k ⟨data, 0, [n], [1]⟩ =
      .ok ⟨data', 0, [n], [1]⟩ ∧ data'.length = n ∧ ∀ j, j < n → data'[j]? = some (val j)) := by
  induction m generalizing k data with
  | zero =>
    have hkn : k = n := by omega
    subst hkn
    constructor
    · intro h
      unfold arangeLoop
      rw [if_pos h, write_rank1 hl, if_neg (by omega)]
      rfl
    · intro h
      refine ⟨data, ?_, hl, hdata⟩
      unfold arangeLoop
      rw [if_neg (by simp [h])]
  | succ m ih =>
    have hkn : k < n := by omega
    have step1 : arangeLoop A stop step (m + 1 + 1) (val k) k ⟨data, 0, [n], [1]⟩ =
        arangeLoop A stop step (m + 1) (val (k + 1)) (k + 1) ⟨data.set k (val k), 0, [n], [1]⟩ := by
      rw [arangeLoop, if_pos (hlt k hkn), write_rank1 hl, if_pos hkn]
      simp only [Outcome.ok_bind, hadd k hkn]
    rw [step1]
    refine ih (k + 1) (by omega) (by simpa using hl) ?_
    intro j hj
    rw [List.getElem?_set]
    by_cases e : k = j
    · subst e; rw [if_pos rfl, if_pos (by omega)]
    · rw [if_neg e]; exact hdata j (by omega)

theorem arange_eq {T : Type} [Zero T] {A : Arith T} {z : Nat → T} {start stop step diff : T} {n : Nat} (val : Nat → T)
    (h0 : val 0 = start) (hge : A.lt stop start = false) (hsub : A.sub stop start = .ok diff)
    (hq : A.quot diff step = .ok (n : Int))
    (hadd : ∀ k, k < n → A.add (val k) step = .ok (val (k + 1))) (hlt : ∀ k, k < n → A.lt (val k) stop = true) :
    (A.lt (val n) stop = true → (arange A z start stop step).isUb = true) ∧
    (A.lt (val n) stop = false → ∃ t, arange A z start stop step = .ok t ∧ t.IsTensor ∧ t.dims = [n] ∧
      t.Represents fun i => val (i.headD 0)) := by
  obtain ⟨s1, s2, _⟩ := setAll_mk' z (dims := [n]) (by simp) (0 : T)
  have hstr : ((Strided.mk' z [n]).setAll 0).strides = [1] := by rw [s1.strides, s2]; rfl
  have hlen : ((Strided.mk' z [n]).setAll 0).data.length = n := by rw [s1.length, s2]; simp [numel]
  have hst : (Strided.mk' z [n]).setAll 0 = ⟨((Strided.mk' z [n]).setAll 0).data, 0, [n], [1]⟩ := by
    rw [← hstr]; rfl
  have key := arangeLoop_eq val hadd hlt n 0 (by omega) hlen (by simp)
  rw [h0] at key
  have e : arange A z start stop step =
      arangeLoop A stop step (n + 1) start 0 ⟨((Strided.mk' z [n]).setAll 0).data, 0, [n], [1]⟩ := by
    unfold arange
    rw [if_neg (by simp [hge]), hsub]
    simp only [Outcome.ok_bind, hq]
    rw [if_neg (by omega), Int.toNat_natCast, hst]
  rw [e]
  refine ⟨key.1, fun h => ?_⟩
  obtain ⟨data, k1, k2, k3⟩ := key.2 h
  have ht : (Strided.mk data 0 [n] [1]).IsTensor := ⟨rfl, rfl, by simp [numel, k2]⟩
  refine ⟨_, k1, ht, rfl, ?_⟩
  refine (represents_iff ht.wf).2 ?_
  intro i hi
  match i, hi with
  | [j], hi => simpa [dot] using k3 j hi.1

end
end Einsums
