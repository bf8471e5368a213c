import Verif.Model.Decomposition
import Verif.Proofs.Utilities
import Verif.Spec.Decomposition
import Mathlib.Algebra.BigOperators.Group.List.Lemmas
import Mathlib.Algebra.BigOperators.Ring.List
/-
Proofs about the reconstructions.
-/
namespace Einsums
open Spec Model

section
variable {R : Type}

/-! ### Sums over lists -/

theorem sum_single {β : Type} [DecidableEq β] [AddCommMonoid R] {l : List β} (hn : l.Nodup) {j : β} (hj : j ∈ l) (g : β → R) :
    (l.map fun s => if s = j then g s else 0).sum = g j := by
  induction l with
  | nil => cases hj
  | cons a l ih =>
    rw [List.nodup_cons] at hn
    rw [List.map_cons, List.sum_cons]
    by_cases e : a = j
    · subst e
      have : (l.map fun s => if s = a then g s else 0).sum = 0 := by
        apply List.sum_eq_zero
        intro x hx
        obtain ⟨s, hs, rfl⟩ := List.mem_map.1 hx
        rw [if_neg (fun e : s = a => hn.1 (e ▸ hs))]
      rw [this, if_pos rfl, add_zero]
    · rw [if_neg e, zero_add, ih hn.2]
      exact (List.mem_cons.1 hj).resolve_left (fun h => e h.symm)

theorem sum_none {β : Type} [AddCommMonoid R] {l : List β} {p : β → Prop} [DecidablePred p] (h : ∀ s ∈ l, ¬ p s) (g : β → R) :
    (l.map fun s => if p s then g s else 0).sum = 0 := by
  apply List.sum_eq_zero
  intro x hx
  obtain ⟨s, hs, rfl⟩ := List.mem_map.1 hx
  rw [if_neg (h s hs)]

theorem sum_filter_ite {β : Type} [AddCommMonoid R] (l : List β) (p : β → Prop) [DecidablePred p] (g : β → R) :
    (l.map fun s => if p s then g s else 0).sum = ((l.filter fun s => decide (p s)).map g).sum := by
  induction l with
  | nil => rfl
  | cons a l ih =>
    rw [List.map_cons, List.sum_cons, ih, List.filter_cons]
    by_cases e : p a
    · rw [if_pos e, if_pos (by simpa using e), List.map_cons, List.sum_cons]
    · rw [if_neg e, if_neg (by simpa using e), zero_add]

theorem sum_flatMap_pairs {β γ : Type} [AddCommMonoid R] (l : List β) (g : β → List γ) (h : β × γ → R) :
    ((l.flatMap fun s => (g s).map fun c => (s, c)).map h).sum = (l.map fun s => ((g s).map fun c => h (s, c)).sum).sum := by
  induction l with
  | nil => rfl
  | cons a l ih =>
    rw [List.flatMap_cons, List.map_append, List.sum_append, ih, List.map_cons, List.sum_cons, List.map_map]
    rfl

theorem sum_list_comm {β γ : Type} [AddCommMonoid R] (l : List β) (k : List γ) (h : β → γ → R) :
    (l.map fun s => (k.map fun c => h s c).sum).sum = (k.map fun c => (l.map fun s => h s c).sum).sum := by
  induction l with
  | nil => simp
  | cons a l ih =>
    simp only [List.map_cons, List.sum_cons, ih]
    rw [← List.sum_map_add]

theorem sum_congr_list {β : Type} [AddCommMonoid R] {l : List β} {f g : β → R} (h : ∀ x ∈ l, f x = g x) :
    (l.map f).sum = (l.map g).sum := by
  rw [List.map_congr_left h]

theorem foldlM_flatMap {β γ σ : Type} (l : List β) (g : β → List γ) (h : σ → β → γ → Outcome σ) (t : σ) :
    l.foldlM (fun t s => (g s).foldlM (fun t c => h t s c) t) t =
      (l.flatMap fun s => (g s).map fun c => (s, c)).foldlM (fun t p => h t p.1 p.2) t := by
  induction l generalizing t with
  | nil => rfl
  | cons a l ih =>
    rw [List.foldlM_cons, List.flatMap_cons, List.foldlM_append, List.foldlM_map]
    congr 1
    funext u
    exact ih u

theorem foldlM_congr_mem {β σ : Type} {l : List β} {f g : σ → β → Outcome σ} (h : ∀ a x, x ∈ l → f a x = g a x) (a : σ) :
    l.foldlM f a = l.foldlM g a := by
  induction l generalizing a with
  | nil => rfl
  | cons x l ih =>
    rw [List.foldlM_cons, List.foldlM_cons, h a x (by simp)]
    congr 1
    funext b
    exact ih (fun a y hy => h a y (by simp [hy])) b

/-! ### Accumulating at computed places -/

theorem scatter {β : Type} [AddCommMonoid R] (idx : β → List Nat) (val : β → R)
    (step : Strided R → β → Outcome (Strided R)) (xs : List β) {t : Strided R} (w : t.WF) {f : List Nat → R}
    (hf : t.Represents f) (hb : ∀ x ∈ xs, InBox (idx x) t.dims)
    (hstep : ∀ (t' : Strided R) f' x, x ∈ xs → t'.dims = t.dims → t'.Represents f' →
      step t' x = t'.write (toIdx (idx x)) (f' (idx x) + val x)) :
    ∃ t', xs.foldlM step t = .ok t' ∧ t.Frame t' ∧
      t'.Represents fun j => f j + (xs.map fun x => if idx x = j then val x else 0).sum := by
  induction xs generalizing t f with
  | nil => exact ⟨t, rfl, Strided.Frame.refl _, by simpa using hf⟩
  | cons x xs ih =>
    obtain ⟨t1, h1, fr1, r1⟩ := write_represents w hf (hb x (by simp)) (f (idx x) + val x)
    obtain ⟨t2, h2, fr2, r2⟩ := ih (fr1.wf w) r1 (fun y hy => by rw [fr1.dims]; exact hb y (by simp [hy]))
      (fun t' f' y hy hd hr => hstep t' f' y (by simp [hy]) (hd.trans fr1.dims) hr)
    refine ⟨t2, ?_, fr1.trans fr2, ?_⟩
    · rw [List.foldlM_cons, hstep t f x (by simp) rfl hf, h1]
      exact h2
    · intro j hj
      rw [r2 j hj]
      simp only [List.map_cons, List.sum_cons]
      congr 1
      by_cases e : idx x = j
      · subst e
        rw [if_pos rfl, if_pos rfl, add_assoc]
      · rw [if_neg (fun h => e h.symm), if_neg e, zero_add]

/-! ### parafac_reconstruct -/

theorem foldlM_prod {β : Type} [Monoid R] (g : β → Outcome R) (v : β → R) (l : List β) (h : ∀ x ∈ l, g x = .ok (v x)) (a : R) :
    l.foldlM (fun temp x => do
      let y ← g x
      return temp * y) a = Outcome.ok (a * (l.map v).prod) := by
  induction l generalizing a with
  | nil => simp
  | cons x l ih =>
    rw [List.foldlM_cons, h x (by simp)]
    simp only [Outcome.ok_bind, pure_bind]
    rw [ih (fun y hy => h y (by simp [hy])), List.map_cons, List.prod_cons, mul_assoc]

theorem cpTerm_eq [CommSemiring R] {factors : List (Strided R)} {F : Nat → Nat → Nat → R} {rank : Nat} {dims : List Nat}
    (hl : factors.length = dims.length)
    (hF : ∀ (n : Nat) (f : Strided R) d, factors[n]? = some f → dims[n]? = some d → f.dims = [d, rank] ∧
      f.Represents fun i => F n (i.getD 0 0) (i.getD 1 0))
    {idx : List Nat} (hi : InBox idx dims) {r : Nat} (hr : r < rank) :
    cpTerm factors idx r = .ok ((List.range dims.length).map fun n => F n (idx.getD n 0) r).prod := by
  unfold cpTerm
  have key := foldlM_prod (R := R) (fun n => do
    let f ← factorAt factors n
    f.read [((idx.getD n 0 : Nat) : Int), (r : Int)]) (fun n => F n (idx.getD n 0) r) (List.range factors.length) (by
    intro n hn
    have hn := List.mem_range.1 hn
    have hnd : n < dims.length := by omega
    have hni : n < idx.length := by rw [hi.length]; exact hnd
    obtain ⟨h1, h2⟩ := hF n factors[n] dims[n] (List.getElem?_eq_getElem hn) (List.getElem?_eq_getElem hnd)
    have hb := (InBox_iff_getElem.1 hi).2 n hni hnd
    have hg : idx.getD n 0 = idx[n] := by simp [List.getD_eq_getElem?_getD, hni]
    have := h2 [idx[n], r] (by rw [h1]; exact ⟨hb, hr, trivial⟩)
    simp only [factorAt, List.getElem?_eq_getElem hn, Outcome.ok_bind, hg]
    simpa [toIdx] using this) 1
  rw [one_mul, hl] at key
  rw [hl]
  rw [← key]
  simp only [bind_assoc]

theorem cpRank_eq {factors : List (Strided R)} {rank : Nat} (h0 : factors ≠ []) (h : ∀ f ∈ factors, f.dim 1 = rank) :
    cpRank factors = rank := by
  unfold cpRank
  have key : ∀ (l : List (Strided R)), (∀ f ∈ l, f.dim 1 = rank) →
      ∀ a, (a = rank ∨ a = 0 ∧ l ≠ []) → l.foldl (fun rank f => if rank = 0 then f.dim 1 else rank) a = rank := by
    intro l
    induction l with
    | nil =>
      rintro _ a (h | h)
      · exact h
      · exact absurd rfl h.2
    | cons f l ih =>
      intro hl a ha
      rw [List.foldl_cons]
      apply ih (fun g hg => hl g (by simp [hg]))
      left
      have := hl f (by simp)
      rcases ha with rfl | ⟨rfl, _⟩
      · split
        · exact this
        · rfl
      · rw [if_pos rfl, this]
  exact key factors h 0 (.inr ⟨rfl, h0⟩)

theorem parafac_eq [CommSemiring R] (z : Nat → R) {factors : List (Strided R)} {F : Nat → Nat → Nat → R} {rank : Nat}
    {dims : List Nat} (h0 : dims ≠ []) (hl : factors.length = dims.length)
    (hF : ∀ (n : Nat) (f : Strided R) d, factors[n]? = some f → dims[n]? = some d → f.dims = [d, rank] ∧
      f.Represents fun i => F n (i.getD 0 0) (i.getD 1 0))
    {sched : List (List Nat)} (hs : sched.Perm (box dims)) :
    ∃ t, parafacReconstruct z dims.length factors sched = .ok t ∧ t.IsTensor ∧ t.dims = dims ∧
      t.Represents fun i => sumTo rank fun r => ((List.range dims.length).map fun n => F n (i.getD n 0) r).prod := by
  have hdims : factors.map (·.dim 0) = dims := by
    apply List.ext_getElem (by simpa using hl)
    intro n h1 h2
    have h1' : n < factors.length := by simpa using h1
    have := (hF n factors[n] dims[n] (List.getElem?_eq_getElem h1') (List.getElem?_eq_getElem h2)).1
    simp [Strided.dim, this]
  have hne : factors ≠ [] := by
    intro e; subst e
    exact h0 (List.length_eq_zero_iff.1 hl.symm)
  have hrank : cpRank factors = rank := by
    apply cpRank_eq hne
    intro f hf
    obtain ⟨n, h1, rfl⟩ := List.getElem_of_mem hf
    have := (hF n factors[n] dims[n] (List.getElem?_eq_getElem h1) (List.getElem?_eq_getElem (by omega))).1
    simp [Strided.dim, this]
  obtain ⟨s1, s2, s3⟩ := setAll_mk' z h0 (0 : R)
  obtain ⟨t, h1, fr, r1⟩ := scatter (fun p : List Nat × Nat => p.1)
    (fun p => ((List.range dims.length).map fun n => F n (p.1.getD n 0) p.2).prod)
    (fun t p => do
      let temp ← cpTerm factors p.1 p.2
      let old ← t.read (toIdx p.1)
      t.write (toIdx p.1) (old + temp))
    (sched.flatMap fun s => (List.range rank).map fun c => (s, c)) s1.wf s3
    (by
      intro x hx
      obtain ⟨s, hs1, hx⟩ := List.mem_flatMap.1 hx
      obtain ⟨c, _, rfl⟩ := List.mem_map.1 hx
      rw [s2]
      exact mem_box.1 (hs.mem_iff.1 hs1))
    (by
      intro t' f' x hx hd hr
      obtain ⟨s, hs1, hx⟩ := List.mem_flatMap.1 hx
      obtain ⟨c, hc, rfl⟩ := List.mem_map.1 hx
      have hin := mem_box.1 (hs.mem_iff.1 hs1)
      simp only
      rw [cpTerm_eq hl hF hin (List.mem_range.1 hc), hr s (by rw [hd, s2]; exact hin)]
      rfl)
  refine ⟨t, ?_, fr.isTensor s1, fr.dims.trans s2, ?_⟩
  · unfold parafacReconstruct
    rw [if_neg (by omega), if_neg (by omega), hdims, hrank, ← h1]
    unfold parafacStep
    exact foldlM_flatMap sched (fun _ => List.range rank) (fun (t : Strided R) s c => do
      let temp ← cpTerm factors s c
      let old ← t.read (toIdx s)
      t.write (toIdx s) (old + temp)) _
  · intro j hj
    rw [r1 j hj]
    have hjb : InBox j dims := by rw [fr.dims, s2] at hj; exact hj
    beta_reduce
    rw [zero_add, sum_flatMap_pairs]
    have : (sched.map fun s => ((List.range rank).map fun c =>
        if s = j then ((List.range dims.length).map fun n => F n (s.getD n 0) c).prod else 0).sum).sum
        = (sched.map fun s => if s = j then ((List.range rank).map fun c =>
          ((List.range dims.length).map fun n => F n (s.getD n 0) c).prod).sum else 0).sum := by
      apply sum_congr_list
      intro s _
      by_cases e : s = j
      · simp only [if_pos e]
      · simp only [if_neg e]
        simp
    rw [this, sum_single (hs.nodup_iff.2 (nodup_box _)) (hs.mem_iff.2 (mem_box.2 hjb))]
    rfl

/-! ### mode products -/

theorem inBox_set {s D : List Nat} (h : InBox s D) {i m n : Nat} (hn : n < m) : InBox (s.set i n) (D.set i m) := by
  rw [InBox_iff_getElem] at h ⊢
  refine ⟨by simpa using h.1, ?_⟩
  intro k h1 h2
  rw [List.length_set] at h1 h2
  rw [List.getElem_set, List.getElem_set]
  by_cases e : i = k
  · rw [if_pos e, if_pos e]; exact hn
  · rw [if_neg e, if_neg e]; exact h.2 k h1 h2

theorem inBox_unset {j D : List Nat} {i m : Nat} (h : InBox j (D.set i m)) {c : Nat} (hi : i < D.length) (hc : c < D[i]) :
    InBox (j.set i c) D := by
  have := inBox_set (i := i) h hc
  rw [List.set_set] at this
  rwa [List.set_getElem_self] at this

/-- The source elements that contribute to the target element `j`. -/
theorem mode_sources {D j : List Nat} {i m : Nat} (hi : i < D.length) (hj : InBox j (D.set i m)) :
    ((box D).filter fun s => decide (s.set i (j.getD i 0) = j)).Perm ((List.range D[i]).map fun c => j.set i c) := by
  have hjl : j.length = D.length := by simpa using hj.length
  have hij : i < j.length := by omega
  rw [List.perm_ext_iff_of_nodup]
  · intro s
    rw [List.mem_filter, mem_box, List.mem_map]
    constructor
    · rintro ⟨h1, h2⟩
      simp only [decide_eq_true_eq] at h2
      have hsl : s.length = D.length := h1.length
      have his : i < s.length := by omega
      refine ⟨s[i], List.mem_range.2 ((InBox_iff_getElem.1 h1).2 i his hi), ?_⟩
      rw [← h2, List.set_set, List.set_getElem_self]
    · rintro ⟨c, hc, rfl⟩
      refine ⟨inBox_unset hj hi (List.mem_range.1 hc), ?_⟩
      simp only [decide_eq_true_eq, List.set_set]
      rw [List.getD_eq_getElem?_getD, List.getElem?_eq_getElem hij, Option.getD_some, List.set_getElem_self]
  · exact (nodup_box D).filter _
  · refine List.nodup_range.map ?_
    intro a b h
    have := congrArg (fun l => l[i]?) h
    simpa [hij] using this

theorem modeProduct_eq [CommSemiring R] (z : Nat → R) {i m : Nat} {coef : Nat → Nat → Outcome R} {C : Nat → Nat → R}
    {old : Strided R} (hi : i < old.dims.length) {f : List Nat → R} (hf : old.Represents f)
    (hc : ∀ n s, n < m → s < old.dims[i] → coef n s = .ok (C n s)) :
    ∃ t, modeProduct z i m coef old = .ok t ∧ t.IsTensor ∧ t.dims = old.dims.set i m ∧
      t.Represents fun j => sumTo old.dims[i] fun c => f (j.set i c) * C (j.getD i 0) c := by
  have h0 : old.dims.set i m ≠ [] := by
    intro e
    have := congrArg List.length e
    rw [List.length_set, List.length_nil] at this
    omega
  obtain ⟨s1, s2, s3⟩ := setAll_mk' z h0 (0 : R)
  have hgd : ∀ {s : List Nat}, InBox s old.dims → s.getD i 0 < old.dims[i] := by
    intro s hs
    have hsl := hs.length
    have := (InBox_iff_getElem.1 hs).2 i (by omega) hi
    rwa [List.getD_eq_getElem?_getD, List.getElem?_eq_getElem (by omega), Option.getD_some]
  obtain ⟨t, h1, fr, r1⟩ := scatter (fun p : List Nat × Nat => p.1.set i p.2)
    (fun p => f p.1 * C p.2 (p.1.getD i 0))
    (fun t p => do
      let x ← old.read (toIdx p.1)
      let y ← t.read (toIdx (p.1.set i p.2))
      let c ← coef p.2 (p.1.getD i 0)
      t.write (toIdx (p.1.set i p.2)) (y + x * c))
    ((box old.dims).flatMap fun s => (List.range m).map fun c => (s, c)) s1.wf s3
    (by
      intro x hx
      obtain ⟨s, hs1, hx⟩ := List.mem_flatMap.1 hx
      obtain ⟨c, hc', rfl⟩ := List.mem_map.1 hx
      rw [s2]
      exact inBox_set (mem_box.1 hs1) (List.mem_range.1 hc'))
    (by
      intro t' f' x hx hd hr
      obtain ⟨s, hs1, hx⟩ := List.mem_flatMap.1 hx
      obtain ⟨c, hc', rfl⟩ := List.mem_map.1 hx
      have hin := mem_box.1 hs1
      simp only
      rw [hf s hin, hr (s.set i c) (by rw [hd, s2]; exact inBox_set hin (List.mem_range.1 hc')),
        hc c _ (List.mem_range.1 hc') (hgd hin)]
      rfl)
  refine ⟨t, ?_, fr.isTensor s1, fr.dims.trans s2, ?_⟩
  · unfold modeProduct
    rw [cartesian_eq_box, ← h1]
    exact foldlM_flatMap (box old.dims) (fun _ => List.range m) (fun (t : Strided R) s n => do
      let x ← old.read (toIdx s)
      let y ← t.read (toIdx (s.set i n))
      let c ← coef n (s.getD i 0)
      t.write (toIdx (s.set i n)) (y + x * c)) _
  · intro j hj
    rw [r1 j hj]
    have hjb : InBox j (old.dims.set i m) := by rw [fr.dims, s2] at hj; exact hj
    have hjl : j.length = old.dims.length := by simpa using hjb.length
    have hji : j.getD i 0 = j[i]'(by omega) := by
      rw [List.getD_eq_getElem?_getD, List.getElem?_eq_getElem (by omega), Option.getD_some]
    have hjm : j.getD i 0 < m := by
      have := (InBox_iff_getElem.1 hjb).2 i (by omega) (by simpa using hi)
      rw [hji]
      simpa using this
    beta_reduce
    rw [zero_add, sum_flatMap_pairs]
    have : ((box old.dims).map fun s => ((List.range m).map fun c =>
        if s.set i c = j then f s * C c (s.getD i 0) else 0).sum).sum
        = ((box old.dims).map fun s => if s.set i (j.getD i 0) = j then f s * C (j.getD i 0) (s.getD i 0) else 0).sum := by
      apply sum_congr_list
      intro s hs
      have hsl := (mem_box.1 hs).length
      by_cases e : s.set i (j.getD i 0) = j
      · rw [if_pos e]
        have : ((List.range m).map fun c => if s.set i c = j then f s * C c (s.getD i 0) else 0)
            = (List.range m).map fun c => if c = j.getD i 0 then f s * C c (s.getD i 0) else 0 := by
          apply List.map_congr_left
          intro c _
          congr 1
          rw [eq_iff_iff]
          constructor
          · intro h
            rw [← h]
            simp [List.getD_eq_getElem?_getD, hsl, hi]
          · rintro rfl; exact e
        rw [this, sum_single List.nodup_range (List.mem_range.2 hjm)]
      · rw [if_neg e]
        apply List.sum_eq_zero
        intro x hx
        obtain ⟨c, _, rfl⟩ := List.mem_map.1 hx
        rw [if_neg]
        intro h
        apply e
        rw [← h]
        simp [List.getD_eq_getElem?_getD, hsl, hi]
    rw [this, sum_filter_ite, ((mode_sources hi hjb).map _).sum_eq, List.map_map]
    unfold sumTo
    congr 1
    apply sum_congr_list
    intro c _
    simp [List.getD_eq_getElem?_getD, hjl, hi]

/-! ### Tucker -/

theorem sum_box_snoc [AddCommMonoid R] (a : List Nat) (d : Nat) (g : List Nat → R) :
    ((box (a ++ [d])).map g).sum = ((box a).map fun k => ((List.range d).map fun c => g (k ++ [c])).sum).sum := by
  induction a generalizing g with
  | nil =>
    simp only [List.nil_append, box, List.map_cons, List.map_nil, List.sum_cons, List.sum_nil, add_zero]
    rw [List.flatMap_def, List.map_flatten, List.map_map]
    induction List.range d with
    | nil => rfl
    | cons x l ih =>
      simp only [List.map_cons, List.sum_cons, List.flatten_cons, List.sum_append, ih]
      simp
  | cons e a ih =>
    simp only [List.cons_append, box]
    rw [List.map_flatMap, List.map_flatMap, List.flatMap_def, List.sum_flatten, List.flatMap_def, List.sum_flatten,
      List.map_map, List.map_map]
    apply sum_congr_list
    intro x _
    simp only [Function.comp_apply]
    rw [List.map_map, List.map_map, ih]
    rfl

theorem prod_getD_take [CommSemiring R] (C : Nat → Nat → Nat → R) {i : Nat} {j j' k k' : List Nat}
    (hj : ∀ m, m < i → j.getD m 0 = j'.getD m 0) (hk : ∀ m, m < i → k.getD m 0 = k'.getD m 0) :
    ((List.range i).map fun m => C m (j.getD m 0) (k.getD m 0)).prod
      = ((List.range i).map fun m => C m (j'.getD m 0) (k'.getD m 0)).prod := by
  congr 1
  apply List.map_congr_left
  intro m hm
  rw [hj m (List.mem_range.1 hm), hk m (List.mem_range.1 hm)]

/-- The loop over the axes: after `i` steps the first `i` axes have been multiplied. -/
theorem mode_loop [CommSemiring R] (z : Nat → Nat → R) {D M : List Nat} (hM : M.length = D.length)
    {step : Strided R → Nat → Outcome (Strided R)} {C : Nat → Nat → Nat → R} {f : List Nat → R}
    (hstep : ∀ (i : Nat) (h : i < D.length), ∃ coef : Nat → Nat → Outcome R,
      (∀ old : Strided R, step old i = modeProduct (z i) i (M[i]'(by omega)) coef old) ∧
      ∀ n s, n < M[i]'(by omega) → s < D[i] → coef n s = .ok (C i n s))
    {t : Strided R} (ht : t.IsTensor) (hd : t.dims = D) (hf : t.Represents f) (i : Nat) (hi : i ≤ D.length) :
    ∃ t', (List.range i).foldlM step t = .ok t' ∧ t'.IsTensor ∧ t'.dims = M.take i ++ D.drop i ∧
      t'.Represents fun j => ((box (D.take i)).map fun k =>
        f (k ++ j.drop i) * ((List.range i).map fun m => C m (j.getD m 0) (k.getD m 0)).prod).sum := by
  induction i with
  | zero =>
    refine ⟨t, rfl, ht, by simpa using hd, ?_⟩
    simpa [box] using hf
  | succ i ih =>
    obtain ⟨t1, h1, i1, d1, r1⟩ := ih (by omega)
    have hi' : i < D.length := by omega
    have hiM : i < M.length := by omega
    obtain ⟨coef, hs, hc⟩ := hstep i hi'
    have hdi : i < t1.dims.length := by rw [d1]; simp; omega
    have hget : t1.dims[i] = D[i] := by
      simp only [d1]
      rw [List.getElem_append_right (by simp)]
      simp [Nat.min_eq_left (by omega : i ≤ M.length)]
    obtain ⟨t2, h2, i2, d2, r2⟩ := modeProduct_eq (z i) (m := M[i]) (coef := coef) (C := C i) hdi r1
      (fun n s hn hs' => hc n s hn (by rw [← hget]; exact hs'))
    have hdims : t2.dims = M.take (i + 1) ++ D.drop (i + 1) := by
      have hz : i - (M.take i).length = 0 := by rw [List.length_take]; omega
      rw [d2, d1, List.set_append_right _ _ (by simp), List.take_succ_eq_append_getElem hiM,
        List.drop_eq_getElem_cons hi', hz, List.append_assoc]
      rfl
    refine ⟨t2, ?_, i2, hdims, ?_⟩
    · rw [List.range_succ, List.foldlM_append, h1]
      simp only [Outcome.ok_bind, List.foldlM_cons, List.foldlM_nil, hs, h2]
      rfl
    · intro j hj
      rw [r2 j hj]
      have hjl : j.length = D.length := by
        rw [hj.length, hdims]; simp; omega
      beta_reduce
      rw [hget, List.take_succ_eq_append_getElem hi', sum_box_snoc]
      unfold sumTo
      have e : ∀ c, ((box (D.take i)).map fun k => f (k ++ (j.set i c).drop i) *
          ((List.range i).map fun m => C m ((j.set i c).getD m 0) (k.getD m 0)).prod).sum * C i (j.getD i 0) c
          = ((box (D.take i)).map fun k => f ((k ++ [c]) ++ j.drop (i + 1)) *
            ((List.range (i + 1)).map fun m => C m (j.getD m 0) ((k ++ [c]).getD m 0)).prod).sum := by
        intro c
        rw [← List.sum_map_mul_right]
        apply sum_congr_list
        intro k hk
        have hkl : k.length = i := by
          rw [(mem_box.1 hk).length]; simp; omega
        rw [List.range_succ, List.map_append, List.prod_append, ← mul_assoc]
        congr 1
        · congr 1
          · congr 1
            rw [List.drop_eq_getElem_cons (by simp; omega)]
            simp [List.drop_set]
          · apply prod_getD_take
            · intro m hm
              rw [List.getD_eq_getElem?_getD, List.getElem?_set_ne (by omega), ← List.getD_eq_getElem?_getD]
            · intro m hm
              simp [List.getD_eq_getElem?_getD, List.getElem?_append_left (by omega : m < k.length)]
        · simp [List.getD_eq_getElem?_getD, hkl]
      simp only [e]
      rw [sum_list_comm]

theorem copy_eq (z0 z0' : Nat → R) {t : Strided R} (h : t.IsTensor) (h0 : t.dims ≠ []) :
    (Strided.mk' z0 t.dims).assign z0' t = .ok t := by
  apply assign_block z0' (List.length_pos_iff.2 h0) (.inr ⟨isTensor_mk' z0 h0, ?_⟩) h rfl
  rfl

theorem tuckerReconstruct_eq [CommSemiring R] (z0 z0' : Nat → R) (z : Nat → Nat → R) {g : Strided R} (hg : g.IsTensor)
    (h0 : g.dims ≠ []) {G : List Nat → R} (hG : g.Represents G) {M : List Nat} (hM : M.length = g.dims.length)
    {factors : List (Strided R)} {F : Nat → Nat → Nat → R}
    (hF : ∀ (n : Nat) d m, g.dims[n]? = some d → M[n]? = some m → ∃ f, factors[n]? = some f ∧ f.dims = [m, d] ∧
      f.Represents fun i => F n (i.getD 0 0) (i.getD 1 0)) :
    ∃ t, tuckerReconstruct z0 z0' z g factors = .ok t ∧ t.IsTensor ∧ t.dims = M ∧
      t.Represents (tuckerElem g.dims G F) := by
  obtain ⟨t, h1, h2, h3, h4⟩ := mode_loop z hM (step := fun old i => do
      let f ← factorAt factors i
      modeProduct (z i) i (f.dim 0) (fun n s => f.read [(n : Int), (s : Int)]) old) (C := F) (f := G) (by
    intro i hi
    obtain ⟨f, e1, e2, e3⟩ := hF i _ _ (List.getElem?_eq_getElem hi) (List.getElem?_eq_getElem (by omega))
    refine ⟨fun n s => f.read [(n : Int), (s : Int)], ?_, ?_⟩
    · intro old
      simp only [factorAt, e1, Outcome.ok_bind, Strided.dim, e2]
      rfl
    · intro n s hn hs
      have := e3 [n, s] (by rw [e2]; exact ⟨hn, hs, trivial⟩)
      simpa [toIdx] using this) hg rfl hG g.dims.length (Nat.le_refl _)
  refine ⟨t, ?_, h2, ?_, ?_⟩
  · unfold tuckerReconstruct
    rw [copy_eq z0 z0' hg h0]
    exact h1
  · rw [h3, ← hM]; simp
    omega
  · intro j hj
    rw [h4 j hj]
    unfold tuckerElem
    beta_reduce
    rw [List.take_length]
    congr 1
    apply sum_congr_list
    intro k _
    rw [List.drop_eq_nil_of_le, List.append_nil]
    rw [hj.length, h3]
    simp [hM]

theorem tuckerCore_eq [CommSemiring R] (z0 z0' : Nat → R) (z : Nat → Nat → R) {g : Strided R} (hg : g.IsTensor)
    (h0 : g.dims ≠ []) {G : List Nat → R} (hG : g.Represents G) {M : List Nat} (hM : M.length = g.dims.length)
    {factors : List (Strided R)} {F : Nat → Nat → Nat → R}
    (hF : ∀ (n : Nat) d m, g.dims[n]? = some d → M[n]? = some m → ∃ f, factors[n]? = some f ∧ f.dims = [d, m] ∧
      f.Represents fun i => F n (i.getD 0 0) (i.getD 1 0)) :
    ∃ t, tuckerCore z0 z0' z g M factors = .ok t ∧ t.IsTensor ∧ t.dims = M ∧
      t.Represents (tuckerElem g.dims G fun n a b => F n b a) := by
  obtain ⟨t, h1, h2, h3, h4⟩ := mode_loop z hM (step := fun old i => do
      let f ← factorAt factors i
      match M[i]? with
      | some rank => modeProduct (z i) i rank (fun r s => f.read [(s : Int), (r : Int)]) old
      | none => .ub "ranks[i] out of range") (C := fun n a b => F n b a) (f := G) (by
    intro i hi
    obtain ⟨f, e1, e2, e3⟩ := hF i _ _ (List.getElem?_eq_getElem hi) (List.getElem?_eq_getElem (by omega))
    refine ⟨fun n s => f.read [(s : Int), (n : Int)], ?_, ?_⟩
    · intro old
      simp only [factorAt, e1, Outcome.ok_bind, List.getElem?_eq_getElem (by omega : i < M.length)]
    · intro n s hn hs
      have := e3 [s, n] (by rw [e2]; exact ⟨hs, hn, trivial⟩)
      simpa [toIdx] using this) hg rfl hG g.dims.length (Nat.le_refl _)
  refine ⟨t, ?_, h2, ?_, ?_⟩
  · unfold tuckerCore
    rw [copy_eq z0 z0' hg h0]
    exact h1
  · rw [h3, ← hM]; simp
    omega
  · intro j hj
    rw [h4 j hj]
    unfold tuckerElem
    beta_reduce
    rw [List.take_length]
    congr 1
    apply sum_congr_list
    intro k _
    rw [List.drop_eq_nil_of_le, List.append_nil]
    rw [hj.length, h3]
    simp [hM]

/-! ### Products of sums -/

theorem sum_box_prod [CommSemiring R] (D : List Nat) (g : Nat → Nat → R) :
    ((box D).map fun k => ((List.range D.length).map fun m => g m (k.getD m 0)).prod).sum
      = ((List.range D.length).map fun m => sumTo (D.getD m 0) (g m)).prod := by
  induction D using List.reverseRecOn with
  | nil => simp [box]
  | append_singleton D d ih =>
    rw [sum_box_snoc, List.length_append, List.length_singleton, List.range_succ, List.map_append, List.prod_append]
    have e : ((List.range D.length).map fun m => sumTo ((D ++ [d]).getD m 0) (g m))
        = (List.range D.length).map fun m => sumTo (D.getD m 0) (g m) := by
      apply List.map_congr_left
      intro m hm
      have := List.mem_range.1 hm
      rw [List.getD_eq_getElem?_getD, List.getElem?_append_left this, ← List.getD_eq_getElem?_getD]
    rw [e, ← ih, ← List.sum_map_mul_right]
    apply sum_congr_list
    intro k hk
    have hkl := (mem_box.1 hk).length
    simp only [List.map_append, List.prod_append, List.map_cons, List.map_nil, List.prod_cons, List.prod_nil, mul_one]
    have e1 : ∀ c, ((List.range D.length).map fun m => g m ((k ++ [c]).getD m 0))
        = (List.range D.length).map fun m => g m (k.getD m 0) := by
      intro c
      apply List.map_congr_left
      intro m hm
      have := List.mem_range.1 hm
      rw [List.getD_eq_getElem?_getD, List.getElem?_append_left (by omega), ← List.getD_eq_getElem?_getD]
    have e2 : ∀ c, (k ++ [c]).getD D.length 0 = c := by
      intro c
      rw [← hkl, List.getD_eq_getElem?_getD]
      simp
    have e3 : (D ++ [d]).getD D.length 0 = d := by
      rw [List.getD_eq_getElem?_getD]
      simp
    simp only [e1, e2, e3]
    rw [List.sum_map_mul_left]
    rfl

theorem Model.Strided.IsTensor.ext_of_represents {t u : Strided R} (h : t.IsTensor) (hu : u.IsTensor) (hd : t.dims = u.dims)
    {f : List Nat → R} (hf : t.Represents f) (hg : u.Represents f) : t = u := by
  have h1 := h.represents_iff.1 hf
  have h2 := hu.represents_iff.1 hg
  have h3 := h.off
  have h4 := hu.off
  have h5 := h.strides
  have h6 := hu.strides
  cases t; cases u
  simp_all

/-! ### Composing and inverting mode products -/

theorem tuckerElem_comp [CommSemiring R] {D M : List Nat} (hM : M.length = D.length) (G : List Nat → R)
    (F F' : Nat → Nat → Nat → R) (j : List Nat) :
    tuckerElem M (tuckerElem D G F) F' j
      = tuckerElem D G (fun m a b => sumTo (M.getD m 0) fun x => F' m a x * F m x b) j := by
  unfold tuckerElem
  have e : ∀ k : List Nat, ((box D).map fun l => G l * ((List.range D.length).map fun m => F m (k.getD m 0) (l.getD m 0)).prod).sum *
      ((List.range M.length).map fun m => F' m (j.getD m 0) (k.getD m 0)).prod
      = ((box D).map fun l => G l * ((List.range M.length).map fun m =>
          F' m (j.getD m 0) (k.getD m 0) * F m (k.getD m 0) (l.getD m 0)).prod).sum := by
    intro k
    rw [← List.sum_map_mul_right]
    apply sum_congr_list
    intro l _
    rw [hM, mul_assoc, ← List.prod_map_mul]
    congr 2
    apply List.map_congr_left
    intro m _
    rw [mul_comm]
  simp only [e]
  rw [sum_list_comm]
  apply sum_congr_list
  intro l _
  rw [List.sum_map_mul_left, sum_box_prod M (fun m x => F' m (j.getD m 0) x * F m x (l.getD m 0)), hM]

theorem prod_delta [CommSemiring R] {D j k : List Nat} (hj : InBox j D) (hk : InBox k D) :
    ((List.range D.length).map fun m => if j.getD m 0 = k.getD m 0 then (1 : R) else 0).prod
      = if k = j then 1 else 0 := by
  by_cases e : k = j
  · subst e
    simp
  · rw [if_neg e]
    have : ∃ m, m < D.length ∧ j.getD m 0 ≠ k.getD m 0 := by
      by_contra h
      apply e
      have h : ∀ m, m < D.length → j.getD m 0 = k.getD m 0 := by
        intro m hm
        by_contra h'
        exact h ⟨m, hm, h'⟩
      have hjl := hj.length
      have hkl := hk.length
      apply List.ext_getElem (by omega)
      intro m h1 h2
      have := h m (by omega)
      simpa [List.getD_eq_getElem?_getD, h1, h2] using this.symm
    obtain ⟨m, hm, hne⟩ := this
    apply List.prod_eq_zero
    rw [List.mem_map]
    exact ⟨m, List.mem_range.2 hm, if_neg hne⟩

theorem tuckerElem_delta [CommSemiring R] {D : List Nat} (G : List Nat → R) {F : Nat → Nat → Nat → R}
    (hF : ∀ m a b, m < D.length → a < D.getD m 0 → b < D.getD m 0 → F m a b = if a = b then 1 else 0)
    {j : List Nat} (hj : InBox j D) : tuckerElem D G F j = G j := by
  unfold tuckerElem
  have hb : ∀ {k : List Nat}, InBox k D → ∀ m, m < D.length → k.getD m 0 < D.getD m 0 := by
    intro k hk m hm
    have := (InBox_iff_getElem.1 hk).2 m (by rw [hk.length]; exact hm) hm
    simpa [List.getD_eq_getElem?_getD, hm, hk.length] using this
  rw [sum_congr_list (g := fun k => if k = j then G k else 0)]
  · exact sum_single (nodup_box D) (mem_box.2 hj) G
  · intro k hk
    have hk := mem_box.1 hk
    have : ((List.range D.length).map fun m => F m (j.getD m 0) (k.getD m 0))
        = (List.range D.length).map fun m => if j.getD m 0 = k.getD m 0 then (1 : R) else 0 := by
      apply List.map_congr_left
      intro m hm
      have hm := List.mem_range.1 hm
      exact hF m _ _ hm (hb hj m hm) (hb hk m hm)
    rw [this, prod_delta hj hk]
    by_cases e : k = j
    · rw [if_pos e, if_pos e, mul_one]
    · rw [if_neg e, if_neg e, mul_zero]

theorem tuckerElem_congr [CommSemiring R] {D : List Nat} {G G' : List Nat → R} (h : ∀ k, InBox k D → G k = G' k)
    (F : Nat → Nat → Nat → R) (j : List Nat) : tuckerElem D G F j = tuckerElem D G' F j := by
  unfold tuckerElem
  apply sum_congr_list
  intro k hk
  rw [h k (mem_box.1 hk)]

/-! ### norm, rmsd, weight_tensor -/

theorem foldlM_sum {β : Type} [AddMonoid R] (g : β → Outcome R) (v : β → R) (l : List β) (h : ∀ x ∈ l, g x = .ok (v x)) (a : R) :
    l.foldlM (fun acc x => do
      let y ← g x
      return acc + y) a = Outcome.ok (a + (l.map v).sum) := by
  induction l generalizing a with
  | nil => simp
  | cons x l ih =>
    rw [List.foldlM_cons, h x (by simp)]
    simp only [Outcome.ok_bind, pure_bind]
    rw [ih (fun y hy => h y (by simp [hy])), List.map_cons, List.sum_cons, add_assoc]

theorem tensorNorm_eq [Semiring R] (sqrt : R → R) {t : Strided R} {f : List Nat → R} (hf : t.Represents f) :
    tensorNorm sqrt t = .ok (sqrt ((box t.dims).map fun i => f i * f i).sum) := by
  unfold tensorNorm
  have key := foldlM_sum (fun i => do
    let target ← t.read (toIdx i)
    return target * target) (fun i => f i * f i) (box t.dims) (by
      intro i hi
      rw [hf i (mem_box.1 hi)]
      rfl) 0
  simp only [bind_assoc, pure_bind, zero_add] at key
  rw [cartesian_eq_box, key]
  rfl

theorem rmsd_eq [Ring R] (sqrt : R → R) (divN : R → Nat → R) {t u : Strided R} {f g : List Nat → R}
    (hf : t.Represents f) (hg : u.Represents g) (hd : u.dims = t.dims) {parts : List (List (List Nat))}
    (hp : parts.flatten.Perm (box t.dims)) :
    rmsd sqrt divN t u parts
      = .ok (sqrt (divN ((box t.dims).map fun i => (f i - g i) * (f i - g i)).sum (numel t.dims))) := by
  have hth : ∀ is, (∀ i ∈ is, InBox i t.dims) →
      rmsdThread t u is 0 = .ok (is.map fun i => (f i - g i) * (f i - g i)).sum := by
    intro is his
    unfold rmsdThread
    have key := foldlM_sum (fun i => do
      let x ← t.read (toIdx i)
      let y ← u.read (toIdx i)
      return (x - y) * (x - y)) (fun i => (f i - g i) * (f i - g i)) is (by
        intro i hi
        rw [hf i (his i hi), hg i (by rw [hd]; exact his i hi)]
        rfl) 0
    simp only [bind_assoc, pure_bind, zero_add] at key
    exact key
  have hn : t.dims.foldl (· * ·) 1 = numel t.dims := by
    have : ∀ (l : List Nat) a, l.foldl (· * ·) a = a * numel l := by
      intro l
      induction l with
      | nil => simp [numel]
      | cons d l ih => intro a; rw [List.foldl_cons, ih, numel_cons, Nat.mul_assoc]
    rw [this, Nat.one_mul]
  have key := foldlM_sum (fun is => rmsdThread t u is 0)
    (fun is => (is.map fun i => (f i - g i) * (f i - g i)).sum) parts (by
      intro is his
      exact hth is fun i hi => mem_box.1 (hp.mem_iff.1 (List.mem_flatten.2 ⟨is, his, hi⟩))) 0
  unfold rmsd
  simp only [key, Outcome.ok_bind, hn, zero_add]
  rw [← (hp.map _).sum_eq, List.map_flatten, List.sum_flatten, List.map_map]
  rfl

theorem weight_eq [Mul R] (z : Nat → R) {t w : Strided R} {f g : List Nat → R} (h0 : t.dims ≠ []) (hf : t.Represents f)
    (hw : w.dims = [t.dims.headD 0]) (hg : w.Represents g) {sched : List (List Nat)} (hs : sched.Perm (box t.dims)) :
    ∃ r, weightTensor z t w sched = .ok r ∧ r.IsTensor ∧ r.dims = t.dims ∧
      r.Represents fun i => g [i.headD 0] * f i := by
  have m1 := isTensor_mk' z h0
  have : Inhabited R := ⟨z 0⟩
  obtain ⟨f0, hf0⟩ := exists_represents m1.wf
  obtain ⟨r, h1, h2, h3, f', h4, h5, _⟩ := writeLoop id (fun i => g [i.headD 0] * f i) sched
    (by simpa using hs.nodup_iff.2 (nodup_box _)) m1 hf0 (by
      intro i hi
      exact mem_box.1 (hs.mem_iff.1 hi))
  refine ⟨r, ?_, h2, h3, ?_⟩
  · unfold weightTensor
    rw [if_neg (by
      have : t.dim 0 = t.dims.headD 0 := by unfold Strided.dim; cases t.dims <;> rfl
      rw [this]
      simp [Strided.dim, hw]), ← h1]
    apply foldlM_congr_mem
    intro a i hi
    have hin := mem_box.1 (hs.mem_iff.1 hi)
    rw [hf i hin]
    have hw' := hg [i.headD 0] (by
      rw [hw]
      refine ⟨?_, trivial⟩
      cases i with
      | nil => exact absurd (List.length_eq_zero_iff.1 hin.length.symm) h0
      | cons x xs =>
        cases hd : t.dims with
        | nil => exact absurd hd h0
        | cons d ds => rw [hd] at hin; exact hin.1)
    have hw'' : w.read [((i.headD 0 : Nat) : Int)] = .ok (g [i.headD 0]) := by simpa [toIdx] using hw'
    rw [hw'']
    rfl
  · intro i hi
    rw [h4 i hi]
    congr 1
    exact h5 i (hs.mem_iff.2 (mem_box.2 (by rw [h3] at hi; exact hi)))

end
end Einsums
