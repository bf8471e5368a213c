import Verif.Proofs.Tensor
/-
Lemmas about views.
-/
namespace Einsums
open Spec Model

/-- `v` is a view of `t`: it shares the storage, and element `j` of `v` is element `φ j` of `t`. -/
structure Model.Strided.ViewOf (t v : Strided α) (φ : List Nat → List Nat) : Prop where
  data : v.data = t.data
  len : v.strides.length = v.dims.length
  addr : ∀ j, InBox j v.dims → InBox (φ j) t.dims ∧
    v.off + dot j v.strides = t.off + dot (φ j) t.strides
  inj : ∀ i j, InBox i v.dims → InBox j v.dims → φ i = φ j → i = j

theorem Model.Strided.ViewOf.wf {t v : Strided α} {φ} (h : t.ViewOf v φ) (w : t.WF) : v.WF where
  len := h.len
  bound := by
    intro j hj
    obtain ⟨h1, h2⟩ := h.addr j hj
    rw [h2, h.data]; exact w.bound _ h1
  inj := by
    intro i j hi hj e
    obtain ⟨h1, h2⟩ := h.addr i hi
    obtain ⟨h3, h4⟩ := h.addr j hj
    exact h.inj i j hi hj (w.inj _ _ h1 h3 (by omega))

theorem Model.Strided.ViewOf.read {t v : Strided α} {φ} (h : t.ViewOf v φ) (w : t.WF)
    {j : List Nat} (hj : InBox j v.dims) : v.read (toIdx j) = t.read (toIdx (φ j)) := by
  obtain ⟨h1, h2⟩ := h.addr j hj
  have b1 := (h.wf w).bound j hj
  have b2 := w.bound _ h1
  rw [read_eq (pyIndices_toIdx hj) b1, read_eq (pyIndices_toIdx h1) b2]
  congr 1
  have e : ∀ (l l' : List α) (a b : Nat) (ha : a < l.length) (hb : b < l'.length), l = l' → a = b →
      l[a] = l'[b] := by
    intro l l' a b ha hb e1 e2; subst e1; subst e2; rfl
  exact e _ _ _ _ _ _ h.data h2

/-- Writing through a view is writing the corresponding element of the parent. -/
theorem Model.Strided.ViewOf.write {t v : Strided α} {φ} (h : t.ViewOf v φ) (w : t.WF)
    {j : List Nat} (hj : InBox j v.dims) (x : α) :
    ∃ v' t', v.write (toIdx j) x = .ok v' ∧ t.write (toIdx (φ j)) x = .ok t' ∧
      t' = { t with data := v'.data } ∧ t'.ViewOf v' φ ∧ v'.dims = v.dims ∧ t'.dims = t.dims ∧
      t'.WF := by
  obtain ⟨h1, h2⟩ := h.addr j hj
  have b1 := (h.wf w).bound j hj
  have b2 := w.bound _ h1
  refine ⟨_, _, write_eq (pyIndices_toIdx hj) b1 x, write_eq (pyIndices_toIdx h1) b2 x, ?_, ?_, rfl, rfl, ?_⟩
  · simp only [h2, h.data]
  · exact ⟨by simp only [h2, h.data], h.len, h.addr, h.inj⟩
  · exact ⟨w.len, by simpa using w.bound, w.inj⟩

/-! ### Integer offsets -/

theorem innerProduct_ofNat (o ss : List Nat) : innerProduct (toIdx o) ss = (dot o ss : Nat) := by
  induction o generalizing ss with
  | nil => cases ss <;> simp [toIdx, innerProduct]
  | cons a o ih =>
    cases ss with
    | nil => simp [toIdx, innerProduct]
    | cons s ss =>
      have := ih ss
      simp only [toIdx] at this
      simp [toIdx, innerProduct, this]

theorem mkView_ok {t : Strided α} {dims : List Nat} {offs : List Nat} {strides : List Nat}
    (h : t.off + dot offs t.strides ≤ t.data.length) :
    mkView t (toIdx dims) (toIdx offs) strides
      = .ok { data := t.data, off := t.off + dot offs t.strides, dims := dims, strides := strides } := by
  unfold mkView
  rw [innerProduct_ofNat]
  simp only
  rw [if_neg (by omega), if_neg]
  · congr 1
    simp only [Strided.mk.injEq, true_and, and_true]
    constructor
    · omega
    · simp [toIdx, Function.comp_def]
  · simp [toIdx]

/-! ### Boxes -/

theorem dot_shift {a j ss : List Nat} (h : a.length = j.length) :
    dot (shift a j) ss = dot a ss + dot j ss := by
  induction a generalizing j ss with
  | nil => cases j <;> simp_all [shift]
  | cons x a ih => cases j with
    | nil => simp at h
    | cons y j => cases ss with
      | nil => simp
      | cons s ss =>
        simp only [shift, dot_cons, ih (by simpa using h)]
        rw [Nat.add_mul]; omega

theorem shift_inj {a i j : List Nat} (hi : a.length = i.length) (hj : a.length = j.length)
    (h : shift a i = shift a j) : i = j := by
  induction a generalizing i j with
  | nil => cases i <;> cases j <;> simp_all
  | cons x a ih => cases i with
    | nil => simp at hi
    | cons y i => cases j with
      | nil => simp at hj
      | cons z j =>
        simp only [shift, List.cons.injEq] at h
        simp at hi hj
        rw [ih hi hj h.2]; simp; omega

theorem shift_shift {a b j : List Nat} : shift (shift a b) j = shift a (shift b j) := by
  induction a generalizing b j with
  | nil => simp [shift]
  | cons x a ih => cases b with
    | nil => simp [shift]
    | cons y b => cases j with
      | nil => simp [shift]
      | cons z j => simp [shift, ih, Nat.add_assoc]

theorem Spec.BoxIn.length {ds : List Nat} {rs : List (Nat × Nat)} (h : BoxIn ds rs) :
    rs.length = ds.length := by
  induction ds generalizing rs with
  | nil => cases rs <;> simp_all [BoxIn]
  | cons d ds ih => cases rs with
    | nil => exact h.elim
    | cons r rs => simp [ih h.2.2.2]

theorem Spec.BoxIn.starts {ds : List Nat} {rs : List (Nat × Nat)} (h : BoxIn ds rs) :
    InBox (rs.map (·.1)) ds := by
  induction ds generalizing rs with
  | nil => cases rs <;> simp_all [BoxIn]
  | cons d ds ih => cases rs with
    | nil => exact h.elim
    | cons r rs => exact ⟨h.1, ih h.2.2.2⟩

theorem Spec.BoxIn.shift {ds : List Nat} {rs : List (Nat × Nat)} (h : BoxIn ds rs) {j : List Nat}
    (hj : InBox j (rs.map fun r => r.2 - r.1)) : InBox (Spec.shift (rs.map (·.1)) j) ds := by
  induction ds generalizing rs j with
  | nil => cases rs <;> simp_all [BoxIn, Spec.shift]
  | cons d ds ih => cases rs with
    | nil => exact h.elim
    | cons r rs => cases j with
      | nil => exact hj.elim
      | cons y j =>
        have := h.2.1
        have := h.2.2.1
        have h1 : y < r.2 - r.1 := hj.1
        exact ⟨by simp only; omega, ih h.2.2.2 hj.2⟩

theorem ranges_eq {t : Strided α} {rs : List (Int × Int)} {bs : List (Nat × Nat)}
    (hd : Denotes t.dims rs bs) (hb : BoxIn t.dims bs) :
    t.ranges rs = mkView t (toIdx (bs.map fun r => r.2 - r.1)) (toIdx (bs.map (·.1))) t.strides := by
  have key : ∀ (ds : List Nat) (rs : List (Int × Int)) (bs : List (Nat × Nat)), Denotes ds rs bs →
      BoxIn ds bs → rs.length = ds.length ∧
      ((ds.zip rs).map fun p => (if p.2.2 < 0 then (p.1 : Int) + p.2.2 else p.2.2) - p.2.1)
        = toIdx (bs.map fun r => r.2 - r.1) ∧ rs.map (·.1) = toIdx (bs.map (·.1)) := by
    intro ds
    induction ds with
    | nil =>
      intro rs bs h1 h2
      cases bs with
      | nil => cases rs <;> simp_all [Denotes, toIdx]
      | cons b bs => exact h2.elim
    | cons d ds ih =>
      intro rs bs h1 h2
      cases bs with
      | nil => exact h2.elim
      | cons b bs => cases rs with
        | nil => exact h1.elim
        | cons r rs =>
          obtain ⟨a, b'⟩ := r
          obtain ⟨x, y⟩ := b
          obtain ⟨e1, e2, e3⟩ := h1
          obtain ⟨f1, f2, f3, f4⟩ := h2
          obtain ⟨g1, g2, g3⟩ := ih rs bs e3 f4
          simp only [rangeEnd] at e2
          refine ⟨by simp [g1], ?_, ?_⟩
          · simp only [List.zip_cons_cons, List.map_cons, g2, toIdx, List.cons.injEq, and_true]
            (split at e2 <;> simp_all); omega
          · simp only [List.map_cons, g3, toIdx, List.cons.injEq, and_true]
            exact e1
  obtain ⟨k1, k2, k3⟩ := key _ _ _ hd hb
  unfold Strided.ranges
  rw [if_neg (by simpa using k1), k3]
  simp only
  rw [k2]

theorem boxView {t : Strided α} (w : t.WF) {bs : List (Nat × Nat)} (hb : BoxIn t.dims bs) :
    ∃ v, mkView t (toIdx (bs.map fun r => r.2 - r.1)) (toIdx (bs.map (·.1))) t.strides = .ok v ∧
      v = { data := t.data, off := t.off + dot (bs.map (·.1)) t.strides,
            dims := bs.map fun r => r.2 - r.1, strides := t.strides } ∧
      t.ViewOf v (shift (bs.map (·.1))) := by
  have h0 := w.bound _ hb.starts
  refine ⟨_, mkView_ok (by omega), rfl, rfl, by simp [w.len, hb.length], ?_, ?_⟩
  · intro j hj
    refine ⟨hb.shift hj, ?_⟩
    rw [dot_shift (by simpa using hj.length.symm)]
    simp only; omega
  · intro i j hi hj e
    exact shift_inj (by simpa using hi.length.symm) (by simpa using hj.length.symm) e

end Einsums
