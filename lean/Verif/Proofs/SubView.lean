import Verif.Proofs.View
/-
Lemmas about `T(args...)` with a mix of integers, `All` and `Range`.
-/
namespace Einsums
open Spec Model

/-- Per-argument offsets the loop should produce. -/
def subOffs : List Nat → List Sel → List Nat
  | d :: ds, .at k :: as => ((pyIndex d k).getD 0) :: subOffs ds as
  | _ :: ds, .all :: as => 0 :: subOffs ds as
  | _ :: ds, .range a _ :: as => a.toNat :: subOffs ds as
  | _, _ => []

/-- Strides of the kept axes. -/
def subStrides : List Nat → List Sel → List Nat
  | _ :: ss, .at _ :: as => subStrides ss as
  | s :: ss, .all :: as => s :: subStrides ss as
  | s :: ss, .range _ _ :: as => s :: subStrides ss as
  | _, _ => []

def isRange : Sel → Bool
  | .range _ _ => true
  | _ => false

def isAt : Sel → Bool
  | .at _ => true
  | _ => false

theorem selDims_length {ds : List Nat} {as : List Sel} {vd : List Nat} (h : selDims ds as = some vd) :
    as.length = ds.length := by
  induction ds generalizing as vd with
  | nil => cases as <;> simp_all [selDims]
  | cons d ds ih => cases as with
    | nil => simp [selDims] at h
    | cons a as =>
      cases a with
      | «at» k =>
        simp only [selDims] at h
        split at h
        · simp [ih h]
        · simp at h
      | all =>
        simp only [selDims, Option.map_eq_some_iff] at h
        obtain ⟨x, hx, _⟩ := h
        simp [ih hx]
      | range a b =>
        simp only [selDims] at h
        split at h
        · simp only [Option.map_eq_some_iff] at h
          obtain ⟨x, hx, _⟩ := h
          simp [ih hx]
        · simp at h

theorem set_append_zero (O : List Int) (n : Nat) (x : Int) :
    (O ++ List.replicate (n + 1) 0).set O.length x = (O ++ [x]) ++ List.replicate n 0 := by
  rw [List.set_append_right _ _ (Nat.le_refl _)]
  simp [List.replicate_succ]

theorem subLoop_eq (ds ss : List Nat) (as : List Sel) (vd : List Nat) (i : Nat)
    (O : List Int) (D : List Int) (S : List Nat)
    (hl : ss.length = ds.length) (h : selDims ds as = some vd) (hO : O.length = i)
    (hg : (∀ a ∈ as, isRange a = false) ∨ (D.length = i ∧
      ∃ pre post, as = pre ++ post ∧ (∀ a ∈ pre, isAt a = false) ∧ ∀ a ∈ post, isRange a = false)) :
    subLoop (ds.zip ss) i as { offsets := O ++ List.replicate ds.length 0, dims := D, strides := S }
      = { offsets := O ++ toIdx (subOffs ds as), dims := D ++ toIdx vd,
          strides := S ++ subStrides ss as } := by
  induction ds generalizing ss as vd i O D S with
  | nil =>
    cases as with
    | cons a as => simp [selDims] at h
    | nil =>
      cases ss with
      | cons s ss => simp at hl
      | nil =>
        simp only [selDims, Option.some.injEq] at h
        subst h
        simp [subLoop, subOffs, subStrides, toIdx]
  | cons d ds ih =>
    cases ss with
    | nil => simp at hl
    | cons s ss =>
      have hl' : ss.length = ds.length := by simpa using hl
      cases as with
      | nil => simp [selDims] at h
      | cons a as =>
        simp only [List.zip_cons_cons, subLoop]
        cases a with
        | «at» k =>
          have hg' : ∀ a ∈ as, isRange a = false := by
            rcases hg with hg | ⟨_, pre, post, e, h1, h2⟩
            · exact fun a ha => hg a (by simp [ha])
            · cases pre with
              | nil => 
                rw [List.nil_append] at e
                exact fun a ha => h2 a (by rw [← e]; simp [ha])
              | cons p pre =>
                simp only [List.cons_append, List.cons.injEq] at e
                have := h1 p (by simp)
                rw [← e.1] at this
                simp [isAt] at this
          simp only [selDims] at h
          split at h
          · rename_i hs
            obtain ⟨j, hj⟩ := Option.isSome_iff_exists.1 hs
            have hj' := pyIndex_eq_some.1 hj
            have e : (if k < 0 then (d : Int) + k else k) = (j : Nat) := by split <;> omega
            simp only [subStep, e]
            subst hO
            rw [List.length_cons, set_append_zero, ih ss as vd _ _ _ _ hl' h (by simp) (.inl hg')]
            simp [subOffs, subStrides, hj, toIdx]
          · simp at h
        | all =>
          simp only [selDims, Option.map_eq_some_iff] at h
          obtain ⟨vd', h', rfl⟩ := h
          simp only [subStep]
          rw [List.length_cons, List.replicate_succ]
          have : O ++ 0 :: List.replicate ds.length 0 = (O ++ [0]) ++ List.replicate ds.length (0:Int) := by
            simp
          rw [this, ih ss as vd' _ _ _ _ hl' h' (by simp [hO])]
          · simp [subOffs, subStrides, toIdx]
          · rcases hg with hg | ⟨hD, pre, post, e, h1, h2⟩
            · exact .inl fun a ha => hg a (by simp [ha])
            · cases pre with
              | nil =>
                rw [List.nil_append] at e
                exact .inl fun a ha => h2 a (by rw [← e]; simp [ha])
              | cons p pre =>
                simp only [List.cons_append, List.cons.injEq] at e
                exact .inr ⟨by simp [hD], pre, post, e.2, fun a ha => h1 a (by simp [ha]), h2⟩
        | range a b =>
          rcases hg with hg | ⟨hD, pre, post, e, h1, h2⟩
          · have := hg (.range a b) (by simp)
            simp [isRange] at this
          simp only [selDims] at h
          split at h
          case isFalse => simp at h
          rename_i hs
          simp only [Option.map_eq_some_iff] at h
          obtain ⟨vd', h', rfl⟩ := h
          simp only [subStep]
          have hDO : D.length = O.length := by omega
          rw [hDO, List.length_cons, set_append_zero, ih ss as vd' _ _ _ _ hl' h' (by simp [hO])]
          · have ea : (if b < 0 then (d : Int) + b else b) - a = ((rangeEnd d b - a).toNat : Nat) := by
              have := hs.2.1
              simp only [rangeEnd] at *
              (split <;> simp_all); omega
            have eb : a = (a.toNat : Nat) := by have := hs.1; omega
            rw [ea]
            have e1 : toIdx (subOffs (d :: ds) (Sel.range a b :: as)) = a :: toIdx (subOffs ds as) := by
              simp only [subOffs, toIdx, List.map_cons, List.cons.injEq, and_true]
              exact eb.symm
            rw [e1]
            simp [subStrides, toIdx]
          · cases pre with
            | nil =>
              rw [List.nil_append] at e
              have := h2 (.range a b) (by rw [← e]; simp)
              simp [isRange] at this
            | cons p pre =>
              simp only [List.cons_append, List.cons.injEq] at e
              exact .inr ⟨by simp [hD], pre, post, e.2, fun a ha => h1 a (by simp [ha]), h2⟩

theorem selIndex_spec {ds ss : List Nat} {as : List Sel} {vd : List Nat} (hl : ss.length = ds.length)
    (h : selDims ds as = some vd) {j : List Nat} (hj : InBox j vd) :
    InBox (selIndex ds as j) ds ∧
    dot (selIndex ds as j) ss = dot (subOffs ds as) ss + dot j (subStrides ss as) := by
  induction ds generalizing ss as vd j with
  | nil => cases as with
    | cons a as => simp [selDims] at h
    | nil => simp [selIndex, subOffs]; cases ss <;> simp_all [subStrides]
  | cons d ds ih => cases as with
    | nil => simp [selDims] at h
    | cons a as => cases ss with
      | nil => simp at hl
      | cons s ss =>
        have hl' : ss.length = ds.length := by simpa using hl
        cases a with
        | «at» k =>
          simp only [selDims] at h
          split at h
          · rename_i hs
            obtain ⟨x, hx⟩ := Option.isSome_iff_exists.1 hs
            have hx' := pyIndex_eq_some.1 hx
            obtain ⟨i1, i2⟩ := ih hl' h hj
            simp only [selIndex, subOffs, subStrides, hx, Option.getD_some, dot_cons, i2]
            exact ⟨⟨hx'.1, i1⟩, by omega⟩
          · simp at h
        | all =>
          simp only [selDims, Option.map_eq_some_iff] at h
          obtain ⟨vd', h', rfl⟩ := h
          cases j with
          | nil => exact hj.elim
          | cons y j =>
            obtain ⟨i1, i2⟩ := ih hl' h' hj.2
            simp only [selIndex, subOffs, subStrides, dot_cons, i2]
            exact ⟨⟨hj.1, i1⟩, by omega⟩
        | range a b =>
          simp only [selDims] at h
          split at h
          case isFalse => simp at h
          rename_i hs
          simp only [Option.map_eq_some_iff] at h
          obtain ⟨vd', h', rfl⟩ := h
          cases j with
          | nil => exact hj.elim
          | cons y j =>
            obtain ⟨i1, i2⟩ := ih hl' h' hj.2
            simp only [selIndex, subOffs, subStrides, dot_cons, i2, Nat.add_mul]
            refine ⟨⟨?_, i1⟩, by omega⟩
            have := hj.1
            omega

theorem selIndex_inj {ds : List Nat} {as : List Sel} {vd : List Nat} (h : selDims ds as = some vd)
    {i j : List Nat} (hi : InBox i vd) (hj : InBox j vd) (e : selIndex ds as i = selIndex ds as j) :
    i = j := by
  induction ds generalizing as vd i j with
  | nil => cases as with
    | cons a as => simp [selDims] at h
    | nil =>
      simp only [selDims, Option.some.injEq] at h
      subst h
      rw [InBox_nil_right.1 hi, InBox_nil_right.1 hj]
  | cons d ds ih => cases as with
    | nil => simp [selDims] at h
    | cons a as =>
      cases a with
      | «at» k =>
        simp only [selDims] at h
        split at h
        · simp only [selIndex, List.cons.injEq, true_and] at e
          exact ih h hi hj e
        · simp at h
      | all =>
        simp only [selDims, Option.map_eq_some_iff] at h
        obtain ⟨vd', h', rfl⟩ := h
        cases i with
        | nil => exact hi.elim
        | cons x i => cases j with
          | nil => exact hj.elim
          | cons y j =>
            simp only [selIndex, List.cons.injEq] at e
            rw [e.1, ih h' hi.2 hj.2 e.2]
      | range a b =>
        simp only [selDims] at h
        split at h
        case isFalse => simp at h
        simp only [Option.map_eq_some_iff] at h
        obtain ⟨vd', h', rfl⟩ := h
        cases i with
        | nil => exact hi.elim
        | cons x i => cases j with
          | nil => exact hj.elim
          | cons y j =>
            simp only [selIndex, List.cons.injEq] at e
            rw [ih h' hi.2 hj.2 e.2]
            have := e.1
            simp; omega

theorem selStrides_length {ds ss : List Nat} {as : List Sel} {vd : List Nat}
    (hl : ss.length = ds.length) (h : selDims ds as = some vd) :
    (subStrides ss as).length = vd.length := by
  induction ds generalizing ss as vd with
  | nil => cases as with
    | cons a as => simp [selDims] at h
    | nil => simp_all [selDims]; cases ss <;> simp_all [subStrides]
  | cons d ds ih => cases as with
    | nil => simp [selDims] at h
    | cons a as => cases ss with
      | nil => simp at hl
      | cons s ss =>
        have hl' : ss.length = ds.length := by simpa using hl
        cases a with
        | «at» k =>
          simp only [selDims] at h
          split at h
          · simp only [subStrides]; exact ih hl' h
          · simp at h
        | all =>
          simp only [selDims, Option.map_eq_some_iff] at h
          obtain ⟨vd', h', rfl⟩ := h
          simp [subStrides, ih hl' h']
        | range a b =>
          simp only [selDims] at h
          split at h
          case isFalse => simp at h
          simp only [Option.map_eq_some_iff] at h
          obtain ⟨vd', h', rfl⟩ := h
          simp [subStrides, ih hl' h']

theorem inBox_zeros {ds : List Nat} (h : numel ds ≠ 0) : InBox (List.replicate ds.length 0) ds := by
  induction ds with
  | nil => trivial
  | cons d ds ih =>
    simp only [numel_cons, ne_eq, Nat.mul_eq_zero, not_or] at h
    exact ⟨by omega, ih h.2⟩

theorem dot_zeros (n : Nat) (ss : List Nat) : dot (List.replicate n 0) ss = 0 := by
  induction n generalizing ss with
  | zero => simp
  | succ n ih => cases ss <;> simp [List.replicate_succ, ih]

theorem sub_viewOf {t : Strided α} (w : t.WF) {args pre post : List Sel} {vd : List Nat}
    (h : selDims t.dims args = some vd) (hne : numel vd ≠ 0) (e : args = pre ++ post)
    (hpre : ∀ a ∈ pre, isAt a = false) (hpost : ∀ a ∈ post, isRange a = false) :
    ∃ v, t.sub args = .ok v ∧ v.dims = vd ∧ t.ViewOf v (selIndex t.dims args) := by
  have hloop := subLoop_eq t.dims t.strides args vd 0 [] [] [] w.len h rfl
    (.inr ⟨rfl, pre, post, e, hpre, hpost⟩)
  simp only [List.nil_append] at hloop
  obtain ⟨z1, z2⟩ := selIndex_spec w.len h (inBox_zeros hne)
  rw [dot_zeros] at z2
  have hb := w.bound _ z1
  unfold Strided.sub
  rw [if_neg (by simp [selDims_length h]), hloop]
  refine ⟨_, mkView_ok (by omega), rfl, rfl, selStrides_length w.len h, ?_, ?_⟩
  · intro j hj
    obtain ⟨h1, h2⟩ := selIndex_spec w.len h hj
    exact ⟨h1, by simp only; omega⟩
  · intro i j hi hj; exact selIndex_inj h hi hj

end Einsums
