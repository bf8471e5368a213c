import Verif.Proofs.RuntimeTensor
/-
Lemmas about slices of runtime tensors.
-/
namespace Einsums
open Spec Model

variable {α : Type}

theorem toSize_nat {n : Nat} (h : n < 2 ^ 64) : toSize (n : Int) = n := by
  simp only [toSize]; omega

theorem toPtrdiff_nat {n : Nat} (h : n < 2 ^ 63) : toPtrdiff n = (n : Int) := by
  have h' : n < 9223372036854775808 := h
  have e : toPtrdiff n = Int.bmod n 18446744073709551616 := rfl
  rw [e]
  generalize hm : (18446744073709551616 : Nat) = m at *
  rw [Int.bmod_eq_of_le] <;> omega

theorem toSize_minus_one : toSize (-1) = 2 ^ 64 - 1 := by decide

theorem sliceStep_all {d : Nat} (s : Nat) (h0 : d ≠ 0) (hd : d < 2 ^ 63) :
    sliceStep d s (argSlice d .all) = .ok (some (d, s), 0) := by
  have h1 : toSize 0 = 0 := by decide
  have h2 := toSize_nat (n := d) (by omega)
  simp only [sliceStep, argSlice, h1, h2]
  rw [if_neg (by omega), if_neg (by omega)]
  simp

theorem sliceStep_at (d s : Nat) (i : Int) : sliceStep d s (-1, i) = .ok (none, toSize i) := by
  simp only [sliceStep, toSize_minus_one, if_true]

theorem toPtrdiff_toSize {i : Int} (h : IsInt64 i) : toPtrdiff (toSize i) = i := by
  obtain ⟨h1, h2⟩ := h
  have h1' : -9223372036854775808 ≤ i := h1
  have h2' : i < 9223372036854775808 := h2
  have e1 : toSize i = (i % 18446744073709551616).toNat := rfl
  have e : toPtrdiff (toSize i) = Int.bmod (toSize i : Int) 18446744073709551616 := rfl
  rw [e, e1, Int.toNat_of_nonneg (Int.emod_nonneg _ (by omega))]
  rw [Int.bmod_def]

  split <;> omega

/-- What one slice says about an axis of dimension `d`. -/
def SliceMeans (d : Nat) (r : Int × Int) : Sel → Prop
  | .at k => r.1 = -1 ∧ IsInt64 r.2 ∧ ∃ j, pyIndex d k = some j ∧ pyIndex d r.2 = some j
  | .all => r = (0, (d : Int)) ∧ d ≠ 0
  | .range a b => r = (a, b) ∧ 0 ≤ a ∧ a < b ∧ b ≤ d

def SlicesMean : List Nat → List (Int × Int) → List Sel → Prop
  | _, [], [] => True
  | d :: ds, r :: rs, a :: as => SliceMeans d r a ∧ SlicesMean ds rs as
  | _, _, _ => False

theorem sliceStep_range {d : Nat} (s : Nat) {a b : Int} (hd : d < 2 ^ 63) (h0 : 0 ≤ a) (h1 : a < b) (h2 : b ≤ d) :
    sliceStep d s (argSlice d (.range a b)) = .ok (some ((b - a).toNat, s), a.toNat) := by
  obtain ⟨n, rfl⟩ := Int.eq_ofNat_of_zero_le h0
  obtain ⟨m, rfl⟩ := Int.eq_ofNat_of_zero_le (by omega : 0 ≤ b)
  have e1 := toSize_nat (n := n) (by omega)
  have e2 := toSize_nat (n := m) (by omega)
  simp only [sliceStep, argSlice, e1, e2]
  rw [if_neg (by omega), if_neg (by omega)]
  congr 3
  simp

/-- The arguments and the axes without argument, together. -/
theorem padAll_cons {n : Nat} (a : Sel) (as : List Sel) : padAll (n + 1) (a :: as) = a :: padAll n as := by
  simp [padAll]

theorem padAll_nil_cons {n : Nat} : padAll (n + 1) [] = .all :: padAll n [] := by
  simp [padAll, List.replicate_succ]

theorem sliceLoop_eq {ds ss : List Nat} {xs : List (Int × Int)} {args : List Sel} {vd : List Nat}
    (hl : ss.length = ds.length) (hm : SlicesMean ds xs args) (h : selDims ds (padAll ds.length args) = some vd)
    (h0 : ∀ d ∈ ds, d ≠ 0) (hd : ∀ d ∈ ds, d < 2 ^ 63) :
    ∃ offs, sliceLoop ds ss xs = .ok (vd.zip (subStrides ss (padAll ds.length args)), offs) ∧ offs.length = ds.length ∧
      pyIndices ds (offs.map toPtrdiff) = some (subOffs ds (padAll ds.length args)) := by
  induction ds generalizing ss xs args vd with
  | nil =>
    cases args with
    | cons a as => cases xs <;> simp [SlicesMean] at hm
    | nil =>
      cases xs with
      | cons x xs => simp [SlicesMean] at hm
      | nil =>
        simp only [padAll, List.length_nil, List.append_nil, Nat.sub_self, List.replicate_zero, selDims,
          Option.some.injEq] at h
        subst h
        exact ⟨[], by simp [sliceLoop], rfl, by simp [subOffs, pyIndices]⟩
  | cons d ds ih =>
    have hd0 := h0 d (by simp)
    have hd1 := hd d (by simp)
    have h0' : ∀ d ∈ ds, d ≠ 0 := fun x hx => h0 x (by simp [hx])
    have hd' : ∀ d ∈ ds, d < 2 ^ 63 := fun x hx => hd x (by simp [hx])
    have hp0 : pyIndex d (toPtrdiff 0) = some 0 := by
      have : toPtrdiff 0 = 0 := by decide
      rw [this, pyIndex_eq_some]; omega
    cases ss with
    | nil => simp at hl
    | cons s ss =>
      have hl' : ss.length = ds.length := by simpa using hl
      cases xs with
      | nil =>
        cases args with
        | cons a as => simp [SlicesMean] at hm
        | nil =>
          simp only [List.length_cons, padAll_nil_cons, selDims, Option.map_eq_some_iff] at h ⊢
          obtain ⟨vd', h', rfl⟩ := h
          obtain ⟨offs, i1, i3, i2⟩ := ih (args := []) (xs := []) hl' (by simp [SlicesMean]) h' h0' hd'
          refine ⟨0 :: offs, ?_, by simp [i3], ?_⟩
          · simp only [sliceLoop, i1, Outcome.ok_bind, subStrides, List.zip_cons_cons]; rfl
          · simp only [List.map_cons, subOffs]
            exact pyIndices_cons.2 ⟨0, _, rfl, hp0, i2⟩
      | cons x xs =>
        cases args with
        | nil => simp [SlicesMean] at hm
        | cons a as =>
          simp only [List.length_cons, padAll_cons] at h ⊢
          simp only [sliceLoop]
          obtain ⟨hm1, hm2⟩ := hm
          cases a with
          | «at» k =>
            obtain ⟨e1, e2, j, hj, hj2⟩ := hm1
            obtain ⟨x1, x2⟩ := x
            simp only at e1 e2 hj2
            subst e1
            simp only [selDims, hj, Option.isSome_some, if_true] at h
            obtain ⟨offs, i1, i3, i2⟩ := ih hl' hm2 h h0' hd'
            refine ⟨toSize x2 :: offs, ?_, by simp [i3], ?_⟩
            · rw [sliceStep_at, i1]
              simp only [Outcome.ok_bind, subStrides, Option.toList_none, List.nil_append]; rfl
            · simp only [List.map_cons, subOffs, hj, Option.getD_some]
              rw [toPtrdiff_toSize e2]
              exact pyIndices_cons.2 ⟨j, _, rfl, hj2, i2⟩
          | all =>
            obtain ⟨rfl, _⟩ := hm1
            simp only [selDims, Option.map_eq_some_iff] at h
            obtain ⟨vd', h', rfl⟩ := h
            obtain ⟨offs, i1, i3, i2⟩ := ih hl' hm2 h' h0' hd'
            refine ⟨0 :: offs, ?_, by simp [i3], ?_⟩
            · have := sliceStep_all s hd0 hd1
              simp only [argSlice] at this
              rw [this, i1]
              simp only [Outcome.ok_bind, subStrides, Option.toList_some, List.zip_cons_cons]; rfl
            · simp only [List.map_cons, subOffs]
              exact pyIndices_cons.2 ⟨0, _, rfl, hp0, i2⟩
          | range a b =>
            obtain ⟨rfl, f1, f2, f3⟩ := hm1
            have hb : rangeEnd d b = b := by simp only [rangeEnd]; split <;> omega
            simp only [selDims, hb] at h
            rw [if_pos ⟨f1, by omega, f3⟩] at h
            simp only [Option.map_eq_some_iff] at h
            obtain ⟨vd', h', rfl⟩ := h
            obtain ⟨offs, i1, i3, i2⟩ := ih hl' hm2 h' h0' hd'
            refine ⟨a.toNat :: offs, ?_, by simp [i3], ?_⟩
            · have := sliceStep_range s hd1 f1 f2 f3
              simp only [argSlice] at this
              rw [this, i1]
              simp only [Outcome.ok_bind, subStrides, Option.toList_some, List.zip_cons_cons]; rfl
            · simp only [List.map_cons, subOffs]
              refine pyIndices_cons.2 ⟨a.toNat, _, rfl, ?_, i2⟩
              rw [toPtrdiff_nat (by omega), pyIndex_eq_some]; omega

theorem numel_ne_zero {ds : List Nat} : numel ds ≠ 0 ↔ ∀ d ∈ ds, d ≠ 0 := by
  induction ds with
  | nil => simp
  | cons d ds ih => simp [numel_cons, not_or, ih]

theorem negCheck_inBox {t : Strided α} (w : t.WF) {js : List Nat} (h : InBox js t.dims) :
    indicesToSentinelNegativeCheck t.strides t.dims (toIdx js) = .ok (dot js t.strides : Nat) := by
  rw [Props.C02_accepts t.strides t.dims (toIdx js) js w.len (by simp [h.length])]
  rw [length_toIdx, h.length, List.take_length, pyIndices_toIdx h]

theorem rtSlice_eq (isT : Bool) {t : Strided α} (w : t.WF) {xs : List (Int × Int)} {args : List Sel} {vd : List Nat}
    (hn : xs.length ≤ t.dims.length) (hm : SlicesMean t.dims xs args)
    (h : selDims t.dims (padAll t.dims.length args) = some vd) (h0 : numel t.dims ≠ 0)
    (hd : ∀ d ∈ t.dims, d < 2 ^ 63) :
    ∃ v, rtSlice isT t xs = .ok v ∧ v.view.dims = vd ∧ v.ixStrides = (dimsToStrides vd).2 ∧ v.size = sizeMethod vd ∧
      t.ViewOf v.view (selIndex t.dims (padAll t.dims.length args)) := by
  have h0' := numel_ne_zero.1 h0
  obtain ⟨offs, h1, h3, h2⟩ := sliceLoop_eq w.len hm h h0' hd
  have hb := w.bound _ (pyIndices_inBox h2)
  have hlen := selStrides_length w.len h
  have hz1 : (vd.zip (subStrides t.strides (padAll t.dims.length args))).map (·.1) = vd :=
    List.map_fst_zip (by omega)
  have hz2 : (vd.zip (subStrides t.strides (padAll t.dims.length args))).map (·.2)
      = subStrides t.strides (padAll t.dims.length args) := List.map_snd_zip (by omega)
  have hnc : indicesToSentinelNegativeCheck t.strides t.dims (offs.map toPtrdiff)
      = .ok (dot (subOffs t.dims (padAll t.dims.length args)) t.strides : Nat) := by
    apply Props.C02_accepts t.strides t.dims _ _ w.len (by simp [h3])
    rw [List.length_map, h3, List.take_length, h2]
  refine ⟨⟨⟨t.data, t.off + dot (subOffs t.dims (padAll t.dims.length args)) t.strides, vd,
        subStrides t.strides (padAll t.dims.length args)⟩, (dimsToStrides vd).2, sizeMethod vd⟩, ?_, ?_⟩
  · unfold rtSlice
    rw [if_neg (by omega), h1]
    simp only [Outcome.ok_bind, rtvMake]
    rw [hnc]
    simp only [Outcome.ok_bind, hz1, hz2, Int.toNat_natCast]
    rw [if_pos hb]
  · refine ⟨rfl, rfl, rfl, rfl, hlen, ?_, ?_⟩
    · intro j hj
      obtain ⟨g1, g2⟩ := selIndex_spec w.len h hj
      exact ⟨g1, by simp only; omega⟩
    · intro i j hi hj; exact selIndex_inj h hi hj

theorem slicesMean_args {ds : List Nat} {args : List Sel} {vd : List Nat} (hn : args.length ≤ ds.length)
    (h : selDims ds (padAll ds.length args) = some vd) (hf : ForwardRanges args) (h0 : ∀ d ∈ ds, d ≠ 0)
    (hd : ∀ d ∈ ds, d < 2 ^ 63) : SlicesMean ds ((ds.zip args).map fun p => argSlice p.1 p.2) args := by
  induction ds generalizing args vd with
  | nil =>
    cases args with
    | cons a as => simp at hn
    | nil => simp [SlicesMean]
  | cons d ds ih =>
    have hd0 := h0 d (by simp)
    have hd1 := hd d (by simp)
    have h0' : ∀ d ∈ ds, d ≠ 0 := fun x hx => h0 x (by simp [hx])
    have hd' : ∀ d ∈ ds, d < 2 ^ 63 := fun x hx => hd x (by simp [hx])
    cases args with
    | nil => simp [SlicesMean]
    | cons a as =>
      have hn' : as.length ≤ ds.length := by simpa using hn
      have hf' : ForwardRanges as := fun a b hm => hf a b (by simp [hm])
      simp only [List.length_cons, padAll_cons] at h
      simp only [List.zip_cons_cons, List.map_cons, SlicesMean]
      cases a with
      | «at» k =>
        simp only [selDims] at h
        split at h
        case isFalse => simp at h
        rename_i hs
        obtain ⟨j, hj⟩ := Option.isSome_iff_exists.1 hs
        have hj' := pyIndex_eq_some.1 hj
        have e : (if k < 0 then k + (d : Int) else k) = j := by split <;> omega
        refine ⟨⟨rfl, ?_, j, hj, ?_⟩, ih hn' h hf' h0' hd'⟩
        · simp only [argSlice, e, IsInt64]; omega
        · simp only [argSlice, e]; rw [pyIndex_eq_some]; omega
      | all =>
        simp only [selDims, Option.map_eq_some_iff] at h
        obtain ⟨vd', h', rfl⟩ := h
        exact ⟨⟨rfl, hd0⟩, ih hn' h' hf' h0' hd'⟩
      | range a b =>
        simp only [selDims] at h
        split at h
        case isFalse => simp at h
        rename_i hs
        simp only [Option.map_eq_some_iff] at h
        obtain ⟨vd', h', rfl⟩ := h
        obtain ⟨f1, f2⟩ := hf a b (by simp)
        have hb : rangeEnd d b = b := by simp only [rangeEnd]; split <;> omega
        rw [hb] at hs
        exact ⟨⟨rfl, f1, f2, hs.2.2⟩, ih hn' h' hf' h0' hd'⟩

theorem slicesMean_ints {ds : List Nat} {idx : List Int} {vd : List Nat}
    (h : selDims ds (padAll ds.length (idx.map .at)) = some vd) (hn : idx.length ≤ ds.length)
    (hi : ∀ i ∈ idx, IsInt64 i) : SlicesMean ds (idx.map fun i => ((-1 : Int), i)) (idx.map .at) := by
  induction ds generalizing idx vd with
  | nil =>
    cases idx with
    | cons a as => simp at hn
    | nil => simp [SlicesMean]
  | cons d ds ih =>
    cases idx with
    | nil => simp [SlicesMean]
    | cons i is =>
      simp only [List.map_cons, List.length_cons, padAll_cons, selDims] at h
      split at h
      case isFalse => simp at h
      rename_i hs
      obtain ⟨j, hj⟩ := Option.isSome_iff_exists.1 hs
      simp only [List.map_cons, SlicesMean]
      exact ⟨⟨rfl, hi i (by simp), j, hj, hj⟩, ih h (by simpa using hn) fun x hx => hi x (by simp [hx])⟩

/-! ### Rejected slices -/

theorem sliceStep_not_ub (d s : Nat) (r : Int × Int) : (sliceStep d s r).isUb = false := by
  simp only [sliceStep]; split
  · rfl
  · split <;> rfl

/-- A slice that no reading of the arguments allows. -/
def BadSlice (d : Nat) (r : Int × Int) : Prop :=
  (r.1 = -1 ∧ IsInt64 r.2 ∧ pyIndex d r.2 = none) ∨
  (IsInt64 r.1 ∧ IsInt64 r.2 ∧ 0 ≤ r.1 ∧ 0 ≤ r.2 ∧ ((d : Int) < r.2 ∨ r.2 ≤ r.1))

theorem sliceLoop_cases (ds ss : List Nat) (xs : List (Int × Int)) (hl : ss.length = ds.length) :
    (∃ e, sliceLoop ds ss xs = .error e) ∨
    ∃ r, sliceLoop ds ss xs = .ok r ∧ r.2.length = ds.length ∧
      ((∃ i : Nat, ∃ x, xs[i]? = some x ∧ ∃ d, ds[i]? = some d ∧ BadSlice d x) → pyIndices ds (r.2.map toPtrdiff) = none) := by
  induction ds generalizing ss xs with
  | nil =>
    right
    refine ⟨([], []), by simp [sliceLoop], rfl, ?_⟩
    rintro ⟨i, x, _, d, h, _⟩
    simp at h
  | cons d ds ih =>
    cases ss with
    | nil => simp at hl
    | cons s ss =>
      have hl' : ss.length = ds.length := by simpa using hl
      cases xs with
      | nil =>
        simp only [sliceLoop]
        rcases ih ss [] hl' with ⟨e, h⟩ | ⟨r, h, h2, _⟩
        · left; exact ⟨e, by rw [h]; rfl⟩
        · right
          refine ⟨((d, s) :: r.1, 0 :: r.2), by rw [h]; rfl, by simp [h2], ?_⟩
          rintro ⟨i, x, hx, _⟩; simp at hx
      | cons x xs =>
        simp only [sliceLoop]
        have hu := sliceStep_not_ub d s x
        cases hk : sliceStep d s x with
        | ub e => rw [hk] at hu; simp [Outcome.isUb] at hu
        | error e => left; exact ⟨e, rfl⟩
        | ok k =>
          simp only [Outcome.ok_bind]
          rcases ih ss xs hl' with ⟨e, h⟩ | ⟨r, h, h2, h3⟩
          · left; exact ⟨e, by rw [h]; rfl⟩
          · right
            refine ⟨(k.1.toList ++ r.1, k.2 :: r.2), by rw [h]; rfl, by simp [h2], ?_⟩
            rintro ⟨i, y, hy, d', hd', hb⟩
            cases hp : pyIndices (d :: ds) ((k.2 :: r.2).map toPtrdiff) with
            | none => rfl
            | some js =>
              exfalso
              rw [List.map_cons] at hp
              obtain ⟨j, js', _, hj, hjs⟩ := pyIndices_cons.1 hp
              cases i with
              | zero =>
                simp only [List.getElem?_cons_zero, Option.some.injEq] at hy hd'
                subst hy hd'
                rcases hb with ⟨h1, h4, h5⟩ | ⟨h1, h4, h5, h6, h7⟩
                · obtain ⟨x1, x2⟩ := x
                  simp only at h1 h4 h5
                  subst h1
                  rw [sliceStep_at] at hk
                  cases hk
                  simp only at hj
                  rw [toPtrdiff_toSize h4, h5] at hj
                  simp at hj
                · obtain ⟨x1, x2⟩ := x
                  obtain ⟨n, rfl⟩ := Int.eq_ofNat_of_zero_le h5
                  obtain ⟨m, rfl⟩ := Int.eq_ofNat_of_zero_le h6
                  simp only [IsInt64] at h1 h4 h7
                  have e1 := toSize_nat (n := n) (by omega)
                  have e2 := toSize_nat (n := m) (by omega)
                  simp only [sliceStep, e1, e2] at hk
                  rw [if_neg (by omega), if_pos (by omega)] at hk
                  cases hk
              | succ i =>
                simp only [List.getElem?_cons_succ] at hy hd'
                rw [h3 ⟨i, y, hy, d', hd', hb⟩] at hjs
                simp at hjs

theorem negCheck_error {strides dims : List Nat} {inds : List Int} (hs : strides.length = dims.length)
    (h : dims.length < inds.length ∨ pyIndices (dims.take inds.length) inds = none) :
    ∃ e, indicesToSentinelNegativeCheck strides dims inds = .error e := by
  have := (Props.C02_rejects strides dims inds hs).2 h
  cases hx : indicesToSentinelNegativeCheck strides dims inds with
  | ok _ => rw [hx] at this; simp [Outcome.isError] at this
  | ub _ => rw [hx] at this; simp [Outcome.isError] at this
  | error e => exact ⟨e, rfl⟩

theorem rtSlice_rejects (isT : Bool) {t : Strided α} (w : t.WF) {xs : List (Int × Int)}
    (h : t.dims.length < xs.length ∨ ∃ i : Nat, ∃ x, xs[i]? = some x ∧ ∃ d, t.dims[i]? = some d ∧ BadSlice d x) :
    ∃ e, rtSlice isT t xs = .error e := by
  unfold rtSlice
  split
  · exact ⟨_, rfl⟩
  rename_i hn
  rcases h with h | h
  · omega
  rcases sliceLoop_cases t.dims t.strides xs w.len with ⟨e, h1⟩ | ⟨r, h1, h2, h3⟩
  · exact ⟨e, by rw [h1]; rfl⟩
  · rw [h1]
    simp only [Outcome.ok_bind, rtvMake]
    obtain ⟨e, he⟩ := negCheck_error (inds := r.2.map toPtrdiff) w.len (by
      right; rw [List.length_map, h2, List.take_length]; exact h3 h)
    exact ⟨e, by rw [he]; rfl⟩

/-- The slices of a sane tensor or view are never undefined. -/
theorem rtSlice_defined (isT : Bool) {t : Strided α} (w : t.WF) (xs : List (Int × Int)) :
    (rtSlice isT t xs).isUb = false := by
  unfold rtSlice
  split
  · rfl
  rcases sliceLoop_cases t.dims t.strides xs w.len with ⟨e, h1⟩ | ⟨r, h1, h2, -⟩
  · rw [h1]; rfl
  · rw [h1]
    simp only [Outcome.ok_bind, rtvMake]
    cases hp : pyIndices t.dims (r.2.map toPtrdiff) with
    | none =>
      obtain ⟨e, he⟩ := negCheck_error (inds := r.2.map toPtrdiff) w.len (by
        right; rw [List.length_map, h2, List.take_length]; exact hp)
      rw [he]; rfl
    | some js =>
      rw [Props.C02_accepts t.strides t.dims _ js w.len (by simp [h2]) (by
        rw [List.length_map, h2, List.take_length]; exact hp)]
      simp only [Outcome.ok_bind, Int.toNat_natCast]
      rw [if_pos (w.bound _ (pyIndices_inBox hp))]
      rfl

end Einsums
