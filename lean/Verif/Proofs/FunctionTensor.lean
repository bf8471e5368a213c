import Verif.Model.FunctionTensor
import Verif.Spec.FunctionTensor
import Verif.Proofs.SubView
import Verif.Proofs.Utilities
/-
Function tensors and their views.
-/
namespace Einsums
open Spec Model

theorem toInt32_eq {i : Int} (h : IsInt32 i) : toInt32 i = i := by
  unfold toInt32
  obtain ⟨h1, h2⟩ := h
  rw [Int.bmod_eq_of_le] <;> omega

theorem fix_ok {dims : List Nat} (hd : ∀ d ∈ dims, d ≤ 2 ^ 31) {is : List Int} (hi : ∀ i ∈ is, IsInt32 i) {js : List Nat}
    (h : pyIndices dims is = some js) : fixIndices (toIdx dims) is = .ok (toIdx js) := by
  induction dims generalizing is js with
  | nil => cases is <;> simp_all [pyIndices, fixIndices, toIdx]
  | cons d dims ih =>
    cases is with
    | nil => simp [pyIndices] at h
    | cons i is =>
      obtain ⟨j, js', rfl, hj, hjs⟩ : ∃ j js', js = j :: js' ∧ pyIndex d i = some j ∧ pyIndices dims is = some js' := by
        simp only [pyIndices, Option.bind_eq_bind, Option.bind_eq_some_iff, Option.pure_def, Option.some.injEq] at h
        obtain ⟨j, hj, js', hjs, rfl⟩ := h
        exact ⟨j, js', rfl, hj, hjs⟩
      have hj' := pyIndex_eq_some.1 hj
      have hd1 := hd d (by simp)
      have e : (if i < 0 then toInt32 (i + (d : Int)) else i) = (j : Int) := by
        split
        · rw [toInt32_eq ⟨by omega, by omega⟩]; omega
        · omega
      have hr := ih (fun x hx => hd x (by simp [hx])) (fun x hx => hi x (by simp [hx])) hjs
      have h0 : toIdx (d :: dims) = (d : Int) :: toIdx dims := rfl
      rw [h0]
      unfold fixIndices
      simp only [e]
      rw [if_neg (by omega), hr]
      rfl

theorem fix_error {dims : List Nat} (hd : ∀ d ∈ dims, d ≤ 2 ^ 31) {is : List Int} (hi : ∀ i ∈ is, IsInt32 i)
    (hl : is.length = dims.length) (h : pyIndices dims is = none) : (fixIndices (toIdx dims) is).isError = true := by
  induction dims generalizing is with
  | nil => cases is <;> simp_all [pyIndices]
  | cons d dims ih =>
    cases is with
    | nil => simp at hl
    | cons i is =>
      have hd1 := hd d (by simp)
      have hi1 := hi i (by simp)
      have h0 : toIdx (d :: dims) = (d : Int) :: toIdx dims := rfl
      rw [h0]
      unfold fixIndices
      cases hj : pyIndex d i with
      | none =>
        have hj' := pyIndex_eq_none.1 hj
        simp only
        rw [if_pos]
        · rfl
        · split
          · rw [toInt32_eq ⟨by have := hi1.1; omega, by omega⟩]; omega
          · omega
      | some j =>
        have hj' := pyIndex_eq_some.1 hj
        have e : (if i < 0 then toInt32 (i + (d : Int)) else i) = (j : Int) := by
          split
          · rw [toInt32_eq ⟨by omega, by omega⟩]; omega
          · omega
        have hn : pyIndices dims is = none := by
          cases hp : pyIndices dims is with
          | none => rfl
          | some l => simp [pyIndices, hj, hp] at h
        have hr := ih (fun x hx => hd x (by simp [hx])) (fun x hx => hi x (by simp [hx])) (by simpa using hl) hn
        simp only [e]
        rw [if_neg (by omega)]
        cases hf : fixIndices (toIdx dims) is with
        | ok v => rw [hf] at hr; simp [Outcome.isError] at hr
        | error m => rfl
        | ub m => rw [hf] at hr; simp [Outcome.isError] at hr

/-- `t` has the dimensions `dims`, and the value `F js` at each index `js`. -/
structure FuncIs (t : FuncTensor α) (ds : List Nat) (F : List Nat → α) : Prop where
  dims : t.dims = toIdx ds
  call : ∀ js, InBox js ds → t.call (toIdx js) = .ok (F js)

theorem FuncIs.read {t : FuncTensor α} {dims : List Nat} {F : List Nat → α} (h : FuncIs t dims F)
    (hd : ∀ d ∈ dims, d ≤ 2 ^ 31) {is : List Int} (hi : ∀ i ∈ is, IsInt32 i) (hl : is.length = dims.length) :
    (∀ js, pyIndices dims is = some js → t.read is = .ok (F js)) ∧ (pyIndices dims is = none → (t.read is).isError = true) := by
  have hlen : t.dims.length = dims.length := by rw [h.dims]; simp [toIdx]
  have e : (is.take t.dims.length).map toInt32 = is := by
    rw [hlen, ← hl, List.take_length]
    conv => rhs; rw [← List.map_id is]
    exact List.map_congr_left fun i hi' => toInt32_eq (hi i hi')
  have er : t.read is = (fixIndices (toIdx dims) is >>= t.call) := by
    unfold FuncTensor.read
    rw [if_neg (by omega), e, h.dims]
  rw [er]
  constructor
  · intro js hjs
    rw [fix_ok hd hi hjs, Outcome.ok_bind]
    exact h.call js (pyIndices_inBox hjs)
  · intro hn
    have := fix_error hd hi hl hn
    cases hf : fixIndices (toIdx dims) is with
    | ok v => rw [hf] at this; simp [Outcome.isError] at this
    | error m => rfl
    | ub m => rw [hf] at this; simp [Outcome.isError] at this

theorem applyView_fixed {t : Int} (h : 0 ≤ t) (b : Bool) (ts : List Int) (ax : List (Int × Int × Int)) {js : List Int}
    (hr : applyView true ts ax = .ok js) : applyView b (t :: ts) ax = .ok (t :: js) := by
  cases ax with
  | nil =>
    simp only [applyView, Outcome.ok.injEq] at hr ⊢
    rw [hr]
  | cons a ax =>
    obtain ⟨d, o, i⟩ := a
    rw [applyView, if_pos h, hr]
    rfl

theorem applyView_axis (b : Bool) (ts : List Int) (ax : List (Int × Int × Int)) {d o i : Int} (h0 : 0 ≤ i) (h1 : i < d)
    (h2 : IsInt32 (i + o)) {js : List Int} (hr : applyView false ts ax = .ok js) :
    applyView b (-1 :: ts) ((d, o, i) :: ax) = .ok ((i + o) :: js) := by
  rw [applyView, if_neg (by omega), if_neg (by omega), if_neg (by omega), hr, toInt32_eq h2]
  rfl

/-- The view's axes: offset and dimension. -/
def axesOf (dims : List Nat) (args : List Sel) : List (Int × Int) :=
  (List.zipWith viewArg (toIdx dims) args).filterMap (·.1)

def templateOf (dims : List Nat) (args : List Sel) : List Int := (List.zipWith viewArg (toIdx dims) args).map (·.2)

theorem axesOf_cons (d : Nat) (ds : List Nat) (a : Sel) (as : List Sel) :
    axesOf (d :: ds) (a :: as) = ((viewArg d a).1).toList ++ axesOf ds as := by
  simp only [axesOf, toIdx, List.map_cons, List.zipWith_cons_cons, List.filterMap_cons]
  cases h : (viewArg (d : Int) a).1 <;> simp_all

theorem templateOf_cons (d : Nat) (ds : List Nat) (a : Sel) (as : List Sel) :
    templateOf (d :: ds) (a :: as) = (viewArg d a).2 :: templateOf ds as := by
  simp [templateOf, toIdx]

theorem view_dims {dims : List Nat} {args : List Sel} {vd : List Nat} (h : selDims dims args = some vd) :
    (axesOf dims args).map (·.2) = toIdx vd := by
  induction dims generalizing args vd with
  | nil => cases args <;> simp_all [selDims, axesOf, toIdx]
  | cons d dims ih =>
    cases args with
    | nil => simp [selDims] at h
    | cons a as =>
      rw [axesOf_cons]
      cases a with
      | «at» k =>
        simp only [selDims] at h
        split at h
        · simpa [viewArg] using ih h
        · simp at h
      | all =>
        simp only [selDims, Option.map_eq_some_iff] at h
        obtain ⟨vd', h', rfl⟩ := h
        simpa [viewArg, toIdx] using ih h'
      | range x y =>
        simp only [selDims] at h
        split at h
        case isFalse => simp at h
        rename_i hs
        simp only [Option.map_eq_some_iff] at h
        obtain ⟨vd', h', rfl⟩ := h
        have e : (if y < 0 then (d : Int) + y else y) - x = ((rangeEnd d y - x).toNat : Int) := by
          unfold rangeEnd at hs ⊢
          split at hs <;> rename_i hy
          · simp only [hy, if_true]; omega
          · simp only [hy, if_false]; omega
        have := ih h'
        simp only [toIdx] at this
        simp only [viewArg, toIdx, Option.toList_some, List.singleton_append, List.map_cons, this, e]
        rfl

theorem applyView_ok {dims : List Nat} (hd : ∀ d ∈ dims, d ≤ 2 ^ 31) {args : List Sel} {vd : List Nat}
    (h : selDims dims args = some vd) {js : List Nat} (hj : InBox js vd) (b : Bool) :
    applyView b (templateOf dims args) ((axesOf dims args).zipWith (fun a i => (a.2, a.1, i)) (toIdx js)) =
      .ok (toIdx (selIndex dims args js)) := by
  induction dims generalizing args vd js b with
  | nil =>
    cases args with
    | nil => simp [templateOf, axesOf, selIndex, applyView, toIdx]
    | cons a as => simp [selDims] at h
  | cons d dims ih =>
    have hd' : ∀ x ∈ dims, x ≤ 2 ^ 31 := fun x hx => hd x (by simp [hx])
    have hd1 := hd d (by simp)
    cases args with
    | nil => simp [selDims] at h
    | cons a as =>
      rw [axesOf_cons, templateOf_cons]
      cases a with
      | «at» k =>
        simp only [selDims] at h
        split at h
        case isFalse => simp at h
        rename_i hs
        obtain ⟨x, hx⟩ := Option.isSome_iff_exists.1 hs
        have hx' := pyIndex_eq_some.1 hx
        have e : (viewArg d (.at k)).2 = (x : Int) := by
          simp only [viewArg]
          rw [toInt32_eq]
          · split <;> omega
          · constructor <;> split <;> omega
        rw [e]
        have := applyView_fixed (t := (x : Int)) (by omega) b _ _ (ih hd' h hj true)
        simpa [viewArg, selIndex, hx, toIdx] using this
      | all =>
        simp only [selDims, Option.map_eq_some_iff] at h
        obtain ⟨vd', h', rfl⟩ := h
        cases js with
        | nil => exact hj.elim
        | cons j js =>
          have hj1 := hj.1
          have := applyView_axis b _ _ (d := d) (o := 0) (i := j) (by omega) (by omega) ⟨by omega, by omega⟩
            (ih hd' h' hj.2 false)
          simpa [viewArg, selIndex, toIdx] using this
      | range x y =>
        simp only [selDims] at h
        split at h
        case isFalse => simp at h
        rename_i hs
        simp only [Option.map_eq_some_iff] at h
        obtain ⟨vd', h', rfl⟩ := h
        cases js with
        | nil => exact hj.elim
        | cons j js =>
          have hj1 := hj.1
          have e : (if y < 0 then (d : Int) + y else y) = rangeEnd d y := by
            unfold rangeEnd
            split <;> omega
          have := applyView_axis b _ _ (d := rangeEnd d y - x) (o := x) (i := j) (by omega) (by omega)
            ⟨by omega, by omega⟩ (ih hd' h' hj.2 false)
          have ex : ((x.toNat : Nat) : Int) = x := by omega
          simp only [viewArg, Option.toList_some, List.singleton_append, toIdx, List.map_cons, List.zipWith_cons_cons, e,
            selIndex] at this ⊢
          rw [show Int.ofNat (x.toNat + j) = (j : Int) + x by simp; omega]
          exact this

theorem zip_axes (as : List (Int × Int)) (inds : List Int) :
    ((as.map (·.2)).zip (as.map (·.1))).zipWith (fun a i => (a.1, a.2, i)) inds = as.zipWith (fun a i => (a.2, a.1, i)) inds := by
  induction as generalizing inds with
  | nil => rfl
  | cons a as ih => cases inds with
    | nil => rfl
    | cons i inds => simp [ih]

theorem FuncIs.view {t : FuncTensor α} {dims : List Nat} {F : List Nat → α} (ht : FuncIs t dims F)
    (hd : ∀ d ∈ dims, d ≤ 2 ^ 31) {args : List Sel} {vd : List Nat} (h : selDims dims args = some vd) :
    FuncIs (t.view args) vd fun js => F (selIndex dims args js) where
  dims := by
    have := view_dims h
    simp only [FuncTensor.view, FuncTensor.mkView, ht.dims]
    exact this
  call := by
    intro js hj
    have := applyView_ok hd h hj false
    simp only [FuncTensor.view, ht.dims]
    unfold axesOf templateOf at this
    simp only [FuncTensor.mkView]
    rw [zip_axes, this, Outcome.ok_bind]
    refine ht.call _ ?_
    exact (selIndex_spec (ss := dims) rfl h hj).1

theorem selDims_le {dims : List Nat} {args : List Sel} {vd : List Nat} (h : selDims dims args = some vd) {B : Nat}
    (hB : ∀ d ∈ dims, d ≤ B) : ∀ d ∈ vd, d ≤ B := by
  induction dims generalizing args vd with
  | nil => cases args <;> simp_all [selDims]
  | cons d dims ih =>
    have hd1 := hB d (by simp)
    have hd' : ∀ x ∈ dims, x ≤ B := fun x hx => hB x (by simp [hx])
    cases args with
    | nil => simp [selDims] at h
    | cons a as =>
      cases a with
      | «at» k =>
        simp only [selDims] at h
        split at h
        · exact ih h hd'
        · simp at h
      | all =>
        simp only [selDims, Option.map_eq_some_iff] at h
        obtain ⟨vd', h', rfl⟩ := h
        intro x hx
        rcases List.mem_cons.1 hx with rfl | hx
        · exact hd1
        · exact ih h' hd' x hx
      | range x y =>
        simp only [selDims] at h
        split at h
        case isFalse => simp at h
        rename_i hs
        simp only [Option.map_eq_some_iff] at h
        obtain ⟨vd', h', rfl⟩ := h
        intro x hx
        rcases List.mem_cons.1 hx with rfl | hx
        · omega
        · exact ih h' hd' x hx

theorem FuncIs.chain {t : FuncTensor α} {dims : List Nat} {F : List Nat → α} (ht : FuncIs t dims F)
    (hd : ∀ d ∈ dims, d ≤ 2 ^ 31) {chain : List (List Sel)} {vd : List Nat} (h : chainDims dims chain = some vd) :
    FuncIs (chain.foldl FuncTensor.view t) vd (fun js => F (chainIndex dims chain js)) ∧ ∀ d ∈ vd, d ≤ 2 ^ 31 := by
  induction chain generalizing t dims F with
  | nil =>
    simp only [chainDims, Option.some.injEq] at h
    subst h
    exact ⟨ht, hd⟩
  | cons s ss ih =>
    simp only [chainDims, Option.bind_eq_some_iff] at h
    obtain ⟨vd', h1, h2⟩ := h
    obtain ⟨a, b⟩ := ih (ht.view hd h1) (selDims_le h1 hd) h2
    refine ⟨?_, b⟩
    simp only [chainIndex, h1, Option.getD_some]
    exact a

theorem funcPointer_is (dims : List Nat) (f : List Int → α) :
    FuncIs (funcPointerTensor (toIdx dims) f) dims fun js => f (toIdx js) := ⟨rfl, fun _ _ => rfl⟩

theorem toTensor_ok [Inhabited α] (z : Nat → α) {t : FuncTensor α} {dims : List Nat} {F : List Nat → α} (ht : FuncIs t dims F)
    (hd0 : dims ≠ []) (hd : ∀ d ∈ dims, d ≤ 2 ^ 31) {order : List (List Nat)} (ho : order.Perm (box dims)) :
    ∃ T, t.toTensor z order = .ok T ∧ T.IsTensor ∧ T.dims = dims ∧ T.Represents F := by
  have ed : t.dims.map Int.toNat = dims := by
    rw [ht.dims]; simp [toIdx, Function.comp_def]
  have hT := isTensor_mk' z hd0
  obtain ⟨f, hf⟩ := exists_represents hT.wf
  have key : ∀ (l : List (List Nat)), (∀ i ∈ l, InBox i dims) → ∀ (T : Strided α) (g : List Nat → α), T.IsTensor → T.dims = dims →
      T.Represents g → ∃ T', l.foldlM (convertStep t) T = .ok T' ∧ T'.IsTensor ∧ T'.dims = dims ∧
        T'.Represents fun i => if i ∈ l then F i else g i := by
    intro l
    induction l with
    | nil => intro _ T g h1 h2 h3; exact ⟨T, rfl, h1, h2, by simpa using h3⟩
    | cons i l ih =>
      intro hl T g h1 h2 h3
      have hi := hl i (by simp)
      have hib : ∀ x ∈ toIdx i, IsInt32 x := by
        intro x hx
        clear ih hl
        have : ∀ (i ds : List Nat), InBox i ds → (∀ d ∈ ds, d ≤ 2 ^ 31) → ∀ x ∈ toIdx i, IsInt32 x := by
          intro i
          induction i with
          | nil => intro _ _ _ x hx; simp [toIdx] at hx
          | cons a i ih =>
            intro ds hb hds x hx
            cases ds with
            | nil => exact hb.elim
            | cons d ds =>
              simp only [toIdx, List.map_cons, List.mem_cons] at hx
              rcases hx with rfl | hx
              · have := hb.1
                have := hds d (by simp)
                exact ⟨by simp only [Int.ofNat_eq_natCast]; omega, by simp only [Int.ofNat_eq_natCast]; omega⟩
              · exact ih ds hb.2 (fun y hy => hds y (by simp [hy])) x hx
        exact this i dims hi hd x hx
      have hr := (ht.read hd hib (by simpa [toIdx] using hi.length)).1 i (pyIndices_toIdx hi)
      obtain ⟨T1, e1, fr, r1⟩ := write_represents h1.wf h3 (j := i) (by rw [h2]; exact hi) (F i)
      obtain ⟨T2, e2, a1, a2, a3⟩ := ih (fun x hx => hl x (by simp [hx])) T1 _ (fr.isTensor h1) (fr.dims.trans h2) r1
      refine ⟨T2, ?_, a1, a2, ?_⟩
      · rw [List.foldlM_cons]
        unfold convertStep
        rw [hr, Outcome.ok_bind, e1, Outcome.ok_bind]
        exact e2
      · intro j hj
        rw [a3 j hj]
        by_cases h1 : j ∈ l
        · simp [h1]
        · by_cases h2 : j = i <;> simp [h1, h2]
  obtain ⟨T, e, a1, a2, a3⟩ := key order (fun i hi => mem_box.1 (ho.mem_iff.1 hi)) _ f hT rfl hf
  refine ⟨T, ?_, a1, a2, ?_⟩
  · unfold FuncTensor.toTensor
    rw [ed]
    exact e
  · intro j hj
    rw [a3 j hj]
    beta_reduce
    rw [if_pos (ho.mem_iff.2 (mem_box.2 (by rw [← a2]; exact hj)))]

theorem fix_range {ds is js : List Int} (h : fixIndices ds is = .ok js) (hl : is.length = ds.length) :
    js.length = ds.length ∧ ∀ i, i < ds.length → 0 ≤ js.getD i 0 ∧ js.getD i 0 < ds.getD i 0 := by
  induction ds generalizing is js with
  | nil =>
    cases is with
    | nil => simp only [fixIndices, Outcome.ok.injEq] at h; subst h; simp
    | cons i is => simp at hl
  | cons d ds ih =>
    cases is with
    | nil => simp at hl
    | cons i is =>
      unfold fixIndices at h
      simp only at h
      by_cases hc : d ≤ (if i < 0 then toInt32 (i + d) else i) ∨ (if i < 0 then toInt32 (i + d) else i) < 0
      · rw [if_pos hc] at h; simp at h
      rw [if_neg hc] at h
      cases hr : fixIndices ds is with
      | error m => rw [hr] at h; cases h
      | ub m => rw [hr] at h; cases h
      | ok js' =>
        rw [hr, Outcome.ok_bind] at h
        cases h
        obtain ⟨h1, h2⟩ := ih hr (by simpa using hl)
        refine ⟨by simp [h1], fun k hk => ?_⟩
        cases k with
        | zero => simp only [List.getD_cons_zero]; omega
        | succ k => simpa using h2 k (by simpa using hk)

theorem applyView_full (b : Bool) : ∀ (template ds offsets js : List Int), template.length = ds.length →
    offsets.length = ds.length → js.length = ds.length → (∀ i, i < ds.length → template.getD i 0 < 0) →
    (∀ i, i < ds.length → offsets.getD i 0 = 0) →
    (∀ i, i < ds.length → 0 ≤ js.getD i 0 ∧ js.getD i 0 < ds.getD i 0 ∧ IsInt32 (js.getD i 0)) →
    applyView b template ((ds.zip offsets).zipWith (fun a i => (a.1, a.2, i)) js) = .ok js := by
  intro template
  induction template generalizing b with
  | nil =>
    intro ds offsets js h1 h2 h3 _ _ _
    obtain rfl : ds = [] := by cases ds <;> simp_all
    obtain rfl : js = [] := by cases js <;> simp_all
    rfl
  | cons t template ih =>
    intro ds offsets js h1 h2 h3 ht ho hj
    cases ds with
    | nil => simp at h1
    | cons d ds => cases offsets with
      | nil => simp at h2
      | cons o offsets => cases js with
        | nil => simp at h3
        | cons j js =>
          have t0 := ht 0 (by simp)
          have o0 := ho 0 (by simp)
          have j0 := hj 0 (by simp)
          simp only [List.getD_cons_zero] at t0 o0 j0
          subst o0
          simp only [List.zip_cons_cons, List.zipWith_cons_cons]
          rw [applyView, if_neg (by omega), if_neg (by omega), if_neg (by omega),
            ih false ds offsets js (by simpa using h1) (by simpa using h2) (by simpa using h3)
              (fun i hi => by simpa using ht (i + 1) (by simpa using hi))
              (fun i hi => by simpa using ho (i + 1) (by simpa using hi))
              (fun i hi => by simpa using hj (i + 1) (by simpa using hi)), Int.add_zero, toInt32_eq j0.2.2]
          rfl

end Einsums
