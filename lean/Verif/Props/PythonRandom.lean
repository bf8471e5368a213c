import Verif.Spec.PythonRandom
import Verif.Props.PythonIndices
import Verif.Props.PythonTensor
/-
C175: tensors of random numbers made in Python.
-/
namespace Einsums.Props
open Spec Model

variable {R : Type} [CommRing R]

theorem inComplexLists_some (t : PyType) : inComplexLists (some t) = true ↔ IsComplexType t := by
  cases t <;> simp [inComplexLists, IsComplexType]

theorem pyTensorKind_eq {t : PyType} {k : ElemKind} (h : kindFor t = some k) :
    pyTensorKind (some t) = .ok k ∧ inComplexLists (some t) = isComplexKind k := by
  cases t <;> simp only [kindFor, Option.some.injEq, reduceCtorEq] at h <;> subst h <;> exact ⟨by decide, by decide⟩

/-- What one pass of the loop takes from the function. -/
theorem pyDraw_eq (cplx cf : Bool) (rnd : R → R) (f : Nat → PyNum R) (p : Nat) (hc : ∀ n, IsComplexType (f n).type ↔ cf = true)
    (hs : ∀ n, ¬ IsSingleType (f n).type) (hi : cf = false → ∀ n, (f n).im = 0) :
    let x := if cplx then pyComplexFunc f (1 + p * drawsPer cplx cf) else pyRealFunc f (1 + p * drawsPer cplx cf)
    pyElem cplx rnd x.1 = pyDrawn cplx cf rnd f p ∧ x.2 = 1 + (p + 1) * drawsPer cplx cf ∧
      (if cplx then x.1.type = .complex ∨ x.1.type = .c128 else x.1.type = .float ∨ x.1.type = .f64 ∨ x.1.type = .int) := by
  have hl : inComplexLists (some (f 0).type) = cf := by
    rw [Bool.eq_iff_iff, inComplexLists_some]; exact hc 0
  have e1 : 1 + p * 2 = 1 + 2 * p := by omega
  have e2 : 1 + 2 * p + 1 = 2 + 2 * p := by omega
  cases cplx <;> cases cf
  · have h1 := hc (1 + p); have h2 := hs (1 + p)
    simp only [pyRealFunc, hl, drawsPer, pyElem, pyDrawn]
    refine ⟨by simp, by simp; omega, ?_⟩
    simp only [Bool.false_and, Bool.false_eq_true, if_false, Nat.mul_one]
    generalize (f (1 + p)).type = t at h1 h2
    cases t <;> simp_all [IsComplexType, IsSingleType]
  · have h1 := hc (1 + p); have h2 := hs (1 + p)
    simp only [pyRealFunc, hl, drawsPer, pyElem, pyDrawn, Bool.false_and, Bool.false_eq_true, if_false, if_true, Nat.mul_one]
    unfold pyReal
    generalize f (1 + p) = y at h1 h2
    obtain ⟨t, a, b⟩ := y
    cases t <;> simp_all [IsComplexType, IsSingleType] <;> omega
  · have h1 := hc (1 + 2 * p); have h2 := hs (1 + 2 * p)
    have h3 := hc (2 + 2 * p); have h4 := hs (2 + 2 * p)
    have h5 := hi rfl (1 + 2 * p); have h6 := hi rfl (2 + 2 * p)
    simp only [pyComplexFunc, hl, drawsPer, pyElem, pyDrawn, Bool.true_and, Bool.not_false, Bool.false_eq_true, if_false, if_true, e1, e2, complexSum,
      h5, h6, sub_zero, zero_add]
    refine ⟨trivial, by omega, ?_⟩
    generalize (f (1 + 2 * p)).type = t at h1 h2
    generalize (f (2 + 2 * p)).type = u at h3 h4
    cases t <;> cases u <;> simp_all [IsComplexType, IsSingleType, complexSumType]
  · have h1 := hc (1 + p); have h2 := hs (1 + p)
    simp only [pyComplexFunc, hl, drawsPer, pyElem, pyDrawn, Bool.true_and, Bool.not_true, Bool.false_eq_true, if_false, if_true, Nat.mul_one]
    refine ⟨trivial, by omega, ?_⟩
    generalize (f (1 + p)).type = t at h1 h2
    cases t <;> simp_all [IsComplexType, IsSingleType]

/-- An element assigned a number of a type that the overload for numbers takes. -/
theorem pySetItem_number (cplx : Bool) (rnd : R → R) (v : RtView (R × R)) (args : List PyArg) (x : PyNum R)
    (h : if cplx then x.type = .complex ∨ x.type = .c128 else x.type = .float ∨ x.type = .f64 ∨ x.type = .int) :
    pySetItem cplx rnd v args x = pySetTuple v args (pyElem cplx rnd x) [] := by
  unfold pySetItem
  cases cplx
  · rcases (by simpa using h : x.type = .float ∨ x.type = .f64 ∨ x.type = .int) with h | h | h <;> simp [h]
  · rcases (by simpa using h : x.type = .complex ∨ x.type = .c128) with h | h <;> simp [h]

/-- An element assigned a scalar of NumPy in single precision. -/
theorem pySetItem_single (cplx : Bool) (rnd : R → R) (v : RtView (R × R)) (ks : List Int) (x : PyNum R)
    (hx : IsSingleType x.type) (hk : ks.length = v.view.dims.length) :
    (pySetItem cplx rnd v (ks.map .int) x).isError = true := by
  have hany : (ks.map PyArg.int).any PyArg.isSlice = false := by
    rw [List.any_eq_false]
    intro a ha
    obtain ⟨k, _, rfl⟩ := List.mem_map.1 ha
    simp [PyArg.isSlice]
  unfold pySetItem
  rw [if_neg (by rcases hx with h | h <;> cases cplx <;> simp [h]), if_pos (by rcases hx with h | h <;> simp [h])]
  exact C90_setitem_rejects v _ _ _ _ (.inr ⟨by simpa using hk, hany⟩)

theorem inBox_small {i ds : List Nat} (h : InBox i ds) (hd : ∀ d ∈ ds, d < 2 ^ 63) : ∀ k ∈ toIdx i, 0 ≤ k ∧ k < 2 ^ 63 := by
  induction ds generalizing i with
  | nil => cases i with
    | nil => intro k hk; simp [toIdx] at hk
    | cons a i => exact h.elim
  | cons d ds ih => cases i with
    | nil => exact h.elim
    | cons a i =>
      intro k hk
      simp only [toIdx, List.map_cons, List.mem_cons] at hk
      rcases hk with rfl | hk
      · have := hd d (by simp); have := h.1
        simp only [Int.ofNat_eq_natCast]; omega
      · exact ih h.2 (fun d h => hd d (by simp [h])) k hk

theorem box_get {dims : List Nat} {c : Nat} (h : c < numel dims) :
    ∃ i, (box dims).drop c = i :: (box dims).drop (c + 1) ∧ InBox i dims ∧ rowMajor i dims = c := by
  have hl : (box dims).length = numel dims := by
    have := congrArg List.length (map_rowMajor_box dims); simpa using this
  have hc : c < (box dims).length := by omega
  refine ⟨(box dims)[c], List.drop_eq_getElem_cons hc, mem_box.1 (List.getElem_mem hc), ?_⟩
  have h2 : ((box dims).map (fun i => rowMajor i dims))[c]'(by simpa using hc) = c := by
    simp only [map_rowMajor_box, List.getElem_range]
  simpa using h2

/-- The loop from the row-major position `c` on. -/
theorem pyRandom_loop (cplx cf : Bool) (rnd : R → R) (f : Nat → PyNum R) (hc : ∀ n, IsComplexType (f n).type ↔ cf = true)
    (hs : ∀ n, ¬ IsSingleType (f n).type) (hi : cf = false → ∀ n, (f n).im = 0) (dims : List Nat)
    (hd : ∀ d ∈ dims, d < 2 ^ 63) (n c : Nat) (hn : c + n = numel dims) (v : RtView (R × R)) (w : v.WF)
    (hv : v.view.dims = dims) (g : List Nat → R × R) (hg : v.view.Represents g)
    (hgc : ∀ i, InBox i dims → rowMajor i dims < c → g i = pyDrawn cplx cf rnd f (rowMajor i dims)) :
    ∃ v', ((box dims).drop c).foldlM (pyRandomStep cplx rnd f) (v, 1 + c * drawsPer cplx cf) =
        .ok (v', 1 + numel dims * drawsPer cplx cf) ∧
      v'.WF ∧ v'.view.dims = dims ∧ v'.view.Represents fun i => pyDrawn cplx cf rnd f (rowMajor i dims) := by
  induction n generalizing c v g with
  | zero =>
    have hl : (box dims).length = numel dims := by
      have := congrArg List.length (map_rowMajor_box dims); simpa using this
    refine ⟨v, ?_, w, hv, ?_⟩
    · rw [List.drop_eq_nil_of_le (by omega), show c = numel dims by omega]; rfl
    · intro i h
      rw [hv] at h
      simp only [← hgc i h (by have := rowMajor_lt h; omega)]
      exact hg i (by rw [hv]; exact h)
  | succ n ih =>
    obtain ⟨i, e, hib, hir⟩ := box_get (dims := dims) (c := c) (by omega)
    obtain ⟨d1, d2, d3⟩ := pyDraw_eq cplx cf rnd f c hc hs hi
    obtain ⟨v', e', w', fr, hv'⟩ := (C86_element_partial v w g hg (toIdx i) i (inBox_small hib hd)
      (by rw [hv]; exact pyIndices_toIdx hib)).2 (pyDrawn cplx cf rnd f c) []
    have hstep : pyRandomStep cplx rnd f (v, 1 + c * drawsPer cplx cf) i = .ok (v', 1 + (c + 1) * drawsPer cplx cf) := by
      unfold pyRandomStep
      simp only
      rw [pySetItem_number _ _ _ _ _ d3, d1, e', Outcome.ok_bind, d2]
      rfl
    rw [e, List.foldlM_cons, hstep, Outcome.ok_bind]
    refine ih (c + 1) (by omega) v' w' (by rw [fr.dims, hv]) _ hv' ?_
    intro j hj hlt
    by_cases hji : j = i
    · subst hji; rw [if_pos rfl, hir]
    · rw [if_neg hji]
      exact hgc j hj (by
        have : rowMajor j dims ≠ c := fun h => hji (rowMajor_inj hj hib (by rw [h, hir]))
        omega)

theorem pyCreateRandom_eq (rnd : ElemKind → R → R) (z : Nat → R × R) (dims : List Nat) (t : PyType) (k : ElemKind)
    (hk : kindFor t = some k) (f : Nat → PyNum R) :
    pyCreateRandom rnd z dims (some t) f =
      ((box dims).foldlM (pyRandomStep (isComplexKind k) (rnd k) f) (rtvWhole (rtNew z dims) (rtNew z dims).data.length, 1) >>=
        fun r => .ok (k, r.1, r.2)) := by
  obtain ⟨h1, h2⟩ := pyTensorKind_eq hk
  have e : TensorIndices.init dims none = .ok ⟨0, pyStrides dims, false, numel dims⟩ := by
    unfold TensorIndices.init; simp only [init_fold]
  have hcoll := collect_forward (dims := dims) (numel dims + 1) 0 (by omega) (by omega)
  simp only [List.drop_zero, Nat.cast_zero] at hcoll
  unfold pyCreateRandom
  rw [h1, e, Outcome.ok_bind, Outcome.ok_bind]
  simp only
  rw [hcoll, Outcome.ok_bind, h2]
  rfl

omit [CommRing R] in
theorem rtvWhole_new (z : Nat → R × R) (dims : List Nat) :
    (rtvWhole (rtNew z dims) (rtNew z dims).data.length).WF :=
  ⟨(rtNew_isTensor z dims).wf, rfl, (rtNew_isTensor z dims).length⟩

/-- **C175 (elements, partial).** `create_random_tensor(name, dims, dtype, f)` for every shape, every supported data type and
every function that returns real numbers always or complex numbers always, none of them a NumPy scalar of single precision:
the tensor has the class of the data type and the shape, and its elements in row-major order are made of the values of the
calls after the first, each used once: one value an element, of which a real tensor takes the real part, or two real values
as the parts of a complex element.
Missing: values in single precision and functions whose values are now real and now complex (refuted below). -/
theorem C175_elements_partial (rnd : ElemKind → R → R) (z : Nat → R × R) (dims : List Nat) (hd : ∀ d ∈ dims, d < 2 ^ 63)
    (t : PyType) (k : ElemKind) (hk : kindFor t = some k) (f : Nat → PyNum R) (cf : Bool)
    (hc : ∀ n, IsComplexType (f n).type ↔ cf = true) (hs : ∀ n, ¬ IsSingleType (f n).type)
    (hi : cf = false → ∀ n, (f n).im = 0) :
    ∃ v, pyCreateRandom rnd z dims (some t) f = .ok (k, v, 1 + numel dims * drawsPer (isComplexKind k) cf) ∧ v.WF ∧
      v.view.dims = dims ∧
      v.view.Represents fun i => pyDrawn (isComplexKind k) cf (rnd k) f (rowMajor i dims) := by
  have w := rtvWhole_new z dims
  have : Inhabited (R × R) := ⟨(0, 0)⟩
  obtain ⟨g, hg⟩ := exists_represents w.view
  obtain ⟨v, e, h1, h2, h3⟩ := pyRandom_loop (isComplexKind k) cf (rnd k) f hc hs hi dims hd (numel dims) 0 (by omega) _ w rfl g hg
    (fun i _ h => absurd h (Nat.not_lt_zero _))
  refine ⟨v, ?_, h1, h2, h3⟩
  rw [List.drop_zero, Nat.zero_mul, Nat.add_zero] at e
  rw [pyCreateRandom_eq rnd z dims t k hk, e, Outcome.ok_bind]

/-- **C175 (data types).** A data type without a class of tensors is refused, and so is it by `create_tensor`. -/
theorem C175_types (rnd : ElemKind → R → R) (z : Nat → R × R) (dims : List Nat) (dtype : Option PyType) (f : Nat → PyNum R)
    (h : dtype.bind kindFor = none) :
    (pyTensorKind dtype).isError = true ∧ (pyCreateRandom rnd z dims dtype f).isError = true := by
  have e : pyTensorKind dtype = .error "Can not create tensor with data type" := by
    cases dtype with
    | none => decide
    | some t => cases t <;> simp [kindFor] at h <;> decide
  refine ⟨by rw [e]; rfl, ?_⟩
  unfold pyCreateRandom
  rw [e]; rfl

/-- **C175 (refuted, single precision).** With a function that returns NumPy scalars of single precision, for instance
`lambda: rng.random(dtype=np.float32)`, no tensor with elements can be made, not even one of single precision: the first
assignment throws, because the scalar is taken for a buffer. -/
theorem C175_single_refuted (rnd : ElemKind → R → R) (z : Nat → R × R) (dims : List Nat) (hne : numel dims ≠ 0) (t : PyType)
    (k : ElemKind) (hk : kindFor t = some k) (f : Nat → PyNum R) (hs : ∀ n, IsSingleType (f n).type) :
    (pyCreateRandom rnd z dims (some t) f).isError = true := by
  obtain ⟨i, e, hib, hir⟩ := box_get (dims := dims) (c := 0) (by omega)
  rw [List.drop_zero] at e
  rw [pyCreateRandom_eq rnd z dims t k hk, e, List.foldlM_cons]
  have hx : IsSingleType (if isComplexKind k then pyComplexFunc f 1 else pyRealFunc f 1).1.type := by
    have h1 := hs 1
    have h2 := hs 2
    cases isComplexKind k <;> simp only [pyComplexFunc, pyRealFunc, Bool.false_eq_true, if_false, if_true] <;> split
    · unfold pyReal
      generalize f 1 = y at h1
      obtain ⟨t, a, b⟩ := y
      cases t <;> simp_all [IsSingleType]
    · exact h1
    · exact h1
    · unfold complexSum complexSumType IsSingleType
      rcases h1 with h1 | h1 <;> rcases h2 with h2 | h2 <;> simp [h1, h2]
  have hl : (toIdx i).length = (rtvWhole (rtNew z dims) (rtNew z dims).data.length).view.dims.length := by
    have := pyIndices_length (pyIndices_toIdx hib)
    simpa [rtvWhole, rtNew] using this
  have := pySetItem_single (isComplexKind k) (rnd k) (rtvWhole (rtNew z dims) (rtNew z dims).data.length) (toIdx i) _ hx hl
  unfold pyRandomStep
  simp only
  cases hq : pySetItem (isComplexKind k) (rnd k) (rtvWhole (rtNew z dims) (rtNew z dims).data.length)
      ((toIdx i).map .int) (if isComplexKind k then pyComplexFunc f 1 else pyRealFunc f 1).1 with
  | ok a => rw [hq] at this; cases this
  | ub a => rw [hq] at this; cases this
  | error a => rfl

/-- **C175 (refuted, mixed values).** With a function whose first value is real and whose second is a Python `complex`, no
real tensor with elements can be made, although the real parts of complex values are used when the first value is
complex. -/
theorem C175_mixed_refuted (rnd : ElemKind → R → R) (z : Nat → R × R) (dims : List Nat) (hne : numel dims ≠ 0) (t : PyType)
    (k : ElemKind) (hk : kindFor t = some k) (hr : isComplexKind k = false) (f : Nat → PyNum R)
    (h0 : ¬ IsComplexType (f 0).type) (h1 : (f 1).type = .complex) :
    (pyCreateRandom rnd z dims (some t) f).isError = true := by
  obtain ⟨i, e, hib, hir⟩ := box_get (dims := dims) (c := 0) (by omega)
  rw [List.drop_zero] at e
  rw [pyCreateRandom_eq rnd z dims t k hk, e, List.foldlM_cons, hr]
  have hl : inComplexLists (some (f 0).type) = false := by
    rw [← Bool.not_eq_true, inComplexLists_some]; exact h0
  unfold pyRandomStep
  simp [pyRealFunc, hl, pySetItem, h1]
  rfl

/-- A function that returns 0, 1, 2, … as Python `float`. -/
def countFloats (n : Nat) : PyNum Int := ⟨.float, n, 0⟩

example : (∀ n, IsComplexType (countFloats n).type ↔ false = true) ∧ (∀ n, ¬ IsSingleType (countFloats n).type) ∧
    kindFor .complex = some .Z ∧ drawsPer (isComplexKind .Z) false = 2 ∧
    (∃ v, pyCreateRandom (fun _ x => x) (fun _ => (9, 9)) [2, 2] (some .complex) countFloats = .ok (.Z, v, 9) ∧
      v.view.data = [(1, 2), (3, 4), (5, 6), (7, 8)]) ∧
    (∃ v, pyCreateRandom (fun _ x => x) (fun _ => (9, 9)) [2, 2] (some .f32) countFloats = .ok (.F, v, 5) ∧
      v.view.data = [(1, 0), (2, 0), (3, 0), (4, 0)]) :=
  ⟨fun n => by simp [countFloats, IsComplexType], fun n => by simp [countFloats, IsSingleType], rfl, rfl,
    ⟨⟨⟨[(1, 2), (3, 4), (5, 6), (7, 8)], 0, [2, 2], [2, 1]⟩, [2, 1], 4⟩, by decide +kernel, rfl⟩,
    ⟨⟨⟨[(1, 0), (2, 0), (3, 0), (4, 0)], 0, [2, 2], [2, 1]⟩, [2, 1], 4⟩, by decide +kernel, rfl⟩⟩

/-- Functions of the refutations: one returns `np.float32`, one 0.0 first and then 1j. -/
example : (∀ n : Nat, IsSingleType (⟨.f32, (n : Int), 0⟩ : PyNum Int).type) ∧ numel [2] ≠ 0 ∧
    pyCreateRandom (fun _ x => x) (fun _ => (0, 0)) [2] (some .f32) (fun n => (⟨.f32, (n : Int), 0⟩ : PyNum Int)) =
      .error "Can not assign buffer object to a single position!" ∧
    pyCreateRandom (fun _ x => x) (fun _ => (0, 0)) [2] (some .f64)
        (fun n => if n = 0 then (⟨.float, (0 : Int), 0⟩ : PyNum Int) else ⟨.complex, 0, 1⟩) =
      .error "incompatible function arguments" ∧ Option.bind (some PyType.int) kindFor = none :=
  ⟨fun _ => .inl rfl, by decide, by decide +kernel, by decide +kernel, rfl⟩

end Einsums.Props
