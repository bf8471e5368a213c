import Verif.Proofs.FunctionTensor
/-
C46 (function tensors) and C72 (the full-view flag of their views).
-/
namespace Einsums.Props
open Spec Model

/-- **C46 (partial).** For every function, every shape (dimensions up to 2^31), every chain of views with valid integers,
`All` and ranges, and every list of `int` indices, one per dimension: reading applies the function to the composed
normalised index, and throws if an index is out of range.  (The empty chain is the function tensor itself.) -/
theorem C46_read_partial {α : Type} (f : List Int → α) (dims : List Nat) (hd : ∀ d ∈ dims, d ≤ 2 ^ 31) (chain : List (List Sel))
    (vd : List Nat) (hc : chainDims dims chain = some vd) (idx : List Int) (hi : ∀ i ∈ idx, IsInt32 i)
    (hl : idx.length = vd.length) :
    let v := chain.foldl FuncTensor.view (funcPointerTensor (toIdx dims) f)
    v.dims = toIdx vd ∧
      match pyIndices vd idx with
      | some js => v.read idx = .ok (f (toIdx (chainIndex dims chain js)))
      | none => (v.read idx).isError = true := by
  intro v
  obtain ⟨h, hb⟩ := (funcPointer_is dims f).chain hd hc
  refine ⟨h.dims, ?_⟩
  have := h.read hb hi hl
  split
  · rename_i js hjs; exact this.1 js hjs
  · rename_i hn; exact this.2 hn

/-- **C46 (conversion).** Under the same conditions, and for every order of the iterations, converting the view to a tensor
gives a tensor with the same shape and, at each index, the value of the function at the composed index. -/
theorem C46_convert {α : Type} [Inhabited α] (z : Nat → α) (f : List Int → α) (dims : List Nat) (hd : ∀ d ∈ dims, d ≤ 2 ^ 31)
    (chain : List (List Sel)) (vd : List Nat) (hc : chainDims dims chain = some vd) (hv : vd ≠ [])
    (order : List (List Nat)) (ho : order.Perm (box vd)) :
    ∃ T, (chain.foldl FuncTensor.view (funcPointerTensor (toIdx dims) f)).toTensor z order = .ok T ∧ T.IsTensor ∧
      T.dims = vd ∧ T.Represents fun js => f (toIdx (chainIndex dims chain js)) := by
  obtain ⟨h, hb⟩ := (funcPointer_is dims f).chain hd hc
  exact toTensor_ok z h hv hb ho

/-- **C46 (Kronecker delta).** 1 where the two normalised indices agree, 0 elsewhere; out of range throws. -/
theorem C46_delta {α : Type} [One α] [Zero α] (n : Nat) (hn : n ≤ 2 ^ 31) (i j : Int) (hi : IsInt32 i) (hj : IsInt32 j) :
    match pyIndex n i, pyIndex n j with
    | some a, some b => (kroneckerDelta n : FuncTensor α).read [i, j] = .ok (if a = b then 1 else 0)
    | _, _ => ((kroneckerDelta n : FuncTensor α).read [i, j]).isError = true := by
  have h : FuncIs (kroneckerDelta n : FuncTensor α) [n, n] fun js => if js.getD 0 0 = js.getD 1 0 then 1 else 0 := by
    refine ⟨rfl, fun js hjs => ?_⟩
    match js, hjs with
    | [a, b], _ => simp [kroneckerDelta, toIdx]
  have := h.read (is := [i, j]) (by simpa using hn) (by simp [hi, hj]) rfl
  cases ha : pyIndex n i with
  | none => exact this.2 (by simp [pyIndices, ha])
  | some a =>
    cases hb : pyIndex n j with
    | none => exact this.2 (by simp [pyIndices, ha, hb])
    | some b => simpa using this.1 [a, b] (by simp [pyIndices, ha, hb])

-- a chain of two views of a 4 × 5 × 6 tensor
example : chainDims [4, 5, 6] [[.range 1 (-1), .all, .at (-2)], [.at 1, .range 2 5]] = some [3] ∧
    chainIndex [4, 5, 6] [[.range 1 (-1), .all, .at (-2)], [.at 1, .range 2 5]] [2] = [2, 4, 4] := by decide
example : (((funcPointerTensor [4, 5, 6] fun l => l.sum).view [.range 1 (-1), .all, .at (-2)]).view [.at 1, .range 2 5]).read
    [-1] = .ok 10 := by decide

/-- **C46 (refuted: wide indices).** An index of a wider type is truncated to `int`: index 2^32 of a tensor with three
elements is read as index 0. -/
theorem C46_wide_index_refuted (f : List Int → Int) :
    pyIndices [3] [2 ^ 32] = none ∧ (funcPointerTensor [3] f).read [2 ^ 32] = .ok (f [0]) := by
  constructor
  · decide
  · rfl

/-- **C46 (refuted: view arguments).** Invalid arguments of a view are not rejected: an integer beyond the axis, an integer
below minus its length (the function is then called with the index on the wrong axis), a range that ends behind the axis,
and a range with a negative start. -/
theorem C46_view_arguments_refuted (f : List Int → Int) :
    selDims [3, 4] [.at 5, .all] = none ∧ ((funcPointerTensor [3, 4] f).view [.at 5, .all]).read [1] = .ok (f [5, 1]) ∧
    selDims [3, 4] [.at (-5), .all] = none ∧ ((funcPointerTensor [3, 4] f).view [.at (-5), .all]).read [1] = .ok (f [1, -1]) ∧
    selDims [3] [.range 0 9] = none ∧ ((funcPointerTensor [3] f).view [.range 0 9]).read [7] = .ok (f [7]) ∧
    selDims [3] [.range (-2) 3] = none ∧ ((funcPointerTensor [3] f).view [.range (-2) 3]).read [0] = .ok (f [-2]) := by
  refine ⟨by decide, rfl, by decide, rfl, by decide, rfl, by decide, rfl⟩

/-! ### C72 -/

/-- **C72 (partial).** A view made with a name that calls itself a full view of the underlying tensor has its shape, and the
same outcome at every index. -/
theorem C72_full_view_partial {α : Type} (t : FuncTensor α) (offsets dims template : List Int)
    (ho : offsets.length = dims.length) (ht : template.length = t.dims.length) (hd : ∀ d ∈ t.dims, d ≤ 2 ^ 31)
    (h : namedFullView t.dims dims offsets template = true) :
    (t.mkView offsets dims template).dims = t.dims ∧
      ∀ idx, (t.mkView offsets dims template).read idx = t.read idx := by
  unfold namedFullView at h
  by_cases hl : dims.length = t.dims.length
  case neg => rw [if_pos hl] at h; simp at h
  rw [if_neg (by simpa using hl)] at h
  simp only [List.all_eq_true, List.mem_range, Bool.and_eq_true, decide_eq_true_eq] at h
  have ed : dims = t.dims := by
    apply List.ext_getElem hl
    intro i h1 h2
    have := (h i h2).1.2
    simpa [List.getD_eq_getElem?_getD, h1, h2] using this
  subst ed
  refine ⟨rfl, fun idx => ?_⟩
  unfold FuncTensor.read
  have e0 : (t.mkView offsets t.dims template).dims = t.dims := rfl
  rw [e0]
  by_cases hs : idx.length < t.dims.length
  · rw [if_pos hs, if_pos hs]
  rw [if_neg hs, if_neg hs]
  cases hf : fixIndices t.dims ((idx.take t.dims.length).map toInt32) with
  | error m => rfl
  | ub m => rfl
  | ok js =>
    rw [Outcome.ok_bind, Outcome.ok_bind]
    obtain ⟨h1, h2⟩ := fix_range hf (by simp; omega)
    simp only [FuncTensor.mkView]
    rw [applyView_full false template t.dims offsets js ht ho h1 (fun i hi => (h i hi).1.1) (fun i hi => (h i hi).2)
      (fun i hi => ⟨(h2 i hi).1, (h2 i hi).2, by
        have := hd (t.dims.getD i 0) (by simp [List.getD_eq_getElem?_getD, hi])
        have := h2 i hi
        constructor <;> omega⟩)]
    rfl

example : namedFullView [3, 4] [3, 4] [0, 0] [-1, -1] = true := by decide

/-- **C72 (refuted).** The views made by calling a function tensor with ranges or `All` always call themselves full views,
also when they have fewer elements. -/
theorem C72_full_view_refuted (f : List Int → Int) :
    operatorFullView = true ∧ ((funcPointerTensor [3] f).view [.range 0 1]).dims = [1] := ⟨rfl, rfl⟩

end Einsums.Props
