import Verif.Proofs.TensorAlgebra
import Verif.Props.Dispatch
import Verif.Props.Tensor
/-
C27 sort, C28 unfold, C29 khatri_rao, C51 element-wise operations on tensors and views, C52 scale, axpy
and axpby.
-/
namespace Einsums.Props
open Spec Model

variable {L : Type} [DecidableEq L]

/-! ### C51: element-wise operations -/

section
variable {R : Type}

/-- **C51 (fill a view).** `view = v`, with the iterations in any order, sets every element of the view and
leaves the rest of the parent's storage alone. -/
theorem C51_view_fill (t : Strided R) (w : t.WF) (f : List Nat → R) (hf : t.Represents f) (v : R)
    (sched : List (List Nat)) (hs : sched.Perm (box t.dims)) :
    ∃ t', t.viewFill v sched = .ok t' ∧ t.Frame t' ∧ t'.Represents fun _ => v :=
  updateAll w hf hs (fun _ _ => v) _ fun _ _ _ _ _ _ => rfl

/-- **C51 (compound assignment on a view).** `view OP= v` applies `OP` once to every element of the view and
leaves the rest of the parent's storage alone, whatever the order of the iterations. -/
theorem C51_view_compound (op : R → R → R) (t : Strided R) (w : t.WF) (f : List Nat → R) (hf : t.Represents f)
    (v : R) (sched : List (List Nat)) (hs : sched.Perm (box t.dims)) :
    ∃ t', t.viewCompound op v sched = .ok t' ∧ t.Frame t' ∧ t'.Represents fun i => op (f i) v :=
  updateAll w hf hs (fun _ x => op x v) _ fun _ i _ hi hd hr => by
    simp only [hr i (hd ▸ hi), Outcome.ok_bind]

/-- **C51 (element_transform).** -/
theorem C51_element_transform (op : R → R) (C : Strided R) (w : C.WF) (f : List Nat → R) (hf : C.Represents f)
    (sched : List (List Nat)) (hs : sched.Perm (box C.dims)) :
    ∃ C', elementTransform op C sched = .ok C' ∧ C.Frame C' ∧ C'.Represents fun i => op (f i) :=
  updateAll w hf hs (fun _ x => op x) _ fun _ i _ hi hd hr => by
    simp only [hr i (hd ▸ hi), Outcome.ok_bind]

/-- **C51 (element).** `element(op, &C, T1, ..., Tn)` with tensors of the shape of `C` sets
`C(i) = op(C(i), T1(i), ..., Tn(i))`. -/
theorem C51_element (op : R → List R → R) (C : Strided R) (ts : List (Strided R)) (w : C.WF) (f : List Nat → R)
    (hf : C.Represents f) (fs : List (List Nat → R)) (ht : List.Forall₂ (fun t f => t.Represents f) ts fs)
    (hd : ∀ t ∈ ts, t.dims = C.dims) (sched : List (List Nat)) (hs : sched.Perm (box C.dims)) :
    ∃ C', element op C ts sched = .ok C' ∧ C.Frame C' ∧
      C'.Represents fun i => op (f i) (fs.map fun g => g i) := by
  have h0 : (ts.any fun t => decide (C.dims ≠ t.dims)) = false := by
    rw [List.any_eq_false]
    intro t h
    simp [hd t h]
  unfold element
  rw [h0]
  refine updateAll w hf hs (fun i x => op x (fs.map fun g => g i)) _ fun C' i f' hi hd' hr => ?_
  have : List.Forall₂ (fun t f => t.Represents f ∧ InBox i t.dims) ts fs := by
    clear h0 hs
    induction ht with
    | nil => exact .nil
    | cons h _ ih =>
      exact .cons ⟨h, by rw [hd _ (by simp)]; exact hi⟩ (ih fun t ht => hd t (by simp [ht]))
  simp only [hr i (hd' ▸ hi), readAll_eq this, Outcome.ok_bind]

/-- **C51 (element, mismatch).** Tensors of another shape stop the program before anything is written. -/
theorem C51_element_rejects (op : R → List R → R) (C : Strided R) (ts : List (Strided R))
    (sched : List (List Nat)) (h : ∃ t ∈ ts, t.dims ≠ C.dims) :
    (element op C ts sched).isError = true := by
  obtain ⟨t, h1, h2⟩ := h
  unfold element
  rw [if_pos]
  · rfl
  · rw [List.any_eq_true]
    exact ⟨t, h1, by simpa using h2.symm⟩

/-- A strided view (the left 2×2 part of a 2×3 matrix), filled backwards. -/
example : (Strided.mk [5, 5, 9, 5, 5, 9] 0 [2, 2] [3, 1] : Strided Int).viewFill 0 [[1, 1], [1, 0], [0, 1], [0, 0]]
    = .ok ⟨[0, 0, 9, 0, 0, 9], 0, [2, 2], [3, 1]⟩ := by decide
example : ([[1, 1], [1, 0], [0, 1], [0, 0]] : List (List Nat)).Perm (box [2, 2]) := by decide
example : element (fun x xs => x + xs.sum) (tensorOp [1, 2] [2] : Operand Int).t
    [(tensorOp [10, 20] [2]).t, (tensorOp [100, 200] [2]).t] [[0], [1]] = .ok ⟨[111, 222], 0, [2], [1]⟩ := by decide

end

/-! ### C52: scale, axpy, axpby -/

section
variable {R : Type} [Add R] [Mul R]

omit [Add R] in
/-- **C52 (scale, partial).** On a tensor, or a view covering a row-major block, `scale(alpha, &A)` multiplies
every element by `alpha` and touches nothing else.  Missing: other views, see `C52_scale_refuted`. -/
theorem C52_scale_partial (alpha : R) (A : Strided R) (f : List Nat → R) (h : A.RowMajor) (h0 : A.dims ≠ [])
    (hf : A.Represents f) :
    ∃ A', scale alpha A = .ok A' ∧ A.Frame A' ∧ A'.Represents fun i => alpha * f i :=
  scale_rowMajor h h0 hf alpha

/-- **C52 (axpy, partial).** `axpy(alpha, X, &Y)` on row-major operands of one shape. -/
theorem C52_axpy_partial (alpha : R) (X Y : Strided R) (fX fY : List Nat → R) (hX : X.RowMajor) (hY : Y.RowMajor)
    (hd : X.dims = Y.dims) (h0 : Y.dims ≠ []) (rX : X.Represents fX) (rY : Y.Represents fY) :
    ∃ Y', axpy alpha X Y = .ok Y' ∧ Y.Frame Y' ∧ Y'.Represents fun i => fY i + alpha * fX i :=
  axpy_rowMajor hX hY hd h0 rX rY alpha

/-- **C52 (axpby, partial).** `axpby(alpha, X, beta, &Y)` on row-major operands of one shape. -/
theorem C52_axpby_partial (alpha beta : R) (X Y : Strided R) (fX fY : List Nat → R) (hX : X.RowMajor)
    (hY : Y.RowMajor) (hd : X.dims = Y.dims) (h0 : Y.dims ≠ []) (rX : X.Represents fX) (rY : Y.Represents fY) :
    ∃ Y', axpby alpha X beta Y = .ok Y' ∧ Y.Frame Y' ∧ Y'.Represents fun i => beta * fY i + alpha * fX i :=
  axpby_rowMajor hX hY hd h0 rX rY alpha beta

end

/-- **C52 (refuted: scale on a view).** Scaling the left 2×2 part of a 2×3 matrix also scales the third
column. -/
theorem C52_scale_refuted : scale 0 (⟨[5, 5, 9, 5, 5, 9], 0, [2, 2], [3, 1]⟩ : Strided Int)
    = .ok ⟨[0, 0, 0, 0, 0, 0], 0, [2, 2], [3, 1]⟩ := by decide

/-- **C52 (refuted: axpy from a view).** Adding the left 2×2 part `[[1,2],[4,5]]` of a 2×3 matrix to a 2×2
tensor adds the first four storage elements and then writes past the end of the tensor. -/
theorem C52_axpy_refuted : (axpy 1 (⟨[1, 2, 3, 4, 5, 6], 0, [2, 2], [3, 1]⟩ : Strided Int)
    ⟨[0, 0, 0, 0], 0, [2, 2], [2, 1]⟩).isUb = true := by decide

example : axpby 2 (⟨[1, 2, 3, 4], 0, [2, 2], [2, 1]⟩ : Strided Int) 3 ⟨[1, 1, 1, 1], 0, [2, 2], [2, 1]⟩
    = .ok ⟨[5, 7, 9, 11], 0, [2, 2], [2, 1]⟩ := by decide

/-! ### C27: sort -/

section
variable {R : Type} [CommSemiring R] [BEq R] [LawfulBEq R]

/-- **C27 (partial).** `sort(cp, C_labels, &C, ap, A_labels, A)` with distinct labels, `C`'s a permutation of
`A`'s, sets `C(values of C's labels) = cp*C(...) + ap*A(values of A's labels)` and nothing else, with or
without HPTT, for tensors and views, whatever the order of the parallel iterations.  Missing: identical
label lists with an operand that is not row-major, see `C27_refuted`. -/
theorem C27_sort_partial (δ : L → Nat) (Al Cl : List L) (useHptt : Bool) (A C : Operand R)
    (fA fC : List Nat → R) (cp ap : R) (hA : Al.Nodup) (h0 : Al ≠ []) (hp : Cl.Perm Al)
    (dA : A.t.dims = Al.map δ) (dC : C.t.dims = Cl.map δ) (vA : A.Valid) (vC : C.Valid)
    (rA : A.t.Represents fA) (rC : C.t.Represents fC)
    (hsame : Al = Cl → A.full = true ∧ C.full = true)
    (fillOrder sched : List (List Nat)) (hf : fillOrder.Perm (box C.t.dims)) (hs : sched.Perm (box C.t.dims)) :
    ∃ C', sort useHptt cp Cl C ap Al A fillOrder sched = .ok C' ∧ C.t.Frame C' ∧
      ∀ ρ, InRange δ Cl ρ → C'.read (toIdx (Cl.map ρ)) = .ok (cp * fC (Cl.map ρ) + ap * fA (Al.map ρ)) := by
  have hC0 : Cl ≠ [] := fun e => h0 (by subst e; exact (hp.symm.eq_nil))
  have hCn : Cl.Nodup := hp.nodup_iff.2 hA
  have hcheck : (difference Al Cl).length = 0 := by
    rw [List.length_eq_zero_iff]
    unfold difference
    rw [List.filter_eq_nil_iff]
    intro l hl
    simpa using hp.mem_iff.2 hl
  unfold sort
  rw [if_neg (by simp [hcheck])]
  simp only
  rw [find_perm hA hp]
  obtain ⟨C0, e0, fr0, g, r0, hg⟩ : ∃ C0, (if cp == 0 then (if C.isView then C.t.viewFill 0 fillOrder
      else .ok (C.t.setAll 0)) else .ok C.t) = .ok C0 ∧ C.t.Frame C0 ∧
      ∃ g, C0.Represents g ∧ ∀ i, cp * g i = cp * fC i := by
    by_cases h : (cp == 0) = true
    · rw [if_pos h]
      by_cases hv : C.isView = true
      · rw [if_pos hv]
        obtain ⟨t', h1, h2, h3⟩ := C51_view_fill C.t vC.wf fC rC 0 fillOrder hf
        exact ⟨t', h1, h2, _, h3, fun i => by rw [eq_of_beq h]; simp⟩
      · rw [if_neg hv]
        have ht := (vC.tensor (by simpa using hv)).2
        obtain ⟨h2, h3⟩ := setAll_represents ht 0
        exact ⟨_, rfl, h2, _, h3, fun i => by rw [eq_of_beq h]; simp⟩
    · exact ⟨C.t, by rw [if_neg h], Strided.Frame.refl _, fC, rC, fun _ => rfl⟩
  rw [e0, Outcome.ok_bind]
  -- it is enough to know the elements as a function of the index
  have fin : ∀ C', C0.Frame C' → (C'.Represents fun i => cp * g i + ap * fA (Al.map (bindEnv Cl i fun _ => 0))) →
      C.t.Frame C' ∧ ∀ ρ, InRange δ Cl ρ →
        C'.read (toIdx (Cl.map ρ)) = .ok (cp * fC (Cl.map ρ) + ap * fA (Al.map ρ)) := by
    intro C' fr r
    refine ⟨fr0.trans fr, ?_⟩
    intro ρ hρ
    rw [r (Cl.map ρ) (by rw [fr.dims, fr0.dims, dC]; exact inBox_map hρ)]
    simp only [hg]
    congr 3
    have : Al.map (bindEnv Cl (Cl.map ρ) fun _ => 0) = Al.map ρ := by
      apply List.map_congr_left
      intro l hl
      rw [bindEnv_map, if_pos (hp.mem_iff.2 hl)]
    rw [this]
  by_cases hh : (useHptt && !C.isView && !A.isView) = true
  · rw [if_pos hh]
    simp only [Bool.and_eq_true, Bool.not_eq_true'] at hh
    have tA := (vA.tensor hh.2).2
    have tC := (vC.tensor hh.1.2).2
    have tC0 : C0.IsTensor := ⟨fr0.off.trans tC.off, by rw [fr0.strides, tC.strides, fr0.dims],
      by rw [fr0.length, tC.length, fr0.dims]⟩
    have htake : ((Cl.map fun l => (l, Al.idxOf l)).map (·.2)).take Al.length = Cl.map fun l => Al.idxOf l := by
      rw [List.map_map, List.take_of_length_le (by simp [hp.length_eq])]; rfl
    rw [htake]
    unfold hptt
    simp only
    rw [dA, hptt_sizes hp δ]
    have eA : (⟨A.t.data, 0, Al.map δ, transformStrides (Al.map δ)⟩ : Strided R) = A.t := by
      rw [← dA]
      obtain ⟨⟨a, b, c, d⟩, v, f⟩ := A
      have h1 := tA.off; have h2 := tA.strides
      simp only at h1 h2
      rw [transformStrides_eq]; simp only; rw [h1, h2]
    have eC : (⟨C0.data, 0, Cl.map δ, transformStrides (Cl.map δ)⟩ : Strided R) = C0 := by
      rw [← dC, ← fr0.dims]
      obtain ⟨a, b, c, d⟩ := C0
      have h1 := tC0.off; have h2 := tC0.strides
      simp only at h1 h2
      rw [transformStrides_eq]; simp only; rw [h1, h2]
    rw [eA, eC]
    obtain ⟨C', h1, fr, r⟩ := updateAll (sched := cartesian (Cl.map δ)) tC0.wf r0
      (by rw [cartesian_eq_box, fr0.dims, dC])
      (fun i old => cp * old + ap * fA (Al.map (bindEnv Cl i fun _ => 0)))
      (fun B ib => do
        let ia := (List.range (Al.map δ).length).map fun p => ib.getD ((Cl.map fun l => Al.idxOf l).idxOf p) 0
        let x ← A.t.read (toIdx ia)
        let old ← B.read (toIdx ib)
        B.write (toIdx ib) (if cp == 0 then ap * x else ap * x + cp * old))
      (by
        intro C' i f' hi hd' hr
        have hib : i = Cl.map (bindEnv Cl i fun _ => 0) := by
          rw [map_bindEnv_self hCn]
          rw [hi.length, fr0.dims, dC, List.length_map]
        have hi' : InBox i (Cl.map δ) := by rw [fr0.dims, dC] at hi; exact hi
        have hia : ((List.range (Al.map δ).length).map fun p => i.getD ((Cl.map fun l => Al.idxOf l).idxOf p) 0)
            = Al.map (bindEnv Cl i fun _ => 0) := by
          have := hptt_index hA hp (bindEnv Cl i fun _ => 0)
          rw [← hib] at this
          rw [List.length_map]; exact this
        simp only [hia]
        rw [rA _ (by
          rw [dA]; apply inBox_map
          intro l hl
          exact box_bindEnv_inBox hi' (hp.mem_iff.2 hl))]
        simp only [Outcome.ok_bind, hr i (hd' ▸ hi)]
        congr 1
        by_cases hz : (cp == 0) = true
        · rw [if_pos hz, eq_of_beq hz]; simp
        · rw [if_neg hz, add_comm])
    simp only at h1
    rw [h1]
    obtain ⟨k1, k2⟩ := fin C' fr r
    refine ⟨C', ?_, k1, k2⟩
    simp only [Outcome.ok_bind, Outcome.ok.injEq]
    obtain ⟨a, b, c, d⟩ := C'
    have e1 := fr.off; have e2 := fr.dims; have e3 := fr.strides
    simp only at e1 e2 e3
    rw [e1, e2, e3]
  · rw [if_neg hh]
    by_cases he : Al = Cl
    · rw [if_pos he]
      obtain ⟨q1, q2⟩ := hsame he
      obtain ⟨C', h1, fr, r⟩ := axpby_rowMajor (vA.full q1) (fr0.rowMajor (vC.full q2))
        (by rw [fr0.dims, dA, dC, he]) (by rw [fr0.dims, dC]; simpa using hC0) rA r0 ap cp
      refine ⟨C', h1, ?_⟩
      apply fin C' fr
      intro i hi
      rw [r i hi]
      simp only
      have hib : Al.map (bindEnv Cl i fun _ => 0) = i := by
        rw [he, map_bindEnv_self hCn]
        rw [hi.length, fr.dims, fr0.dims, dC, List.length_map]
      rw [hib]
    · rw [if_neg he]
      obtain ⟨C', h1, fr, r⟩ := updateAll (sched := sched) (fr0.wf vC.wf) r0 (by rw [fr0.dims]; exact hs)
        (fun i old => cp * old + ap * fA (Al.map (bindEnv Cl i fun _ => 0)))
        (fun C it => do
          let ia ← constructIndicesPos (Cl.map fun l => (l, Al.idxOf l)) it (Cl.map fun l => (l, Al.idxOf l)) it Al
          let old ← C.read (toIdx it)
          let x ← A.t.read (toIdx ia)
          C.write (toIdx it) (cp * old + ap * x))
        (by
          intro C' i f' hi hd' hr
          have hi' : InBox i (Cl.map δ) := by rw [fr0.dims, dC] at hi; exact hi
          have hl : i.length = Cl.length := by rw [hi'.length, List.length_map]
          have hfst : (Cl.map fun l => (l, Al.idxOf l)).map (·.1) = Cl := by
            rw [List.map_map]; exact List.map_id _
          have hia : constructIndicesPos (Cl.map fun l => (l, Al.idxOf l)) i (Cl.map fun l => (l, Al.idxOf l)) i Al
              = .ok (Al.map (bindEnv Cl i fun _ => 0)) := by
            unfold constructIndicesPos
            rw [hfst, constructIndices_eq hl hl (fun _ => 0) Al (fun l hl => .inl (hp.mem_iff.2 hl))]
            congr 1
            apply List.map_congr_left
            intro l hl'
            exact bindEnv_congr hl.symm (hp.mem_iff.2 hl')
          simp only [hia, Outcome.ok_bind, hr i (hd' ▸ hi)]
          rw [rA _ (by
            rw [dA]; apply inBox_map
            intro l hl
            exact box_bindEnv_inBox hi' (hp.mem_iff.2 hl))]
          rfl)
      exact ⟨C', h1, fin C' fr r⟩

end

/-- A concrete 2×3 transpose, with and without HPTT, iterations out of order. -/
example (h : Bool) : sort (R := Int) h 0 ["j", "i"] (tensorOp (List.replicate 6 7) [3, 2]) 10 ["i", "j"]
    (tensorOp [1, 2, 3, 4, 5, 6] [2, 3]) [] [[2, 1], [0, 0], [1, 0], [1, 1], [0, 1], [2, 0]]
    = .ok ⟨[10, 40, 20, 50, 30, 60], 0, [3, 2], [2, 1]⟩ := by revert h; decide

/-- A cyclic permutation of three axes (HPTT and loop agree with the statement). -/
example (h : Bool) : sort (R := Int) h 0 ["k", "i", "j"] (tensorOp (List.replicate 6 7) [1, 2, 3]) 1 ["i", "j", "k"]
    (tensorOp [1, 2, 3, 4, 5, 6] [2, 3, 1]) (box [1, 2, 3]) (box [1, 2, 3])
    = .ok ⟨[1, 2, 3, 4, 5, 6], 0, [1, 2, 3], [6, 3, 1]⟩ := by revert h; decide

/-- **C27 (refuted: equal labels, strided view).** Copying the left 2×2 part of a 2×3 matrix with
`sort(Indices{i,j}, &C, Indices{i,j}, view)` writes past the end of `C`. -/
theorem C27_refuted : (sort (R := Int) true 0 ["i", "j"] (tensorOp [0, 0, 0, 0] [2, 2]) 1 ["i", "j"]
    ⟨⟨[1, 2, 3, 4, 5, 6], 0, [2, 2], [3, 1]⟩, true, false⟩ [] (box [2, 2])).isUb = true := by decide

/-! ### C28: unfold -/

section
variable {R : Type} [Zero R]

theorem idxOf_getElem_nodup {xs : List L} (h : xs.Nodup) (p : Nat) (hp : p < xs.length) : xs.idxOf xs[p] = p :=
  h.idxOf_getElem p hp

/-- The label computations of unfold. -/
theorem unfold_labels {n m : Nat} (hm : m < n) :
    let src : List UnfoldLabel := (List.range n).map some
    intersect [some m, none] src = [some m] ∧
    difference src [some m] = ((List.range n).filter (· ≠ m)).map some := by
  refine ⟨by simp [intersect, hm], ?_⟩
  unfold difference
  rw [List.filter_map]
  congr 1
  apply List.filter_congr
  intro x _
  by_cases e : x = m <;> simp [e]

/-- **C28 (partial).** For a tensor of rank ≥ 2, `unfold<mode>` returns a matrix with `dim(mode)` rows and one
column per multi-index of the other axes; element `i` of the source is at row `i[mode]` and at the column
numbered by the row-major position of the other indices, whatever the order of the parallel
iterations and the initial content `z` of the result.  Missing: rank 1, see `C28_rank1_refuted`. -/
theorem C28_unfold_partial (z : Nat → R) (mode : Nat) (source : Strided R) (f : List Nat → R) (hm : mode < source.dims.length)
    (hr : 2 ≤ source.dims.length) (hf : source.Represents f) (sched : List (List Nat × List Nat × Nat))
    (hs : sched.Perm (unfoldIterations (unfoldRanges mode source).1 (unfoldRanges mode source).2)) :
    ∃ T, unfold z mode source sched = .ok T ∧ T.IsTensor ∧
      T.dims = [source.dims[mode], numel (source.dims.eraseIdx mode)] ∧
      ∀ i, InBox i source.dims → ∀ r, i[mode]? = some r →
        T.read (toIdx [r, rowMajor (i.eraseIdx mode) (source.dims.eraseIdx mode)]) = .ok (f i) := by
  obtain ⟨l1, l2⟩ := unfold_labels hm
  have hsn : ((List.range source.dims.length).map some : List UnfoldLabel).Nodup :=
    List.nodup_range.map (fun a b e => by simpa using e)
  have dm : source.dim mode = source.dims[mode] := by
    simp [Strided.dim, List.getD_eq_getElem?_getD, hm]
  -- positions of the labels
  have fsrc : findTypeWithPosition (((List.range source.dims.length).filter (· ≠ mode)).map some)
      ((List.range source.dims.length).map some : List UnfoldLabel)
      = (((List.range source.dims.length).filter (· ≠ mode)).map fun p => (some p, p)) := by
    rw [find_nodup hsn, List.filter_eq_self.2, List.map_map]
    · apply List.map_congr_left
      intro p hp
      have hp := (List.mem_filter.1 hp).1
      have hlt : p < ((List.range source.dims.length).map some : List UnfoldLabel).length := by simpa using hp
      have := idxOf_getElem_nodup hsn p hlt
      simp only [List.getElem_map, List.getElem_range] at this
      simp only [Function.comp, this]
    · intro l hl
      obtain ⟨p, hp, rfl⟩ := List.mem_map.1 hl
      simpa using (List.mem_filter.1 hp).1
  have flink : (findTypeWithPosition [some mode] ((List.range source.dims.length).map some : List UnfoldLabel)).map
      (·.1) = [some mode] := by
    rw [find_nodup hsn]
    simp [hm]
  have ranges : unfoldRanges mode source = ([source.dims[mode]], source.dims.eraseIdx mode) := by
    unfold unfoldRanges
    simp only [l1, l2, fsrc]
    refine Prod.ext ?_ ?_
    · simp [findTypeWithPosition, positionsOf, dimsFor, dm]
    · simp only [dimsFor, List.map_map]
      exact eraseIdx_eq _ _ hm
  have hcols : ((List.range source.dims.length).filter (· ≠ mode)).foldl (fun acc i => acc * source.dim i) 1
      = numel (source.dims.eraseIdx mode) := by
    rw [foldl_mul_map, Nat.one_mul]
    congr 1
    exact eraseIdx_eq _ _ hm
  have hne : source.dims.eraseIdx mode ≠ [] := by
    intro e
    have := List.length_eraseIdx_of_lt hm
    rw [e] at this; simp at this; omega
  -- the iterations
  have cp : ∀ d : List Nat, d ≠ [] → cartesianProduct d = box d := by
    intro d hd
    match d with
    | [] => exact (hd rfl).elim
    | a :: as => exact cartesian_eq_box _
  rw [ranges] at hs
  have mem_it : ∀ b, b ∈ unfoldIterations [source.dims[mode]] (source.dims.eraseIdx mode) ↔
      ∃ r s, r < source.dims[mode] ∧ InBox s (source.dims.eraseIdx mode) ∧
        b = ([r], s, rowMajor s (source.dims.eraseIdx mode)) := by
    intro b
    unfold unfoldIterations
    rw [cp [source.dims[mode]] (by simp), cp _ hne]
    simp only [List.mem_flatMap, List.mem_map]
    constructor
    · rintro ⟨link, hl, s, hs', rfl⟩
      obtain ⟨r, rfl, hr'⟩ := inBox_one.1 (mem_box.1 hl)
      have h2 := List.mem_zipIdx_iff_getElem?.1 hs'
      have h3 := mem_box.1 (List.mem_of_getElem? h2)
      refine ⟨r, s.1, hr', h3, ?_⟩
      have h4 := getElem_box_rowMajor h3
      have h5 := (List.getElem?_inj (by rw [length_box]; exact rowMajor_lt h3) (nodup_box _)).1 (h4.trans h2.symm)
      rw [h5]
    · rintro ⟨r, s, hr', hs', rfl⟩
      exact ⟨[r], mem_box.2 ⟨hr', trivial⟩, (s, rowMajor s (source.dims.eraseIdx mode)),
        List.mem_zipIdx_iff_getElem?.2 (getElem_box_rowMajor hs'), rfl⟩
  have nodup_it : ((unfoldIterations [source.dims[mode]] (source.dims.eraseIdx mode)).map
      fun b => [b.1.headD 0, b.2.2]).Nodup := by
    unfold unfoldIterations
    rw [cp [source.dims[mode]] (by simp), cp _ hne, List.map_flatMap]
    rw [List.nodup_flatMap]
    constructor
    · intro link _
      rw [List.map_map]
      have : (((box (source.dims.eraseIdx mode)).zipIdx).map
          ((fun b : List Nat × List Nat × Nat => [b.1.headD 0, b.2.2]) ∘ fun s => (link, s.1, s.2)))
          = ((((box (source.dims.eraseIdx mode)).zipIdx).map (·.2)).map fun z => [link.headD 0, z]) := by
        rw [List.map_map]; rfl
      rw [this, List.zipIdx_map_snd]
      exact List.Nodup.map (fun a b e => by simpa using e) List.nodup_range'
    · refine List.Nodup.pairwise_of_forall_ne (nodup_box _) ?_
      intro a ha b hb hab x hx hy
      obtain ⟨ra, rfl, _⟩ := inBox_one.1 (mem_box.1 ha)
      obtain ⟨rb, rfl, _⟩ := inBox_one.1 (mem_box.1 hb)
      simp only [List.mem_map] at hx hy
      obtain ⟨_, ⟨_, _, rfl⟩, rfl⟩ := hx
      obtain ⟨_, ⟨_, _, rfl⟩, e⟩ := hy
      apply hab
      simp at e
      rw [e.1]
  have : Inhabited R := ⟨0⟩
  have tt := isTensor_mk' z (dims := [source.dims[mode], numel (source.dims.eraseIdx mode)]) (by simp)
  obtain ⟨g, hg⟩ := exists_represents tt.wf
  obtain ⟨T, f', h1, fr, r, k1, k2⟩ := updateLoop tt.wf hg (fun b : List Nat × List Nat × Nat => [b.1.headD 0, b.2.2])
    (fun target it => do
      let is ← constructIndicesPos
        (((List.range source.dims.length).filter (· ≠ mode)).map fun p => ((some p : UnfoldLabel), p)) it.2.1
        (findTypeWithPosition [some mode] ((List.range source.dims.length).map some : List UnfoldLabel)) it.1
        ((List.range source.dims.length).map some)
      let v ← source.read (toIdx is)
      target.write (toIdx [it.1.headD 0, it.2.2]) v)
    (fun b _ => f (b.2.1.insertIdx mode (b.1.headD 0))) sched
    ((hs.map _).nodup_iff.2 nodup_it)
    (by
      intro b hb C1 f1 hd wC hr1
      obtain ⟨ro, s, hro, hs', rfl⟩ := (mem_it b).1 (hs.mem_iff.1 hb)
      have hls : s.length = source.dims.length - 1 := by
        rw [hs'.length, List.length_eraseIdx_of_lt hm]
      -- the source multi-index
      have hins : (s.insertIdx mode ro).length = source.dims.length := by
        rw [List.length_insertIdx_of_le_length (by omega)]; omega
      have her : (s.insertIdx mode ro).eraseIdx mode = s := List.eraseIdx_insertIdx_self _
      have hmo : (s.insertIdx mode ro)[mode]? = some ro := by
        rw [List.getElem?_insertIdx_self, if_pos (by omega)]
      have hin : InBox (s.insertIdx mode ro) source.dims := by
        rw [InBox_iff_getElem] at hs' ⊢
        refine ⟨hins, ?_⟩
        intro k hk1 hk2
        rw [List.getElem_insertIdx]
        split
        · rename_i hlt
          have := hs'.2 k (by omega) (by rw [List.length_eraseIdx_of_lt hm]; omega)
          rwa [List.getElem_eraseIdx_of_lt _ hlt] at this
        · split
          · rename_i e; subst e; exact hro
          · rename_i h1 h2
            have := hs'.2 (k - 1) (by omega) (by rw [List.length_eraseIdx_of_lt hm]; omega)
            rw [List.getElem_eraseIdx_of_ge _ (by omega)] at this
            have e : k - 1 + 1 = k := by omega
            simpa only [e] using this
      have hsel : ((List.range source.dims.length).filter (· ≠ mode)).map
          (fun p => (s.insertIdx mode ro).getD p 0) = s := by
        have := eraseIdx_eq (s.insertIdx mode ro) mode (by omega)
        rw [hins] at this
        rw [this, her]
      have hidx : constructIndicesPos
          (((List.range source.dims.length).filter (· ≠ mode)).map fun p => ((some p : UnfoldLabel), p)) s
          (findTypeWithPosition [some mode] ((List.range source.dims.length).map some : List UnfoldLabel)) [ro]
          ((List.range source.dims.length).map some) = .ok (s.insertIdx mode ro) := by
        unfold constructIndicesPos
        rw [flink]
        have hfst : (((List.range source.dims.length).filter (· ≠ mode)).map
            fun p => ((some p : UnfoldLabel), p)).map (·.1)
            = ((List.range source.dims.length).filter (· ≠ mode)).map some := by rw [List.map_map]; rfl
        rw [hfst, constructIndices_eq (ρ := fun _ => 0)]
        · congr 1
          conv_rhs => rw [← map_getD_range (s.insertIdx mode ro), hins]
          rw [List.map_map]
          apply List.map_congr_left
          intro p hp
          simp only [Function.comp]
          have hs2 : s = (((List.range source.dims.length).filter (· ≠ mode)).map (some : Nat → UnfoldLabel)).map
              (fun l => match l with | some p => (s.insertIdx mode ro).getD p 0 | none => 0) := by
            rw [List.map_map]; exact hsel.symm
          conv_lhs => rw [hs2]
          rw [bindEnv_map]
          by_cases e : p = mode
          · subst e
            rw [if_neg (by simp)]
            simp only [bindEnv, if_true]
            rw [List.getD_eq_getElem?_getD, hmo]; rfl
          · rw [if_pos (by simpa [e] using hp)]
        · have := congrArg List.length hsel
          simp only [List.length_map] at this ⊢
          exact this.symm
        · rfl
        · intro l hl
          obtain ⟨p, hp, rfl⟩ := List.mem_map.1 hl
          by_cases e : p = mode
          · subst e; right; simp
          · left; simpa [e] using hp
      obtain ⟨C2, w1, w2, w3⟩ := write_represents wC hr1 (j := [ro, rowMajor s (source.dims.eraseIdx mode)])
        (by rw [hd]; exact ⟨hro, rowMajor_lt hs', trivial⟩) (f (s.insertIdx mode ro))
      refine ⟨C2, ?_, w2, w3⟩
      simp only [hidx, Outcome.ok_bind, hf _ hin]
      exact w1)
  refine ⟨T, ?_, ⟨fr.off.trans tt.off, by rw [fr.strides, tt.strides, fr.dims], by rw [fr.length, tt.length, fr.dims]⟩,
    fr.dims, ?_⟩
  · unfold unfold
    simp only [l1, l2, fsrc, hcols, dm]
    exact h1
  · intro i hi ro hro
    have hl := hi.length
    have her : InBox (i.eraseIdx mode) (source.dims.eraseIdx mode) := by
      rw [InBox_iff_getElem] at hi ⊢
      refine ⟨by rw [List.length_eraseIdx_of_lt hm, List.length_eraseIdx_of_lt (by omega), hl], ?_⟩
      intro k hk1 hk2
      rw [List.length_eraseIdx_of_lt hm] at hk2
      rw [List.getElem_eraseIdx, List.getElem_eraseIdx]
      split
      · exact hi.2 k _ _
      · exact hi.2 (k + 1) _ _
    have hro' : ro < source.dims[mode] := by
      rw [InBox_iff_getElem] at hi
      obtain ⟨h, e⟩ := List.getElem?_eq_some_iff.1 hro
      rw [← e]; exact hi.2 mode h hm
    have hb : (([ro], i.eraseIdx mode, rowMajor (i.eraseIdx mode) (source.dims.eraseIdx mode)) :
        List Nat × List Nat × Nat) ∈ sched := hs.mem_iff.2 ((mem_it _).2 ⟨ro, _, hro', her, rfl⟩)
    have := k1 _ hb
    simp only [List.headD_cons] at this
    rw [r _ (by rw [fr.dims]; exact ⟨hro', rowMajor_lt her, trivial⟩), this]
    congr 2
    obtain ⟨h, e⟩ := List.getElem?_eq_some_iff.1 hro
    rw [← e]
    exact List.insertIdx_eraseIdx_getElem h

end

/-- **C28 (bijection).** The position given in C28 determines the multi-index, and every row and column is
the position of some multi-index. -/
theorem C28_bijection (mode : Nat) (dims : List Nat) (hm : mode < dims.length) :
    (∀ i j, InBox i dims → InBox j dims → i[mode]? = j[mode]? →
      rowMajor (i.eraseIdx mode) (dims.eraseIdx mode) = rowMajor (j.eraseIdx mode) (dims.eraseIdx mode) → i = j) ∧
    (∀ r c, r < dims[mode] → c < numel (dims.eraseIdx mode) →
      ∃ i, InBox i dims ∧ i[mode]? = some r ∧ rowMajor (i.eraseIdx mode) (dims.eraseIdx mode) = c) := by
  have er : ∀ i, InBox i dims → InBox (i.eraseIdx mode) (dims.eraseIdx mode) := by
    intro i hi
    have hl := hi.length
    rw [InBox_iff_getElem] at hi ⊢
    refine ⟨by rw [List.length_eraseIdx_of_lt hm, List.length_eraseIdx_of_lt (by omega), hl], ?_⟩
    intro k hk1 hk2
    rw [List.length_eraseIdx_of_lt hm] at hk2
    rw [List.getElem_eraseIdx, List.getElem_eraseIdx]
    split
    · exact hi.2 k _ _
    · exact hi.2 (k + 1) _ _
  constructor
  · intro i j hi hj h1 h2
    have h3 := rowMajor_inj (er i hi) (er j hj) h2
    have li := hi.length
    have lj := hj.length
    rw [List.getElem?_eq_getElem (by omega), List.getElem?_eq_getElem (by omega)] at h1
    have e1 := List.insertIdx_eraseIdx_getElem (l := i) (n := mode) (by omega)
    have e2 := List.insertIdx_eraseIdx_getElem (l := j) (n := mode) (by omega)
    exact e1.symm.trans ((congrArg₂ (fun a b => List.insertIdx a mode b) h3 (Option.some.inj h1)).trans e2)
  · intro r c hr hc
    have hs := unflat_inBox hc
    have hs' := hs
    have hls : (unflat (dims.eraseIdx mode) c).length = dims.length - 1 := by
      rw [hs.length, List.length_eraseIdx_of_lt hm]
    refine ⟨(unflat (dims.eraseIdx mode) c).insertIdx mode r, ?_, ?_, ?_⟩
    · rw [InBox_iff_getElem] at hs ⊢
      refine ⟨by rw [List.length_insertIdx_of_le_length (by omega)]; omega, ?_⟩
      intro k hk1 hk2
      rw [List.getElem_insertIdx]
      split
      · rename_i hlt
        have := hs.2 k (by omega) (by rw [List.length_eraseIdx_of_lt hm]; omega)
        rwa [List.getElem_eraseIdx_of_lt _ hlt] at this
      · split
        · rename_i e; subst e; exact hr
        · rename_i h1 h2
          have := hs.2 (k - 1) (by omega) (by rw [List.length_eraseIdx_of_lt hm]; omega)
          rw [List.getElem_eraseIdx_of_ge _ (by omega)] at this
          have e : k - 1 + 1 = k := by omega
          simpa only [e] using this
    · rw [List.getElem?_insertIdx_self, if_pos (by omega)]
    · rw [List.eraseIdx_insertIdx_self, rowMajor_unflat hc]

/-- Mode-1 unfolding of a 2×2×2 tensor. -/
example : unfold (fun _ => 0) 1 (tensorOp [1, 2, 3, 4, 5, 6, 7, 8] [2, 2, 2] : Operand Int).t
    (unfoldIterations [2] [2, 2]) = .ok ⟨[1, 2, 5, 6, 3, 4, 7, 8], 0, [2, 4], [4, 1]⟩ := by decide

/-- **C28 (refuted: rank 1).** The loop over "the other axes" of a vector is empty, so `unfold<0>` of a vector
returns an n×1 matrix of whatever its fresh memory held instead of the vector. -/
theorem C28_rank1_refuted : (unfoldIterations (unfoldRanges 0 (tensorOp [1, 2] [2] : Operand Int).t).1
      (unfoldRanges 0 (tensorOp [1, 2] [2] : Operand Int).t).2 = []) ∧
    ∀ z, unfold z 0 (tensorOp [1, 2] [2] : Operand Int).t [] = .ok ⟨[z 0, z 1], 0, [2, 1], [1, 1]⟩ :=
  ⟨by decide, fun _ => rfl⟩

/-! ### C29: khatri_rao -/

section
variable {R : Type} [CommSemiring R] [BEq R] [LawfulBEq R] [Div R]

/-- **C29 (partial).** When both operands list their own labels first and the common labels last, in the same
order, and no dimension is empty, `khatri_rao` returns the matrix whose row is the combined row-major
position of `A`'s own and `B`'s own labels, whose column is the position of the common labels, and whose
elements are the products.  Missing: other label orders (`C29_refuted_order`) and empty dimensions
(`C29_refuted_empty`). -/
theorem C29_khatri_rao_partial (z : Nat → R) (δ : L → Nat) (P Q K : List L) (check : Bool) (A B : Operand R) (fA fB : List Nat → R)
    (hn : (P ++ Q ++ K).Nodup) (hA0 : P ++ K ≠ []) (hB0 : Q ++ K ≠ [])
    (dA : A.t.dims = (P ++ K).map δ) (dB : B.t.dims = (Q ++ K).map δ) (vA : A.Valid) (vB : B.Valid)
    (hA : A.t.Represents fA) (hB : B.t.Represents fB) (hpos : ∀ l ∈ P ++ Q ++ K, δ l ≠ 0) :
    ∃ T, khatriRao z check (P ++ K) A (Q ++ K) B = .ok T ∧ T.IsTensor ∧
      T.dims = [numel ((P ++ Q).map δ), numel (K.map δ)] ∧
      ∀ ρ, InRange δ (P ++ Q ++ K) ρ →
        T.read (toIdx [rowMajor ((P ++ Q).map ρ) ((P ++ Q).map δ), rowMajor (K.map ρ) (K.map δ)])
          = .ok (fA ((P ++ K).map ρ) * fB ((Q ++ K).map ρ)) := by
  have hn' := hn
  rw [List.nodup_append, List.nodup_append] at hn'
  obtain ⟨⟨nP, nQ, dPQ⟩, nK, dK⟩ := hn'
  have hPK : ∀ l ∈ P, l ∉ K := fun l h h' => dK l (by simp [h]) l h' rfl
  have hQK : ∀ l ∈ Q, l ∉ K := fun l h h' => dK l (by simp [h]) l h' rfl
  have hPQ : ∀ l ∈ P, l ∉ Q := fun l h h' => dPQ l h l h' rfl
  have hQP : ∀ l ∈ Q, l ∉ P := fun l h h' => dPQ l h' l h rfl
  have nA : (P ++ K).Nodup := List.nodup_append.2 ⟨nP, nK, fun a ha b hb e => hPK a ha (e ▸ hb)⟩
  have nB : (Q ++ K).Nodup := List.nodup_append.2 ⟨nQ, nK, fun a ha b hb e => hQK a ha (e ▸ hb)⟩
  have ei : intersect (P ++ K) (Q ++ K) = K := by
    unfold intersect
    rw [List.filter_append, List.filter_eq_nil_iff.2, List.filter_eq_self.2, List.nil_append]
    · intro l hl; simp [hl]
    · intro l hl; simp [hPQ l hl, hPK l hl]
  have eP : difference (P ++ K) K = P := by
    unfold difference
    rw [List.filter_append, List.filter_eq_self.2, List.filter_eq_nil_iff.2, List.append_nil]
    · intro l hl; simp [hl]
    · intro l hl; simp [hPK l hl]
  have eQ : difference (Q ++ K) K = Q := by
    unfold difference
    rw [List.filter_append, List.filter_eq_self.2, List.filter_eq_nil_iff.2, List.append_nil]
    · intro l hl; simp [hl]
    · intro l hl; simp [hQK l hl]
  have dims_of : ∀ (X : Operand R) (xs ys : List L), xs.Nodup → X.t.dims = xs.map δ → (∀ l ∈ ys, l ∈ xs) →
      dimsFor X.t.dims (findTypeWithPosition ys xs) = ys.map δ := by
    intro X xs ys hx hd hs
    rw [hd]
    exact dimsFor_find_once δ ys xs fun l hl => List.count_eq_one_of_mem hx (hs l hl)
  have g1 := dims_of A (P ++ K) K nA dA (by intro l hl; simp [hl])
  have g2 := dims_of B (Q ++ K) K nB dB (by intro l hl; simp [hl])
  have g3 := dims_of A (P ++ K) P nA dA (by intro l hl; simp [hl])
  have g4 := dims_of B (Q ++ K) Q nB dB (by intro l hl; simp [hl])
  have g5 : productDims (findTypeWithPosition K (P ++ K)) A.t = numel (K.map δ) := by
    rw [find_nodup nA, List.filter_eq_self.2 (by intro l hl; simp [hl])]
    exact productDims_eq dA (by intro l hl; simp [hl])
  have hC0 : P ++ Q ++ K ≠ [] := by
    intro e
    simp only [List.append_eq_nil_iff] at e
    exact hA0 (by simp [e.1.1, e.2])
  have hd0 : (P ++ Q ++ K).map δ ≠ [] := by simpa using hC0
  have tC := isTensor_mk' z hd0
  have : Inhabited R := ⟨0⟩
  obtain ⟨fz, hz⟩ := exists_represents tC.wf
  obtain ⟨C', e1, fr, k⟩ := C15_einsum δ (P ++ K) (Q ++ K) (P ++ Q ++ K) [] false check A B
    ⟨Strided.mk' z ((P ++ Q ++ K).map δ), false, true⟩ fA fB fz 0 1 nA hA0 hB0 hC0 dA dB rfl vA vB
    ⟨tC.wf, fun _ => tC.rowMajor, fun _ => ⟨rfl, tC⟩⟩ rfl hA hB hz
    (by intro l hl; left; simp at hl ⊢; tauto) (by intro l hl; left; simp at hl ⊢; tauto)
    (by intro l hl; simp at hl ⊢; tauto)
    (by
      intro hp
      exfalso
      have hg := choosePath_spec false (P ++ K) (Q ++ K) (P ++ Q ++ K)
      rw [hp] at hg
      simp only [isGemmPossible, Bool.and_eq_true] at hg
      have hl : links (P ++ K) (Q ++ K) (P ++ Q ++ K) = [] := by
        rw [List.eq_nil_iff_forall_not_mem]
        intro l hl
        rw [mem_links] at hl
        simp only [List.mem_append] at hl
        tauto
      have := (isSameOrdering_ne hg.1.1.1.2).1
      apply this
      unfold linkPosA
      rw [linkUnique_eq nA, hl]; rfl)
    (by
      intro hp
      left
      have hg := choosePath_spec false (P ++ K) (Q ++ K) (P ++ Q ++ K)
      rw [hp] at hg
      have hg := hg.1
      simp only [isOuterProduct, Bool.and_eq_true, decide_eq_true_eq, ei, List.length_eq_zero_iff] at hg
      rw [hg.1.1.1]; simp)
    ⟨List.nodup_nil, by intro l; simp; tauto⟩ (by simp)
  have tC' : C'.IsTensor := ⟨fr.off.trans tC.off, by rw [fr.strides, tC.strides, fr.dims],
    by rw [fr.length, tC.length, fr.dims]⟩
  have dC' : C'.dims = (P ++ Q ++ K).map δ := fr.dims
  have numel_ne : ∀ ls : List L, (∀ l ∈ ls, δ l ≠ 0) → numel (ls.map δ) ≠ 0 := by
    intro ls
    induction ls with
    | nil => simp
    | cons a ls ih =>
      intro h
      simp only [List.map_cons, numel_cons, ne_eq, Nat.mul_eq_zero, not_or]
      exact ⟨h a (by simp), ih fun l hl => h l (by simp [hl])⟩
  have hK0 := numel_ne K fun l hl => hpos l (by simp [hl])
  have hAll := numel_ne (P ++ Q ++ K) hpos
  have hnum : numel ((P ++ Q ++ K).map δ) = numel ((P ++ Q).map δ) * numel (K.map δ) := by
    rw [List.map_append (l₂ := K), numel_append]
  have hres : (reshape C' [.auto, .n (numel (K.map δ))]).isOk = true :=
    (C06_reshape_decides_partial C' tC' [.auto, .n (numel (K.map δ))] (by simp) (by simp [autos])
      (fun _ => ⟨by simpa [reqProduct] using hK0, by rw [dC']; exact hAll⟩)).1
      ⟨[numel ((P ++ Q).map δ), numel (K.map δ)], ⟨rfl, trivial⟩, by rw [dC', hnum]; simp⟩
  match hT : reshape C' [.auto, .n (numel (K.map δ))] with
  | .error e => rw [hT] at hres; simp [Outcome.isOk] at hres
  | .ub e => rw [hT] at hres; simp [Outcome.isOk] at hres
  | .ok T =>
    obtain ⟨tT, mT, nT, _, rT⟩ := C06_reshape_ok C' T tC' _ (by simp) hT
    have dT : T.dims = [numel ((P ++ Q).map δ), numel (K.map δ)] := by
      match hd : T.dims, mT with
      | [a, b], m =>
        have hb : numel (K.map δ) = b := m.1
        rw [hd, dC', hnum, ← hb] at nT
        simp only [numel_cons, numel_nil, Nat.mul_one] at nT
        rw [Nat.eq_of_mul_eq_mul_right (by omega) nT, hb]
    refine ⟨T, ?_, tT, dT, ?_⟩
    · unfold khatriRao
      simp only [ei, eP, eQ, g1, g2, g3, g4, g5]
      rw [if_neg (by simp only [List.any_eq_true, decide_eq_true_eq, not_exists, not_and]; intro p hp; rw [List.zip_eq_zipWith] at hp; simp [List.zipWith_self] at hp; obtain ⟨a, _, rfl⟩ := hp; simp)]
      rw [← List.map_append, ← List.map_append, e1]
      simpa only [Outcome.ok_bind] using hT
    · intro ρ hρ
      have hρ1 : InRange δ (P ++ Q) ρ := fun l hl => hρ l (by simp only [List.mem_append] at hl ⊢; tauto)
      have hρ2 : InRange δ K ρ := fun l hl => hρ l (by simp [hl])
      have b1 := inBox_map hρ1
      have b2 := inBox_map hρ2
      have := rT [rowMajor ((P ++ Q).map ρ) ((P ++ Q).map δ), rowMajor (K.map ρ) (K.map δ)] ((P ++ Q ++ K).map ρ)
        (by rw [dT]; exact ⟨rowMajor_lt b1, rowMajor_lt b2, trivial⟩) (by rw [dC']; exact inBox_map hρ)
        (by
          rw [dT, dC', List.map_append (l₂ := K), List.map_append (l₂ := K), rowMajor_append b1.length]
          simp [rowMajor])
      rw [this, k ρ hρ]
      simp [contraction, sumOver]

omit [CommSemiring R] [LawfulBEq R] in
/-- **C29 (mismatch).** Different dimensions of a common label make `khatri_rao` throw. -/
theorem C29_rejects [CommSemiring R] (z : Nat → R) (check : Bool) (Al Bl : List L) (A B : Operand R) (δA δB : L → Nat)
    (nA : Al.Nodup) (nB : Bl.Nodup) (dA : A.t.dims = Al.map δA) (dB : B.t.dims = Bl.map δB)
    (h : ∃ l, l ∈ Al ∧ l ∈ Bl ∧ δA l ≠ δB l) : (khatriRao z check Al A Bl B).isError = true := by
  obtain ⟨l, h1, h2, h3⟩ := h
  have e1 : dimsFor A.t.dims (findTypeWithPosition (intersect Al Bl) Al) = (intersect Al Bl).map δA := by
    rw [dA]
    exact dimsFor_find_once δA _ _ fun x hx => List.count_eq_one_of_mem nA (List.mem_filter.1 hx).1
  have e2 : dimsFor B.t.dims (findTypeWithPosition (intersect Al Bl) Bl) = (intersect Al Bl).map δB := by
    rw [dB]
    exact dimsFor_find_once δB _ _ fun x hx =>
      List.count_eq_one_of_mem nB (by simpa using (List.mem_filter.1 hx).2)
  have hm : l ∈ intersect Al Bl := List.mem_filter.2 ⟨h1, by simpa using h2⟩
  unfold khatriRao
  simp only [e1, e2]
  rw [if_pos]
  · rfl
  · rw [List.any_eq_true]
    refine ⟨(δA l, δB l), ?_, by simpa using h3⟩
    rw [List.zip_map']
    exact List.mem_map.2 ⟨l, hm, rfl⟩

end

/-- The example of the documentation: `khatri_rao(Indices{I, r}, A, Indices{J, r}, B)`. -/
example : khatriRao (R := Int) (fun k => k) true ["I", "r"] (tensorOp [1, 2, 3, 4] [2, 2]) ["J", "r"] (tensorOp [10, 100] [1, 2])
    = .ok ⟨[10, 200, 30, 400], 0, [2, 2], [2, 1]⟩ := by decide

/-- **C29 (refuted: label order).** With `A`'s labels `(r, I)` the routine still hands `A` to einsum as
`(I, r)`: the result is the product for the transposed matrix (element (0,1), that is I=0, r=1, should be
`A(r=1,I=0)*B(0,1) = 3`). -/
theorem C29_refuted_order :
    khatriRao (R := Int) (fun k => k) true ["r", "I"] (tensorOp [1, 2, 3, 4] [2, 2]) ["J", "r"] (tensorOp [1, 1] [1, 2])
      = .ok ⟨[1, 2, 3, 4], 0, [2, 2], [2, 1]⟩ := by decide

/-- **C29 (refuted: empty dimension).** The final reshape with −1 throws. -/
theorem C29_refuted_empty :
    (khatriRao (R := Int) (fun k => k) true ["I", "r"] (tensorOp [] [0, 1]) ["J", "r"] (tensorOp [1] [1, 1])).isError = true := by
  decide

end Einsums.Props
