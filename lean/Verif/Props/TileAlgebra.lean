import Verif.Proofs.TileAlgebra
import Verif.Props.TiledLinAlg
/-
Property theorems C91 and C92: `einsum` on tiled tensors.
-/
namespace Einsums.Props
open Einsums Spec Model

variable {L : Type} [DecidableEq L] {R : Type} [CommSemiring R] [BEq R] [LawfulBEq R]

theorem numel_perm {xs ys : List Nat} (h : xs.Perm ys) : numel xs = numel ys := by
  induction h with
  | nil => rfl
  | cons x _ ih => simp only [numel, ih]
  | swap x y l => simp only [numel]; rw [← Nat.mul_assoc, ← Nat.mul_assoc, Nat.mul_comm x y]
  | trans _ _ ih1 ih2 => exact ih1.trans ih2

omit [DecidableEq L] [CommSemiring R] [BEq R] [LawfulBEq R] in
/-- The dimensions of a tiled tensor whose axes are partitioned according to its labels. -/
theorem tiled_dims {T : Tiled R} (w : T.WF) {Xl : List L} {P : L → List Nat} (s : T.sizes = Xl.map P) :
    T.dims = Xl.map fun l => (P l).sum := by
  rw [w.dims, s, fullDims_labels]

omit [CommSemiring R] [BEq R] [LawfulBEq R] in
theorem tiled_count {T : Tiled R} {Xl Yl : List L} {P : L → List Nat} (s : T.sizes = Xl.map P) (hn : Xl.Nodup)
    (h : ∀ l, l ∈ uniqueLabels Yl Xl Xl ↔ l ∈ Xl) :
    T.gridSize = numel ((uniqueLabels Yl Xl Xl).map fun l => (P l).length) := by
  rw [gridSize_eq, s, gridDims_labels]
  exact numel_perm (((List.perm_ext_iff_of_nodup (nodup_unique _) hn).2 h).symm.map _)

variable [Div R]

/-- **C91 (proved part).** `einsum` on three tiled tensors in which each label has one partition `P l` wherever it occurs:
whatever tiles exist, whatever the order of the parallel loop over the tiles, with or without the run-time check, every
element satisfies `C(ρ) := cp*C(ρ) + ab*Σ A*B`, the sum over all values of the contracted labels, and the layout of `C` is
kept.  Zero-sized tiles and dimensions are allowed.  The label conditions are those of `C15_einsum`.
Missing: operands that partition a label differently, see `C91_partition_refuted`; the element-wise product when a tile of
`A` or `B` is missing and `cp ≠ 1`, see `C91_elementwise_refuted`. -/
theorem C91_einsum_partial (P : L → List Nat) (Al Bl Cl ls : List L) (og check : Bool) (A B C : Tiled R)
    (fA fB fC : List Nat → R) (cp ab : R) (hAn : Al.Nodup) (hA0 : Al ≠ []) (hB0 : Bl ≠ []) (hC0 : Cl ≠ [])
    (wA : A.WF) (wB : B.WF) (wC : C.WF) (sA : A.sizes = Al.map P) (sB : B.sizes = Bl.map P) (sC : C.sizes = Cl.map P)
    (hA : A.Represents fA) (hB : B.Represents fB) (hC : C.Represents fC)
    (coverA : ∀ l ∈ Al, l ∈ Cl ∨ l ∈ Bl) (coverB : ∀ l ∈ Bl, l ∈ Cl ∨ l ∈ Al) (coverC : ∀ l ∈ Cl, l ∈ Al ∨ l ∈ Bl)
    (noTriple : choosePath og Al Bl Cl = .gemm → ∀ l ∈ Cl, ¬(l ∈ Al ∧ l ∈ Bl))
    (order : choosePath og Al Bl Cl = .outer → Cl = Al ++ Bl ∨ Cl = Bl ++ Al)
    (hls : Contracted Al Bl Cl ls)
    (full : Al = Cl → Bl = Cl → cp = 1 ∨
      ∀ k, InBox k (gridDims A.sizes) → A.hasTile (toIdx k) = true ∧ B.hasTile (toIdx k) = true)
    (sched : List Nat) (hs : sched.Perm (List.range (tiledEinsumCount Cl C Al A Bl B))) :
    ∃ C', einsumTiled og check cp Cl C ab Al A Bl B sched = .ok C' ∧ C'.WF ∧ C'.sizes = C.sizes ∧
      ∀ ρ, InRange (fun l => (P l).sum) Cl ρ → C'.get (toIdx (Cl.map ρ))
        = .ok (cp * fC (Cl.map ρ) + ab * contraction (fun l => (P l).sum) ls Al Bl fA fB ρ) := by
  have hr : runtimeAbort Al Bl Cl A.dims B.dims C.dims = false := by
    unfold runtimeAbort
    rw [tiled_dims wA sA, tiled_dims wB sB, tiled_dims wC sC, no_clash_of_map, no_clash_of_map, no_clash_of_map]; rfl
  unfold einsumTiled
  rw [if_neg (by rw [labelsOk_of_cover coverA coverB]; simp), hr, if_neg (by simp)]
  by_cases he : isElementWise Al Bl Cl = true
  · rw [if_pos he]
    have he' := he
    simp only [isElementWise, Bool.and_eq_true, decide_eq_true_eq] at he'
    obtain ⟨⟨h1, h2⟩, _⟩ := he'
    have e1 : Al = Cl := h1.symm
    have e2 : Al = Bl := h1.symm.trans h2
    subst e1
    subst e2
    have hc : tiledEinsumCount Al C Al A Al B = A.gridSize := by
      have g : ∀ {T : Tiled R}, T.sizes = Al.map P → T.grid = Al.map fun l => (P l).length := by
        intro T h
        unfold Tiled.grid
        rw [h, List.map_map]; rfl
      have e : ∀ l, l ∈ uniqueLabels Al Al Al ↔ l ∈ Al := fun l => by rw [mem_uniqueLabels]; tauto
      unfold tiledEinsumCount
      rw [g sA, g sB, g sC, gridRanges_eq (fun l => (P l).length), gridCount_eq, ← tiled_count sA hAn e]
      obtain ⟨l, hl⟩ := List.exists_mem_of_ne_nil Al hA0
      intro h
      have := (e l).2 hl
      rw [List.map_eq_nil_iff.1 h] at this
      simp at this
    obtain ⟨C', h1, h2, h3, h4⟩ := C53_direct_partial ab cp A B C fA fB fC wA wB wC hA hB hC (sB.trans sA.symm)
      (sC.trans sA.symm) sched (hc ▸ hs) (full rfl rfl)
    refine ⟨C', h1, h2, h3, ?_⟩
    intro ρ hρ
    rw [h4 _ (by rw [h3, sC, fullDims_labels]; exact inBox_map hρ)]
    have : ls = [] := by
      apply List.eq_nil_iff_forall_not_mem.2
      intro l hl
      have := (hls.2 l).1 hl
      exact this.2.2 this.1
    subst this
    rfl
  · rw [if_neg he]
    obtain ⟨C', f', h1, h2, h3, h4, h5⟩ := tiledEinsum_ok (og := og) (check := check) (cp := cp) (ab := ab) wA wB wC
      ((represents_holds wA).1 hA) ((represents_holds wB).1 hB) ((represents_holds wC).1 hC) sA sB sC hAn hA0 hB0 hC0 coverA
      coverB coverC noTriple order hls hs
    refine ⟨C', h1, h2, h3, ?_⟩
    intro ρ hρ
    rw [(represents_holds h2).2 h4 _ (by rw [h3, sC, fullDims_labels]; exact inBox_map hρ), h5 ρ hρ]

omit [Div R] in
/-- **C92 (proved part).** `einsum` of two tiled tensors into a scalar, each label having one partition: whatever tiles
exist and whatever the order of the reduction, the result is `cp*c + ab*Σ A*B` over all values of the labels.
Missing: when the labels of `A` and `B` are the same list, the grid must read the same backwards: this case runs `dot`, see
`C92_dot_refuted`. -/
theorem C92_scalar_partial (P : L → List Nat) (Al Bl ls : List L) (check : Bool) (A B : Tiled R)
    (fA fB : List Nat → R) (cp c ab : R) (hAn : Al.Nodup) (hA0 : Al ≠ [])
    (wA : A.WF) (wB : B.WF) (sA : A.sizes = Al.map P) (sB : B.sizes = Bl.map P)
    (hA : A.Represents fA) (hB : B.Represents fB) (coverA : ∀ l ∈ Al, l ∈ Bl) (coverB : ∀ l ∈ Bl, l ∈ Al)
    (hls : Contracted Al Bl [] ls) (hg : Al = Bl → (gridDims A.sizes).reverse = gridDims A.sizes)
    (sched : List Nat) (hs : sched.Perm (List.range (tiledScalarCount Al A Bl B))) :
    einsumTiledScalar check cp c ab Al A Bl B sched
      = .ok (cp * c + ab * contraction (fun l => (P l).sum) ls Al Bl fA fB fun _ => 0) := by
  have hok : labelsOk ([] : List L) (linkUnique Al Bl []) Al Bl = true := by
    simp only [labelsOk, linkUnique, List.all_eq_true, List.mem_append, Bool.or_eq_true, decide_eq_true_eq,
      mem_unique, mem_links]
    intro l hl; right
    rcases hl with hl | hl
    · exact ⟨hl, coverA l hl, by simp⟩
    · exact ⟨coverB l hl, hl, by simp⟩
  have hr : runtimeAbort Al Bl [] A.dims B.dims [] = false := by
    have e1 : ∀ (Xl : List L) (X : List Nat), dimsClash Xl X ([] : List L) [] = false := by intro Xl X; simp [dimsClash]
    unfold runtimeAbort
    rw [tiled_dims wA sA, tiled_dims wB sB, no_clash_of_map, e1, e1]; rfl
  unfold einsumTiledScalar
  rw [if_neg (by rw [hok]; simp), hr, if_neg (by simp)]
  by_cases hd : isDotProduct Al Bl [] = true
  · rw [if_pos hd]
    have e : Al = Bl := by
      simp only [isDotProduct, Bool.and_eq_true, decide_eq_true_eq] at hd
      exact hd.1.2
    subst e
    have hc : tiledScalarCount Al A Al B = A.gridSize := by
      have g : ∀ {T : Tiled R}, T.sizes = Al.map P → T.grid = Al.map fun l => (P l).length := by
        intro T h
        unfold Tiled.grid
        rw [h, List.map_map]; rfl
      have e : ∀ l, l ∈ uniqueLabels [] Al Al ↔ l ∈ Al := fun l => by rw [mem_uniqueLabels]; simp
      have e' := gridRanges_eq (fun l => (P l).length) [] Al Al
      rw [List.map_nil] at e'
      unfold tiledScalarCount
      rw [g sA, g sB, e', gridCount_eq, ← tiled_count sA hAn e]
      obtain ⟨l, hl⟩ := List.exists_mem_of_ne_nil Al hA0
      intro h
      have := (e l).2 hl
      rw [List.map_eq_nil_iff.1 h] at this
      simp at this
    rw [C33_dot_partial A B fA fB wA wB hA hB (sB.trans sA.symm) (hg rfl) sched (hc ▸ hs), Outcome.ok_bind, mul_comm c cp]
    congr 3
    unfold contraction
    rw [sumOver_perm _ ((List.perm_ext_iff_of_nodup hls.1 hAn).2 fun l => by rw [hls.2 l]; simp) hls.1, sumOver_eq _ Al hAn,
      sA, fullDims_labels]
    congr 1
    apply List.map_congr_left
    intro i hi
    rw [map_bindEnv hAn (by have := (mem_box.1 hi).length; simpa using this)]
  · rw [if_neg hd]
    exact tiledEinsumScalar_ok wA wB ((represents_holds wA).1 hA) ((represents_holds wB).1 hB) sA sB hAn hA0 coverA coverB hls hs

/-! ### Cases that meet the hypotheses, and what fails outside them -/

/-- The partition of each label in the examples: labels 0, 1, 2; label 1 has a zero-sized tile. -/
def examplePartition : Nat → List Nat
  | 0 => [1, 1]
  | 1 => [1, 0, 2]
  | _ => [2]

/-- `C(i,j) = 3 C(i,j) + 2 A(i,k) B(k,j)` with missing tiles in all three tensors, in some order. -/
example : ∃ A B C : Tiled Int, ∃ sched : List Nat, A.WF ∧ B.WF ∧ C.WF ∧ A.sizes = [0, 1].map examplePartition ∧
    B.sizes = [1, 2].map examplePartition ∧ C.sizes = [0, 2].map examplePartition ∧
    sched.Perm (List.range (tiledEinsumCount [0, 2] C [0, 1] A [1, 2] B)) ∧ sched ≠ List.range sched.length ∧
    Contracted [0, 1] [1, 2] [0, 2] [1] ∧ A.get [1, 2] = .ok 3 ∧ B.get [2, 1] = .ok 5 ∧ C.get [1, 1] = .ok 0 ∧
    ∃ C', einsumTiled false true 3 [0, 2] C 2 [0, 1] A [1, 2] B sched = .ok C' ∧ C'.get [1, 1] = .ok 30 ∧
      C'.get [0, 0] = .ok 21 :=
  ⟨tiledOf [[1, 1], [1, 0, 2]] [.set [1, 2] 3], tiledOf [[1, 0, 2], [2]] [.set [2, 1] 5],
    tiledOf [[1, 1], [2]] [.set [0, 0] 7], [5, 3, 1, 0, 2, 4],
    (tiledOf_ok _ (by simp) _ (by simp [TiledOp.Valid])).1, (tiledOf_ok _ (by simp) _ (by simp [TiledOp.Valid])).1,
    (tiledOf_ok _ (by simp) _ (by simp [TiledOp.Valid])).1, by decide, by decide, by decide, by decide, by decide,
    ⟨by decide, by intro l; simp; omega⟩, by decide, by decide, by decide, _, rfl, by decide, by decide⟩

/-- **C91 (refuted for different partitions).** `A` (1×2, two tiles along the contracted label) times `B` (2×1, one tile):
the dimensions agree and the run-time check passes, `A(0,1) = 1` and `B(1,0) = 4`, but the product is returned as 0. -/
theorem C91_partition_refuted : ∃ A B C C' : Tiled Int, A.WF ∧ B.WF ∧ C.WF ∧ A.dims = [1, 2] ∧ B.dims = [2, 1] ∧
    C.dims = [1, 1] ∧ A.get [0, 0] = .ok 0 ∧ A.get [0, 1] = .ok 1 ∧ B.get [0, 0] = .ok 0 ∧ B.get [1, 0] = .ok 4 ∧
    C.get [0, 0] = .ok 0 ∧
    einsumTiled false true 0 [0, 2] C 1 [0, 1] A [1, 2] B (List.range (tiledEinsumCount [0, 2] C [0, 1] A [1, 2] B)) = .ok C' ∧
    C'.get [0, 0] = .ok 0 :=
  ⟨tiledOf [[1], [1, 1]] [.set [0, 1] 1], tiledOf [[2], [1]] [.set [1, 0] 4], tiledOf [[1], [1]] [], _,
    (tiledOf_ok _ (by simp) _ (by simp [TiledOp.Valid])).1, (tiledOf_ok _ (by simp) _ (by simp [TiledOp.Valid])).1,
    (tiledOf_ok _ (by simp) _ (by simp)).1, by decide, by decide, by decide, by decide, by decide, by decide, by decide,
    by decide, rfl, by decide⟩

/-- **C91 (refuted for the element-wise product).** `C(i) = 2 C(i) + A(i) B(i)` where `A` has no tile: `C(0)` stays 7 instead
of becoming 14. -/
theorem C91_elementwise_refuted : ∃ A B C C' : Tiled Int, A.WF ∧ B.WF ∧ C.WF ∧ A.sizes = [[1]] ∧ B.sizes = [[1]] ∧
    C.sizes = [[1]] ∧ A.get [0] = .ok 0 ∧ B.get [0] = .ok 4 ∧ C.get [0] = .ok 7 ∧
    einsumTiled false true 2 [0] C 1 [0] A [0] B (List.range (tiledEinsumCount [0] C [0] A [0] B)) = .ok C' ∧
    C'.get [0] = .ok 7 :=
  ⟨tiledOf [[1]] [], tiledOf [[1]] [.set [0] 4], tiledOf [[1]] [.set [0] 7], _,
    (tiledOf_ok _ (by simp) _ (by simp)).1, (tiledOf_ok _ (by simp) _ (by simp [TiledOp.Valid])).1,
    (tiledOf_ok _ (by simp) _ (by simp [TiledOp.Valid])).1, by decide, by decide, by decide, by decide, by decide, by decide,
    rfl, by decide⟩

/-- `c = 3 c + 2 A(i,j) B(j,i)` with missing tiles. -/
example : ∃ A B : Tiled Int, ∃ sched : List Nat, A.WF ∧ B.WF ∧ A.sizes = [0, 1].map examplePartition ∧
    B.sizes = [1, 0].map examplePartition ∧ sched.Perm (List.range (tiledScalarCount [0, 1] A [1, 0] B)) ∧
    Contracted [0, 1] [1, 0] [] [0, 1] ∧ A.get [1, 2] = .ok 3 ∧ B.get [2, 1] = .ok 5 ∧
    einsumTiledScalar true 3 10 2 [0, 1] A [1, 0] B sched = .ok 60 :=
  ⟨tiledOf [[1, 1], [1, 0, 2]] [.set [1, 2] 3], tiledOf [[1, 0, 2], [1, 1]] [.set [2, 1] 5, .set [0, 0] 9], [5, 3, 1, 0, 2, 4],
    (tiledOf_ok _ (by simp) _ (by simp [TiledOp.Valid])).1, (tiledOf_ok _ (by simp) _ (by simp [TiledOp.Valid])).1, by decide,
    by decide, by decide, ⟨by decide, by intro l; simp; omega⟩, by decide, by decide, by decide⟩

/-- **C92 (refuted for `dot`).** `c = A(i,j) A(i,j)` for the 1×2 matrix `[0 5]` in two tiles is 0 instead of 25. -/
theorem C92_dot_refuted : ∃ A : Tiled Int, A.WF ∧ A.sizes = [[1], [1, 1]] ∧ A.get [0, 0] = .ok 0 ∧ A.get [0, 1] = .ok 5 ∧
    einsumTiledScalar true 0 0 1 [0, 1] A [0, 1] A (List.range (tiledScalarCount [0, 1] A [0, 1] A)) = .ok 0 :=
  ⟨tiledOf [[1], [1, 1]] [.set [0, 1] 5], (tiledOf_ok _ (by simp) _ (by simp [TiledOp.Valid])).1, by decide, by decide,
    by decide, by decide⟩

end Einsums.Props
