import Verif.Model.Generic
import Verif.Proofs.DotPath
import Verif.Props.FunctionTensor
import Verif.Proofs.TiledDot
import Verif.Proofs.BlockDot
import Verif.Proofs.Decomposition
import Verif.Spec.LinAlg
import Mathlib.Tactic.Ring
import Mathlib.Tactic.IntervalCases
/-
C112–C114: `dot` of three tensors; linear algebra on tensors that are not stored (function tensors).
-/
namespace Einsums.Props
open Spec Model

/-- The input has the dimensions `ds` and its element at every multi-index in range is given by `f`. -/
def Reads {R : Type} (t : AnyTensor R) (ds : List Nat) (f : List Nat → R) : Prop :=
  t.dims = ds ∧ ∀ i, InBox i ds → t.read (i.map Int.ofNat) = .ok (f i)

/-- A tensor or a view of one is such an input. -/
theorem reads_tensor {R : Type} {t : Strided R} {f : List Nat → R} (h : t.Represents f) : Reads t.any t.dims f := ⟨rfl, h⟩

theorem int32_toIdx : ∀ (i ds : List Nat), InBox i ds → (∀ d ∈ ds, d ≤ 2 ^ 31) → ∀ x ∈ toIdx i, IsInt32 x
  | [], _, _, _ => by simp [toIdx]
  | a :: i, [], h, _ => by simp [InBox] at h
  | a :: i, d :: ds, ⟨h1, h2⟩, hd => by
    intro x hx
    simp only [toIdx, List.map_cons, List.mem_cons] at hx
    have := hd d (by simp)
    rcases hx with rfl | hx
    · exact ⟨by simp only [Int.ofNat_eq_natCast]; omega, by simp only [Int.ofNat_eq_natCast]; omega⟩
    · exact int32_toIdx i ds h2 (fun d hd' => hd d (by simp [hd'])) x hx

theorem intIndex_eq {ds : List Nat} (hd : ∀ d ∈ ds, d ≤ 2 ^ 31) {s : Nat} (hs : s < numel ds) :
    intIndex s (dimsToStrides ds).2 = toIdx (unflat ds s) := by
  unfold intIndex
  refine (List.map_congr_left fun x hx => toInt32_eq (int32_toIdx _ ds (unflat_inBox hs) hd x hx)).trans ?_
  exact List.map_id _

/-- A function tensor, or any chain of views of one, with dimensions up to 2^31, is such an input. -/
theorem reads_function {R : Type} (f : List Int → R) (dims : List Nat) (hd : ∀ d ∈ dims, d ≤ 2 ^ 31) (chain : List (List Sel))
    (vd : List Nat) (hc : chainDims dims chain = some vd) :
    Reads (chain.foldl FuncTensor.view (funcPointerTensor (toIdx dims) f)).any vd
      fun js => f ((chainIndex dims chain js).map Int.ofNat) := by
  obtain ⟨h, hb⟩ := (funcPointer_is dims f).chain hd hc
  refine ⟨?_, fun i hi => ?_⟩
  · rw [FuncTensor.any, h.dims]
    simp [toIdx, Function.comp_def]
  · exact (h.read (is := toIdx i) hb (int32_toIdx i vd hi hb) (by rw [length_toIdx, hi.length])).1 i (pyIndices_toIdx hi)

/-- The Kronecker delta is such an input. -/
theorem reads_delta {R : Type} [One R] [Zero R] (n : Nat) (hn : n ≤ 2 ^ 31) :
    Reads (kroneckerDelta n : FuncTensor R).any [n, n] fun i => if i.getD 0 0 = i.getD 1 0 then 1 else 0 := by
  refine ⟨rfl, fun i hi => ?_⟩
  obtain ⟨i, j, rfl, hi, hj⟩ := inBox_two.1 hi
  have := C46_delta (α := R) n hn i j ⟨by omega, by omega⟩ ⟨by omega, by omega⟩
  rw [pyIndex_eq_some.2 ⟨hi, Or.inl rfl⟩, pyIndex_eq_some.2 ⟨hj, Or.inl rfl⟩] at this
  exact this

/-! ### C112 -/

section
variable {R : Type} [CommRing R] [BEq R] [Div R]

omit [BEq R] [Div R] in
theorem triple_ok {vA vB vC : Strided R} {fA fB fC : List Nat → R} {n : Nat} {order : List Nat} (ho : order.Perm (List.range n))
    (dA : vA.dims = [n]) (dB : vB.dims = [n]) (dC : vC.dims = [n]) (hA : vA.Represents fA) (hB : vB.Represents fB)
    (hC : vC.Represents fC) :
    sumLoop (tripleTerm vA vB vC) order 0 = .ok (sumTo n fun i => fA [i] * fB [i] * fC [i]) := by
  refine sumLoop_perm ho (fun i => fA [i] * fB [i] * fC [i]) fun i hi => ?_
  have a := hA [i] (by rw [dA]; exact ⟨hi, trivial⟩)
  have b := hB [i] (by rw [dB]; exact ⟨hi, trivial⟩)
  have c := hC [i] (by rw [dC]; exact ⟨hi, trivial⟩)
  simp only [toIdx, List.map_cons, List.map_nil, Int.ofNat_eq_natCast] at a b c
  simp only [tripleTerm, a, b, c]
  rfl

omit [CommRing R] [BEq R] [Div R] in
theorem viewDims_flat {t : Strided R} (h1 : 1 < t.dims.length) : t.viewDims [numel t.dims] = .ok (vecView t t.dims) := by
  unfold Strided.viewDims
  rw [if_neg (by simp only [List.length_singleton]; omega), if_neg (by simp only [List.length_singleton]; omega),
    if_pos (by simp [foldl_mul_numel])]
  rfl

omit [CommRing R] [BEq R] [Div R] in
theorem viewDims_one {t : Strided R} {n : Nat} (h : t.dims = [n]) : t.viewDims [n] = .ok t := by
  unfold Strided.viewDims
  rw [if_neg (by simp [h]), if_pos (by simp [h])]
  simp [Strided.viewAs, ← h]

omit [BEq R] [Div R] in
/-- **C112 (partial).** `dot(A, B, C)` of tensors, or of views with the layout of a tensor, is the sum of A·B·C over all
multi-indices, in whatever order the threads add up.  Missing: other views of rank two or more (`C112_refuted`). -/
theorem C112_dot3_partial (ds : List Nat) (A B C : Strided R) (fA fB fC : List Nat → R) (order : List Nat)
    (h0 : ds ≠ []) (dA : A.dims = ds) (dB : B.dims = ds) (dC : C.dims = ds) (rA : A.RowMajor) (rB : B.RowMajor) (rC : C.RowMajor)
    (hA : A.Represents fA) (hB : B.Represents fB) (hC : C.Represents fC) (ho : order.Perm (List.range (numel ds))) :
    dot3 order A B C = .ok ((box ds).map fun i => fA i * fB i * fC i).sum := by
  unfold dot3
  rw [if_neg (by simp [dA, dB, dC])]
  simp only [dA, foldl_mul_numel, Nat.one_mul]
  match ds, h0 with
  | [n], _ =>
    simp only [numel, Nat.mul_one] at ho ⊢
    rw [viewDims_one dA, viewDims_one dB, viewDims_one dC]
    refine (triple_ok ho dA dB dC hA hB hC).trans ?_
    simp [sumTo, box, ← List.map_eq_flatMap, Function.comp_def]
  | x :: y :: ds, _ =>
    have eA := viewDims_flat (t := A) (by simp [dA])
    have eB := viewDims_flat (t := B) (by simp [dB])
    have eC := viewDims_flat (t := C) (by simp [dC])
    have vA := vecView_represents rA hA
    have vB := vecView_represents rB hB
    have vC := vecView_represents rC hC
    rw [dA] at eA vA; rw [dB] at eB vB; rw [dC] at eC vC
    rw [eA, eB, eC]
    refine (triple_ok ho rfl rfl rfl vA vB vC).trans ?_
    rw [← sumTo_unflat]
    rfl

omit [BEq R] [Div R] in
/-- **C112 (partial: vectors).** For vectors the layout does not matter. -/
theorem C112_vector_partial (n : Nat) (A B C : Strided R) (fA fB fC : List Nat → R) (order : List Nat)
    (dA : A.dims = [n]) (dB : B.dims = [n]) (dC : C.dims = [n])
    (hA : A.Represents fA) (hB : B.Represents fB) (hC : C.Represents fC) (ho : order.Perm (List.range n)) :
    dot3 order A B C = .ok (sumTo n fun i => fA [i] * fB [i] * fC [i]) := by
  unfold dot3
  rw [if_neg (by simp [dA, dB, dC])]
  simp only [dA, foldl_mul_numel, Nat.one_mul, numel, Nat.mul_one]
  rw [viewDims_one dA, viewDims_one dB, viewDims_one dC]
  exact triple_ok ho dA dB dC hA hB hC

/-- The left half of a 2×4 matrix: rows 1, 2 and 5, 6. -/
def leftHalf : Strided Int := ⟨[1, 2, 3, 4, 5, 6, 7, 8], 0, [2, 2], [4, 1]⟩

/-- A 2×2 tensor of ones. -/
def ones22 : Strided Int := ⟨[1, 1, 1, 1], 0, [2, 2], [2, 1]⟩

/-- **C112 (refuted).** For the view of the left half of a matrix the elements outside the view are summed: 1 + 2 + 3 + 4
instead of 1 + 2 + 5 + 6, in every order. -/
theorem C112_refuted (order : List Nat) (ho : order.Perm (List.range 4)) :
    leftHalf.WF ∧ (∀ i j : Fin 2, leftHalf.read [(i : Int), (j : Int)] = .ok (4 * i + j + 1)) ∧
      dot3 order leftHalf ones22 ones22 = .ok 10 ∧ (10 : Int) ≠ 1 + 2 + 5 + 6 := by
  refine ⟨⟨rfl, ?_, ?_⟩, by decide +kernel, ?_, by decide⟩
  · intro l hl
    obtain ⟨i, j, rfl, hi, hj⟩ := inBox_two.1 hl
    simp only [leftHalf, dot, List.length_cons, List.length_nil]
    omega
  · intro a b ha hb e
    obtain ⟨i, j, rfl, hi, hj⟩ := inBox_two.1 ha
    obtain ⟨i', j', rfl, hi', hj'⟩ := inBox_two.1 hb
    simp only [leftHalf, dot] at e
    have : i = i' ∧ j = j' := by omega
    rw [this.1, this.2]
  · have w1 : leftHalf.viewDims [4] = .ok (leftHalf.viewAs [4] [1]) := rfl
    have w2 : ones22.viewDims [4] = .ok (ones22.viewAs [4] [1]) := rfl
    unfold dot3
    rw [if_neg (by decide)]
    change (leftHalf.viewDims [4] >>= fun vA => ones22.viewDims [4] >>= fun vB => ones22.viewDims [4] >>= fun vC =>
      sumLoop (tripleTerm vA vB vC) order 0) = _
    rw [w1, w2]
    have h : ∀ i < 4, tripleTerm (leftHalf.viewAs [4] [1]) (ones22.viewAs [4] [1]) (ones22.viewAs [4] [1]) i =
        .ok ([1, 2, 3, 4].getD i 0) := by decide +kernel
    exact sumLoop_perm ho _ h

/-- The 2×2 tensor with rows 1, 2 and 3, 4. -/
def count22 : Strided Int := ⟨[1, 2, 3, 4], 0, [2, 2], [2, 1]⟩

theorem ones22_represents : ones22.Represents fun _ => 1 := fun i hi => by
  obtain ⟨i, j, rfl, hi, hj⟩ := inBox_two.1 hi; interval_cases i <;> interval_cases j <;> rfl

theorem count22_represents : count22.Represents fun i => 2 * (i.getD 0 0 : Int) + i.getD 1 0 + 1 := fun i hi => by
  obtain ⟨i, j, rfl, hi, hj⟩ := inBox_two.1 hi; interval_cases i <;> interval_cases j <;> rfl

example : dot3 [3, 0, 2, 1] ones22 count22 ones22 = .ok 10 :=
  C112_dot3_partial [2, 2] ones22 count22 ones22 _ _ _ [3, 0, 2, 1] (by decide) rfl rfl rfl
    ⟨rfl, by decide⟩ ⟨rfl, by decide⟩ ⟨rfl, by decide⟩ ones22_represents count22_represents ones22_represents (by decide)

/-- Every second element of a vector. -/
def everySecond : Strided Int := ⟨[1, 2, 3, 4], 0, [2], [2]⟩

theorem everySecond_represents : everySecond.Represents fun i => 2 * (i.getD 0 0 : Int) + 1 := fun i hi => by
  obtain ⟨i, rfl, hi'⟩ := inBox_one.1 hi; clear hi; interval_cases i <;> rfl

theorem everySecond_wf : everySecond.WF where
  len := rfl
  bound := by
    intro l hl
    obtain ⟨i, rfl, hi⟩ := inBox_one.1 hl
    simp only [everySecond, dot, List.length_cons, List.length_nil]
    omega
  inj := by
    intro a b ha hb e
    obtain ⟨i, rfl, hi⟩ := inBox_one.1 ha
    obtain ⟨j, rfl, hj⟩ := inBox_one.1 hb
    simp only [everySecond, dot] at e
    rw [show i = j by omega]

example : dot3 [1, 0] everySecond everySecond everySecond = .ok (1 * 1 * 1 + (3 * 3 * 3 + 0)) :=
  C112_vector_partial 2 everySecond everySecond everySecond _ _ _ [1, 0] rfl rfl rfl
    everySecond_represents everySecond_represents everySecond_represents (by decide)

end

/-! ### C113 -/

section
variable {R : Type} [CommRing R]

/-- **C113 (dot).** `dot(A, B)` of function tensors (or one function tensor and one tensor or view) with equal dimensions, up to 2^31, is the
sum of the products of their elements, in whatever order the threads add up; with `conj`, `true_dot`. -/
theorem C113_dot (ds : List Nat) (hd : ∀ d ∈ ds, d ≤ 2 ^ 31) (conj : R → R) (A B : AnyTensor R) (fA fB : List Nat → R) (order : List Nat)
    (hA : Reads A ds fA) (hB : Reads B ds fB) (ho : order.Perm (List.range (numel ds))) :
    genericDot order conj A B = .ok ((box ds).map fun i => conj (fA i) * fB i).sum := by
  unfold genericDot
  rw [if_neg (by simp [hA.1, hB.1]), ← sumTo_unflat]
  refine sumLoop_perm ho _ fun s hs => ?_
  have hb := unflat_inBox hs
  unfold genericTerm
  rw [hA.1, intIndex_eq hd hs]
  change (A.read ((unflat ds s).map Int.ofNat) >>= fun a => B.read ((unflat ds s).map Int.ofNat) >>= fun b => pure (conj a * b)) = _
  rw [hA.2 _ hb, hB.2 _ hb]
  rfl

/-- **C113 (dot, shapes).** Inputs with different dimensions are rejected. -/
theorem C113_dot_shapes (conj : R → R) (A B : AnyTensor R) (order : List Nat) (h : A.dims ≠ B.dims) :
    ∃ m, genericDot order conj A B = .error m := ⟨_, if_pos h⟩

variable [BEq R] [LawfulBEq R]

theorem genericStore_ok (alpha beta : R) (C : Strided R) (f : List Nat → R) (hC : C.Represents f) {i : List Nat} (hi : InBox i C.dims)
    (s : R) : genericStore alpha beta C i s = C.write (toIdx i) (beta * f i + alpha * s) := by
  unfold genericStore
  by_cases hb : (beta == 0) = true
  · rw [if_pos hb, eq_of_beq hb, zero_mul, zero_add]
  · rw [if_neg hb, hC i hi]
    rfl

theorem mem_iff_of_perm {order : List (List Nat)} {ds : List Nat} (ho : order.Perm (box ds)) {i : List Nat} :
    i ∈ order ↔ InBox i ds := by rw [ho.mem_iff, mem_box]

/-- **C113 (gemm).** C := beta·C + alpha·op(A)·op(B) for function tensors, tensors and views in any combination, where C is a
tensor or any view of one, in whatever order the iterations are performed; nothing else changes. -/
theorem C113_gemm (ta tb : Bool) (m n k : Nat) (alpha beta : R) (A B : AnyTensor R) (C : Strided R) (fA fB fC : List Nat → R)
    (order : List (List Nat)) (hA : Reads A (opDims ta m k) fA) (hB : Reads B (opDims tb k n) fB) (dC : C.dims = [m, n]) (w : C.WF)
    (hC : C.Represents fC) (ho : order.Perm (box [m, n])) :
    ∃ C', genericGemm order ta tb alpha A B beta C = .ok C' ∧ C.Frame C' ∧
      ∀ i j, i < m → j < n → C'.read [(i : Int), (j : Int)] = .ok (beta * fC [i, j] +
        alpha * sumTo k fun l => opElem ta fA i l * opElem tb fB l j) := by
  have c0 : C.dim 0 = m := by simp [Strided.dim, dC]
  have c1 : C.dim 1 = n := by simp [Strided.dim, dC]
  have a0 : (if ta then A.dim 0 else A.dim 1) = k := by cases ta <;> simp [AnyTensor.dim, hA.1, opDims]
  have a1 : (if ta then A.dim 1 else A.dim 0) = m := by cases ta <;> simp [AnyTensor.dim, hA.1, opDims]
  have b0 : (if tb then B.dim 1 else B.dim 0) = k := by cases tb <;> simp [AnyTensor.dim, hB.1, opDims]
  have b1 : (if tb then B.dim 0 else B.dim 1) = n := by cases tb <;> simp [AnyTensor.dim, hB.1, opDims]
  unfold genericGemm
  rw [if_neg (by rw [a0, b0]; simp), if_neg (by rw [a1, c0]; simp), if_neg (by rw [b1, c1]; simp), a0]
  obtain ⟨C', e, fr, r⟩ := foldlM_update (C := C) (f := fC) order (ho.nodup_iff.2 (nodup_box _))
    (fun i hi => by rw [dC]; exact (mem_iff_of_perm ho).1 hi) w hC
    (fun i c => beta * c + alpha * sumTo k fun l => opElem ta fA (i.getD 0 0) l * opElem tb fB l (i.getD 1 0))
    (gemmStep ta tb k alpha A B beta) (by
      intro C1 i f1 hi hd hr
      have hb := (mem_iff_of_perm ho).1 hi
      obtain ⟨i, j, rfl, hi, hj⟩ := inBox_two.1 hb
      unfold gemmStep
      rw [sumLoop_perm (List.Perm.refl _) (fun l => opElem ta fA i l * opElem tb fB l j)]
      · exact genericStore_ok alpha beta C1 f1 hr (by rw [hd, dC]; exact hb) _
      · intro l hl
        have ea : (if ta then A.read [(l : Int), (i : Int)] else A.read [(i : Int), (l : Int)]) = .ok (opElem ta fA i l) := by
          cases ta
          · exact hA.2 [i, l] ⟨hi, hl, trivial⟩
          · exact hA.2 [l, i] ⟨hl, hi, trivial⟩
        have eb : (if tb then B.read [(j : Int), (l : Int)] else B.read [(l : Int), (j : Int)]) = .ok (opElem tb fB l j) := by
          cases tb
          · exact hB.2 [l, j] ⟨hl, hj, trivial⟩
          · exact hB.2 [j, l] ⟨hj, hl, trivial⟩
        unfold genericProduct
        cases ta <;> cases tb <;> simp_all [List.getD])
  refine ⟨C', e, fr, fun i j hi hj => ?_⟩
  have := r [i, j] (by rw [fr.dims, dC]; exact ⟨hi, hj, trivial⟩)
  exact this.trans (congrArg Outcome.ok (if_pos ((mem_iff_of_perm ho).2 (show InBox [i, j] [m, n] from ⟨hi, hj, trivial⟩))))

omit [LawfulBEq R] in
/-- **C113 (gemm, shapes).** Shapes that do not fit are rejected. -/
theorem C113_gemm_shapes (ta tb : Bool) (alpha beta : R) (A B : AnyTensor R) (C : Strided R) (order : List (List Nat))
    (rA : A.dims.length = 2) (rB : B.dims.length = 2) (rC : C.dims.length = 2)
    (h : ¬ ∃ m n k, A.dims = opDims ta m k ∧ B.dims = opDims tb k n ∧ C.dims = [m, n]) :
    ∃ e, genericGemm order ta tb alpha A B beta C = .error e := by
  obtain ⟨a0, a1, ea⟩ := List.length_eq_two.1 rA
  obtain ⟨b0, b1, eb⟩ := List.length_eq_two.1 rB
  obtain ⟨c0, c1, ec⟩ := List.length_eq_two.1 rC
  unfold genericGemm
  by_cases h1 : (if ta then A.dim 0 else A.dim 1) ≠ (if tb then B.dim 1 else B.dim 0)
  · exact ⟨_, if_pos h1⟩
  by_cases h2 : (if ta then A.dim 1 else A.dim 0) ≠ C.dim 0
  · exact ⟨_, by rw [if_neg h1, if_pos h2]⟩
  by_cases h3 : (if tb then B.dim 0 else B.dim 1) ≠ C.dim 1
  · exact ⟨_, by rw [if_neg h1, if_neg h2, if_pos h3]⟩
  refine absurd ⟨if ta then a1 else a0, if tb then b0 else b1, if ta then a0 else a1, ?_⟩ h
  simp only [AnyTensor.dim, Strided.dim, ea, eb, ec] at h1 h2 h3
  rw [ea, eb, ec]
  cases ta <;> cases tb <;> simp_all [opDims]

/-- **C113 (gemv).** y := beta·y + alpha·op(A)·z, likewise. -/
theorem C113_gemv (ta : Bool) (m n : Nat) (alpha beta : R) (A z : AnyTensor R) (y : Strided R) (fA fz fy : List Nat → R)
    (order : List (List Nat)) (hA : Reads A (opDims ta m n) fA) (hz : Reads z [n] fz) (dy : y.dims = [m]) (w : y.WF)
    (hy : y.Represents fy) (ho : order.Perm (box [m])) :
    ∃ y', genericGemv order ta alpha A z beta y = .ok y' ∧ y.Frame y' ∧
      ∀ i, i < m → y'.read [(i : Int)] = .ok (beta * fy [i] + alpha * sumTo n fun l => opElem ta fA i l * fz [l]) := by
  have c0 : y.dim 0 = m := by simp [Strided.dim, dy]
  have z0 : z.dim 0 = n := by simp [AnyTensor.dim, hz.1]
  have a0 : (if ta then A.dim 0 else A.dim 1) = n := by cases ta <;> simp [AnyTensor.dim, hA.1, opDims]
  have a1 : (if ta then A.dim 1 else A.dim 0) = m := by cases ta <;> simp [AnyTensor.dim, hA.1, opDims]
  unfold genericGemv
  rw [if_neg (by rw [a0, z0]; simp), if_neg (by rw [a1, c0]; simp), z0]
  obtain ⟨y', e, fr, r⟩ := foldlM_update (C := y) (f := fy) order (ho.nodup_iff.2 (nodup_box _))
    (fun i hi => by rw [dy]; exact (mem_iff_of_perm ho).1 hi) w hy
    (fun i c => beta * c + alpha * sumTo n fun l => opElem ta fA (i.getD 0 0) l * fz [l])
    (gemvStep ta n alpha A z beta) (by
      intro C1 i f1 hi hd hr
      have hb := (mem_iff_of_perm ho).1 hi
      obtain ⟨i, rfl, hi'⟩ := inBox_one.1 hb; clear hi; rename' hi' => hi
      unfold gemvStep
      rw [sumLoop_perm (List.Perm.refl _) (fun l => opElem ta fA i l * fz [l])]
      · exact genericStore_ok alpha beta C1 f1 hr (by rw [hd, dy]; exact hb) _
      · intro l hl
        have ea : (if ta then A.read [(l : Int), (i : Int)] else A.read [(i : Int), (l : Int)]) = .ok (opElem ta fA i l) := by
          cases ta
          · exact hA.2 [i, l] ⟨hi, hl, trivial⟩
          · exact hA.2 [l, i] ⟨hl, hi, trivial⟩
        have eb : z.read [(l : Int)] = .ok (fz [l]) := hz.2 [l] ⟨hl, trivial⟩
        unfold genericRow
        cases ta <;> simp_all [List.getD])
  refine ⟨y', e, fr, fun i hi => ?_⟩
  have := r [i] (by rw [fr.dims, dy]; exact ⟨hi, trivial⟩)
  exact this.trans (congrArg Outcome.ok (if_pos ((mem_iff_of_perm ho).2 (show InBox [i] [m] from ⟨hi, trivial⟩))))

omit [LawfulBEq R] in
/-- **C113 (gemv, shapes).** Shapes that do not fit are rejected. -/
theorem C113_gemv_shapes (ta : Bool) (alpha beta : R) (A z : AnyTensor R) (y : Strided R) (order : List (List Nat))
    (rA : A.dims.length = 2) (rz : z.dims.length = 1) (ry : y.dims.length = 1)
    (h : ¬ ∃ m n, A.dims = opDims ta m n ∧ z.dims = [n] ∧ y.dims = [m]) :
    ∃ e, genericGemv order ta alpha A z beta y = .error e := by
  obtain ⟨a0, a1, ea⟩ := List.length_eq_two.1 rA
  obtain ⟨z0, ez⟩ := List.length_eq_one_iff.1 rz
  obtain ⟨y0, ey⟩ := List.length_eq_one_iff.1 ry
  unfold genericGemv
  by_cases h1 : (if ta then A.dim 0 else A.dim 1) ≠ z.dim 0
  · exact ⟨_, if_pos h1⟩
  by_cases h2 : (if ta then A.dim 1 else A.dim 0) ≠ y.dim 0
  · exact ⟨_, by rw [if_neg h1, if_pos h2]⟩
  refine absurd ⟨y0, z0, ?_⟩ h
  simp only [AnyTensor.dim, Strided.dim, ea, ez, ey] at h1 h2
  rw [ea, ez, ey]
  cases ta <;> simp_all [opDims]

omit [BEq R] [LawfulBEq R] in
/-- **C113 (ger).** A := A + alpha·x·yᵀ, likewise. -/
theorem C113_ger (m n : Nat) (alpha : R) (X Y : AnyTensor R) (A : Strided R) (fX fY fA : List Nat → R)
    (order : List (List Nat)) (hX : Reads X [m] fX) (hY : Reads Y [n] fY) (dA : A.dims = [m, n]) (w : A.WF)
    (hA : A.Represents fA) (ho : order.Perm (box [m, n])) :
    ∃ A', genericGer order alpha X Y A = .ok A' ∧ A.Frame A' ∧
      ∀ i j, i < m → j < n → A'.read [(i : Int), (j : Int)] = .ok (fA [i, j] + alpha * fX [i] * fY [j]) := by
  have c0 : A.dim 0 = m := by simp [Strided.dim, dA]
  have c1 : A.dim 1 = n := by simp [Strided.dim, dA]
  have x0 : X.dim 0 = m := by simp [AnyTensor.dim, hX.1]
  have y0 : Y.dim 0 = n := by simp [AnyTensor.dim, hY.1]
  unfold genericGer
  rw [if_neg (by rw [c0, c1, x0, y0]; simp)]
  obtain ⟨A', e, fr, r⟩ := foldlM_update (C := A) (f := fA) order (ho.nodup_iff.2 (nodup_box _))
    (fun i hi => by rw [dA]; exact (mem_iff_of_perm ho).1 hi) w hA
    (fun i c => c + alpha * fX [i.getD 0 0] * fY [i.getD 1 0])
    (gerStep alpha X Y) (by
      intro C1 i f1 hi hd hr
      have hb := (mem_iff_of_perm ho).1 hi
      obtain ⟨i, j, rfl, hi, hj⟩ := inBox_two.1 hb
      have ex : X.read [(i : Int)] = .ok (fX [i]) := hX.2 [i] ⟨hi, trivial⟩
      have ey : Y.read [(j : Int)] = .ok (fY [j]) := hY.2 [j] ⟨hj, trivial⟩
      have ec := hr [i, j] (by rw [hd, dA]; exact hb)
      unfold gerStep
      change (X.read [(i : Int)] >>= fun x => Y.read [(j : Int)] >>= fun y => C1.read (toIdx [i, j]) >>= fun a =>
        C1.write (toIdx [i, j]) (a + alpha * x * y)) = _
      rw [ex, ey, ec]
      rfl)
  refine ⟨A', e, fr, fun i j hi hj => ?_⟩
  have := r [i, j] (by rw [fr.dims, dA]; exact ⟨hi, hj, trivial⟩)
  exact this.trans (congrArg Outcome.ok (if_pos ((mem_iff_of_perm ho).2 (show InBox [i, j] [m, n] from ⟨hi, hj, trivial⟩))))

omit [BEq R] [LawfulBEq R] in
/-- **C113 (ger, shapes).** Shapes that do not fit are rejected. -/
theorem C113_ger_shapes (alpha : R) (X Y : AnyTensor R) (A : Strided R) (order : List (List Nat))
    (rX : X.dims.length = 1) (rY : Y.dims.length = 1) (rA : A.dims.length = 2) (h : A.dims ≠ X.dims ++ Y.dims) :
    ∃ e, genericGer order alpha X Y A = .error e := by
  obtain ⟨a0, a1, ea⟩ := List.length_eq_two.1 rA
  obtain ⟨x0, ex⟩ := List.length_eq_one_iff.1 rX
  obtain ⟨y0, ey⟩ := List.length_eq_one_iff.1 rY
  refine ⟨_, if_pos ?_⟩
  rw [ea, ex, ey] at h
  simp only [AnyTensor.dim, Strided.dim, ea, ex, ey, List.getD_cons_zero, List.getD_cons_succ]
  by_contra hc
  rw [not_or, not_not, not_not] at hc
  exact h (by rw [hc.1, hc.2]; rfl)

end

/-! ### C114 -/

section
variable {R : Type} [CommRing R]

/-- The positions of an order of the elements, as multi-indices. -/
theorem perm_unflat {order : List Nat} {ds : List Nat} (ho : order.Perm (List.range (numel ds))) :
    (order.map (unflat ds)).Perm (box ds) := by
  rw [← map_unflat_range]
  exact ho.map _

theorem direct_ok (ds : List Nat) (hd : ∀ d ∈ ds, d ≤ 2 ^ 31) (alpha beta : R) (A B : AnyTensor R) (C : Strided R) (fA fB fC : List Nat → R)
    (order : List Nat) (hA : Reads A ds fA) (hB : Reads B ds fB) (dC : C.dims = ds) (w : C.WF)
    (hC : C.Represents fC) (ho : order.Perm (List.range (numel ds))) :
    ∃ C', genericDirectProduct order alpha A B beta C = .ok C' ∧ C.Frame C' ∧ C'.Represents fun i => alpha * fA i * fB i := by
  unfold genericDirectProduct
  rw [if_neg (by simp [hA.1, hB.1, dC])]
  have hp := perm_unflat ho
  obtain ⟨C', e, fr, r⟩ := foldlM_update (C := C) (f := fC) (order.map (unflat ds)) (hp.nodup_iff.2 (nodup_box _))
    (fun i hi => by rw [dC]; exact (mem_iff_of_perm hp).1 hi) w hC
    (fun i _ => alpha * fA i * fB i)
    (fun C i => A.read (toIdx i) >>= fun a => B.read (toIdx i) >>= fun b => C.write (toIdx i) (alpha * a * b)) (by
      intro C1 i f1 hi hd hr
      have hb := (mem_iff_of_perm hp).1 hi
      have ea : A.read (toIdx i) = _ := hA.2 i hb
      have eb : B.read (toIdx i) = _ := hB.2 i hb
      rw [ea, eb]
      rfl)
  refine ⟨C', ?_, fr, fun i hi => ?_⟩
  · rw [List.foldlM_map] at e
    rw [← e]
    refine foldlM_congr_mem (fun C1 s hs => ?_) _
    unfold directStep
    rw [hA.1, intIndex_eq hd (List.mem_range.1 (ho.mem_iff.1 hs))]
  · exact (r i hi).trans (congrArg Outcome.ok (if_pos ((mem_iff_of_perm hp).2 (by rw [← dC, ← fr.dims]; exact hi))))

/-- **C114 (partial).** `direct_product(alpha, A, B, 0, &C)` of function tensors, tensors and views in any combination, with dimensions up to
2^31: C := alpha·A·B element by element.  Missing: beta ≠ 0 (`C114_refuted`). -/
theorem C114_direct_partial (ds : List Nat) (hd : ∀ d ∈ ds, d ≤ 2 ^ 31) (alpha : R) (A B : AnyTensor R) (C : Strided R) (fA fB fC : List Nat → R)
    (order : List Nat) (hA : Reads A ds fA) (hB : Reads B ds fB) (dC : C.dims = ds) (w : C.WF)
    (hC : C.Represents fC) (ho : order.Perm (List.range (numel ds))) :
    ∃ C', genericDirectProduct order alpha A B 0 C = .ok C' ∧ C.Frame C' ∧
      C'.Represents fun i => 0 * fC i + alpha * (fA i * fB i) := by
  obtain ⟨C', e, fr, r⟩ := direct_ok ds hd alpha 0 A B C fA fB fC order hA hB dC w hC ho
  exact ⟨C', e, fr, fun i hi => by rw [r i hi]; congr 1; ring⟩

/-- **C114 (refuted).** Whenever beta·C is not zero somewhere, the result is not beta·C + alpha·A·B: the old value is
forgotten. -/
theorem C114_refuted (ds : List Nat) (hd : ∀ d ∈ ds, d ≤ 2 ^ 31) (alpha beta : R) (A B : AnyTensor R) (C : Strided R) (fA fB fC : List Nat → R)
    (order : List Nat) (hA : Reads A ds fA) (hB : Reads B ds fB) (dC : C.dims = ds) (w : C.WF)
    (hC : C.Represents fC) (ho : order.Perm (List.range (numel ds))) (i : List Nat) (hi : InBox i ds) (h : beta * fC i ≠ 0) :
    ∃ C' v, genericDirectProduct order alpha A B beta C = .ok C' ∧ C'.read (i.map Int.ofNat) = .ok v ∧
      v ≠ beta * fC i + alpha * (fA i * fB i) := by
  obtain ⟨C', e, fr, r⟩ := direct_ok ds hd alpha beta A B C fA fB fC order hA hB dC w hC ho
  refine ⟨C', _, e, r i (by rw [fr.dims, dC]; exact hi), fun hc => h ?_⟩
  simp only [mul_assoc] at hc
  exact (add_eq_right.1 hc.symm)

/-- **C114 (shapes).** Shapes that differ are rejected. -/
theorem C114_shapes_partial (alpha beta : R) (A B : AnyTensor R) (C : Strided R) (order : List Nat)
    (h : ¬ (A.dims = B.dims ∧ A.dims = C.dims)) : ∃ e, genericDirectProduct order alpha A B beta C = .error e :=
  ⟨_, if_pos (by by_contra hc; rw [not_or, not_not, not_not] at hc; exact h hc)⟩

/-- **C113 (scale).** `scale(alpha, &A)` of a tensor of a class of the user: every element times alpha, nothing else changes. -/
theorem C113_scale (alpha : R) (A : Strided R) (hd : ∀ d ∈ A.dims, d ≤ 2 ^ 31) (f : List Nat → R) (order : List Nat) (w : A.WF)
    (hA : A.Represents f) (ho : order.Perm (List.range (numel A.dims))) :
    ∃ A', genericScale order alpha A = .ok A' ∧ A.Frame A' ∧ A'.Represents fun i => alpha * f i := by
  have hp := perm_unflat ho
  obtain ⟨C', e, fr, r⟩ := foldlM_update (C := A) (f := f) (order.map (unflat A.dims)) (hp.nodup_iff.2 (nodup_box _))
    (fun i hi => (mem_iff_of_perm hp).1 hi) w hA
    (fun i c => c * alpha)
    (fun C i => C.read (toIdx i) >>= fun c => C.write (toIdx i) (c * alpha)) (by
      intro C1 i f1 hi hd hr
      rw [hr i (by rw [hd]; exact (mem_iff_of_perm hp).1 hi)]
      rfl)
  refine ⟨C', ?_, fr, fun i hi => ?_⟩
  · rw [List.foldlM_map] at e
    unfold genericScale
    rw [← e]
    refine foldlM_congr_mem (fun C1 s hs => ?_) _
    unfold scaleStep
    rw [intIndex_eq hd (List.mem_range.1 (ho.mem_iff.1 hs))]
  · rw [r i hi]
    exact congrArg Outcome.ok ((if_pos ((mem_iff_of_perm hp).2 (by rw [← fr.dims]; exact hi))).trans (mul_comm _ _))

end

/-! ### Instances -/

/-- Multiplying by the Kronecker delta copies: C := B for every n×k matrix B, in every order of the iterations. -/
theorem gemm_delta {R : Type} [CommRing R] [BEq R] [LawfulBEq R] (n k : Nat) (hn : n ≤ 2 ^ 31) (B C : Strided R)
    (fB fC : List Nat → R) (order : List (List Nat)) (dB : B.dims = [n, k]) (hB : B.Represents fB) (dC : C.dims = [n, k])
    (w : C.WF) (hC : C.Represents fC) (ho : order.Perm (box [n, k])) :
    ∃ C', genericGemm order false false 1 (kroneckerDelta n : FuncTensor R).any B.any 0 C = .ok C' ∧
      ∀ i j, i < n → j < k → C'.read [(i : Int), (j : Int)] = .ok (fB [i, j]) := by
  obtain ⟨C', e, _, r⟩ := C113_gemm false false n k n 1 0 _ B.any C _ fB fC order (reads_delta n hn)
    (by have := reads_tensor hB; rwa [dB] at this) dC w hC ho
  refine ⟨C', e, fun i j hi hj => ?_⟩
  rw [r i j hi hj]
  rw [sumTo_single hi (f := fun l => opElem false (fun i : List Nat => if i.getD 0 0 = i.getD 1 0 then (1 : R) else 0) i l *
    opElem false fB l j) (fun t _ ht => by simp [opElem, Ne.symm ht])]
  simp [opElem]

example : genericDot [2, 0, 1, 3] id (kroneckerDelta 2 : FuncTensor Int).any count22.any = .ok 5 :=
  C113_dot [2, 2] (by decide) id _ _ _ _ [2, 0, 1, 3] (reads_delta 2 (by decide)) (reads_tensor count22_represents) (by decide)

example : ∃ y', genericGemv [[1], [0]] true 2 (kroneckerDelta 2 : FuncTensor Int).any everySecond.any 3 everySecond = .ok y' ∧
    ∀ i : Nat, i < 2 → y'.read [(i : Int)] = .ok (5 * (2 * i + 1)) := by
  obtain ⟨y', e, _, r⟩ := C113_gemv true 2 2 2 3 _ everySecond.any everySecond _ _ _ [[1], [0]] (reads_delta 2 (by decide))
    (reads_tensor everySecond_represents) rfl everySecond_wf everySecond_represents (by decide)
  refine ⟨y', e, fun i hi => (r i hi).trans ?_⟩
  interval_cases i <;> rfl

example : ∃ A', genericGer [[1, 0], [0, 0], [0, 1], [1, 1]] 2 everySecond.any everySecond.any count22 = .ok A' ∧
    A'.read [1, 0] = .ok 9 := by
  obtain ⟨A', e, _, r⟩ := C113_ger 2 2 2 everySecond.any everySecond.any count22 _ _ _ [[1, 0], [0, 0], [0, 1], [1, 1]]
    (reads_tensor everySecond_represents) (reads_tensor everySecond_represents) rfl (Strided.RowMajor.wf ⟨rfl, by decide⟩) count22_represents
    (by decide)
  exact ⟨A', e, r 1 0 (by decide) (by decide)⟩

example : ∃ C', genericDirectProduct [3, 1, 2, 0] 2 (kroneckerDelta 2 : FuncTensor Int).any count22.any 0 ones22 = .ok C' ∧
    C'.read [1, 1] = .ok 8 := by
  obtain ⟨C', e, fr, r⟩ := C114_direct_partial [2, 2] (by decide) 2 _ count22.any ones22 _ _ _ [3, 1, 2, 0] (reads_delta 2 (by decide))
    (reads_tensor count22_represents) rfl (Strided.RowMajor.wf ⟨rfl, by decide⟩) ones22_represents (by decide)
  exact ⟨C', e, r [1, 1] (by rw [fr.dims]; decide)⟩

example : ∃ A', genericScale [1, 0] 2 everySecond = .ok A' ∧ A'.read [1] = .ok 6 := by
  obtain ⟨A', e, fr, r⟩ := C113_scale 2 everySecond (by decide) _ [1, 0] everySecond_wf everySecond_represents (by decide)
  exact ⟨A', e, r [1] (by rw [fr.dims]; decide)⟩

end Einsums.Props
