import Mathlib.Algebra.Order.Ring.Defs
import Mathlib.LinearAlgebra.Matrix.NonsingularInverse
import Verif.Proofs.MatrixForm
/-
Scaled rows and columns, the symmetric eigenproblem, matrix powers and the Lyapunov equation.
-/
namespace Einsums
open Spec Model Props

variable {R : Type}

/-! ### Rows and columns -/

section
variable [Mul R]

/-- One run of `xSCAL` over elements of a tensor. -/
theorem scal_rep {A : Strided R} (w : A.WF) {f : List Nat → R} (hf : A.Represents f) {n : Nat} {c : R} {off inc : Nat}
    (hinc : inc ≠ 0) (φ : Nat → List Nat) (hb : ∀ i, i < n → InBox (φ i) A.dims)
    (hp : ∀ i, i < n → A.off + dot (φ i) A.strides = off + i * inc) (sel : List Nat → Prop) [DecidablePred sel]
    (hsel : ∀ l, InBox l A.dims → (sel l ↔ ∃ i, i < n ∧ l = φ i)) :
    ∃ d, blasScal n c A.data off inc = .ok d ∧ A.Frame { A with data := d } ∧
      Model.Strided.Represents { A with data := d } fun l => if sel l then c * f l else f l := by
  unfold blasScal
  rw [if_neg hinc]
  obtain ⟨d, e1, e2, e3, e4⟩ := memLoop (List.range n) (fun i => off + i * inc) (fun _ old => Outcome.ok (c * old))
    (fun _ old => c * old) A.data
    (by
      apply List.Nodup.map_on _ List.nodup_range
      intro i _ j _ e
      have e' : i * inc = j * inc := by omega
      exact Nat.eq_of_mul_eq_mul_right (Nat.pos_of_ne_zero hinc) e')
    (by
      intro i hi
      rw [List.mem_range] at hi
      rw [← hp i hi]
      exact w.bound _ (hb i hi))
    (by intros; rfl)
  have fr : A.Frame { A with data := d } := by
    refine ⟨rfl, rfl, rfl, e2, fun p h => e4 p ?_⟩
    intro hm
    rw [List.mem_map] at hm
    obtain ⟨i, hi, rfl⟩ := hm
    rw [List.mem_range] at hi
    exact h (φ i) (hb i hi) (hp i hi).symm
  refine ⟨d, e1, fr, (represents_iff (fr.wf w)).2 ?_⟩
  intro l hl
  have hl' : InBox l A.dims := hl
  have h0 := (represents_iff w).1 hf l hl'
  show d[A.off + dot l A.strides]? = _
  by_cases hs : sel l
  · rw [if_pos hs]
    obtain ⟨i, hi, rfl⟩ := (hsel l hl').1 hs
    rw [hp i hi] at h0 ⊢
    rw [e3 i (List.mem_range.2 hi), h0]
    rfl
  · rw [if_neg hs, e4, h0]
    intro hm
    rw [List.mem_map] at hm
    obtain ⟨i, hi, e⟩ := hm
    rw [List.mem_range] at hi
    have e' : off + i * inc = A.off + dot l A.strides := e
    rw [← hp i hi] at e'
    exact hs ((hsel l hl').2 ⟨i, hi, (w.inj _ _ (hb i hi) hl' (by omega)).symm⟩)

theorem scaleRow_rep {A : Strided R} (w : A.WF) {m n s0 s1 : Nat} (d : A.dims = [m, n]) (s : A.strides = [s0, s1])
    (h1 : s1 ≠ 0) {row : Nat} (hr : row < m) {f : List Nat → R} (hf : A.Represents f) (c : R) :
    ∃ A', scaleRow row c A = .ok A' ∧ A.Frame A' ∧ A'.Represents fun l => if l.getD 0 0 = row then c * f l else f l := by
  obtain ⟨x, e1, e2, e3⟩ := scal_rep w hf (n := n) (c := c) (off := A.off + row * s0) (inc := s1) h1 (fun i => [row, i])
    (by intro i hi; rw [d]; simp [InBox, hr, hi]) (by intro i hi; rw [s]; simp [dot]; omega)
    (fun l => l.getD 0 0 = row)
    (by
      intro l hl
      rw [d] at hl
      obtain ⟨i, j, rfl, hi, hj⟩ := inBox2_cases hl
      simp [hj])
  exact ⟨_, by unfold scaleRow; simp only [Strided.dim, Strided.stride, d, s, List.getD_cons_zero, List.getD_cons_succ]; rw [e1]; rfl, e2, e3⟩

theorem scaleColumn_rep {A : Strided R} (w : A.WF) {m n s0 s1 : Nat} (d : A.dims = [m, n]) (s : A.strides = [s0, s1])
    (h0 : s0 ≠ 0) {col : Nat} (hr : col < n) {f : List Nat → R} (hf : A.Represents f) (c : R) :
    ∃ A', scaleColumn col c A = .ok A' ∧ A.Frame A' ∧ A'.Represents fun l => if l.getD 1 0 = col then c * f l else f l := by
  obtain ⟨x, e1, e2, e3⟩ := scal_rep w hf (n := m) (c := c) (off := A.off + col * s1) (inc := s0) h0 (fun i => [i, col])
    (by intro i hi; rw [d]; simp [InBox, hr, hi]) (by intro i hi; rw [s]; simp [dot]; omega)
    (fun l => l.getD 1 0 = col)
    (by
      intro l hl
      rw [d] at hl
      obtain ⟨i, j, rfl, hi, hj⟩ := inBox2_cases hl
      simp [hi])
  exact ⟨_, by unfold scaleColumn; simp only [Strided.dim, Strided.stride, d, s, List.getD_cons_zero, List.getD_cons_succ]; rw [e1]; rfl, e2, e3⟩

end

/-! ### Eigenvectors -/

theorem inBox1_cases {l : List Nat} {n : Nat} (h : InBox l [n]) : ∃ i, l = [i] ∧ i < n := by
  match l, h with
  | [i], h => exact ⟨i, rfl, by simpa [InBox] using h⟩

theorem holdsVec_represents {t : Strided R} {n : Nat} {v : Nat → R} (h : HoldsVec t fun i : Fin n => v i) :
    t.Represents fun l => v (l.getD 0 0) := by
  intro l hl
  rw [h.dims] at hl
  obtain ⟨i, rfl, hi⟩ := inBox1_cases hl
  exact h.elems ⟨i, hi⟩

theorem vecStore_ok {n : Nat} {v : Nat → R} {W : Strided R} (w : W.WF) (d : W.dims = [n]) (s : W.strides = [1]) :
    ∃ x, vecStore n v W.data W.off = .ok x ∧ W.Frame { W with data := x } ∧
      HoldsVec { W with data := x } fun i : Fin n => v i := by
  obtain ⟨x, e1, e2, e3, e4⟩ := memLoop (List.range n) (fun i => W.off + i) (fun i _ => Outcome.ok (v i))
    (fun i _ => v i) W.data
    (by
      apply List.Nodup.map_on _ List.nodup_range
      intro i _ j _ e
      have e' : W.off + i = W.off + j := e
      omega)
    (by
      intro i hi
      rw [List.mem_range] at hi
      have := w.bound [i] (by rw [d]; simp [InBox, hi])
      rw [s] at this
      simpa [dot] using this)
    (by intros; rfl)
  refine ⟨x, e1, ⟨rfl, rfl, rfl, e2, fun p h => e4 p ?_⟩, d, fun i => ?_⟩
  · intro hm
    rw [List.mem_map] at hm
    obtain ⟨i, hi, rfl⟩ := hm
    rw [List.mem_range] at hi
    exact h [i] (by rw [d]; simp [InBox, hi]) (by rw [s]; simp [dot])
  · rw [read1_iff (t := Strided.mk x W.off W.dims W.strides) d s]
    have := e3 i.1 (List.mem_range.2 i.2)
    have hb := w.bound [i.1] (by rw [d]; simp [InBox])
    rw [s] at hb
    have hb' : W.off + i.1 < W.data.length := by simpa [dot] using hb
    simp only [Nat.mul_one]
    rw [this, List.getElem?_eq_getElem hb']
    rfl

theorem syevT_ok [Zero R] {syev : SyevFn R} {vectors : Bool} {n ld : Nat} {A W : Strided R} (hs : A.strides = [ld, 1])
    (hl : n ≤ ld) (hn : n ≠ 0) {a : Nat → Nat → R} (hA : Holds A (mat n n a)) (w : W.WF) (wd : W.dims = [n])
    (ws : W.strides = [1]) :
    let r := syev vectors n (crop n n fun i j => a j i)
    ∃ A' W', syevT syev vectors A W = .ok (A', W') ∧ Holds A' (mat n n fun i j => r.2 j i) ∧ A.Frame A' ∧
      HoldsVec W' (fun i : Fin n => r.1 i) ∧ W.Frame W' := by
  intro r
  have h := (holdsMat_iff hA.dims hs a).1 hA
  have hc := colsAt_swap h
  obtain ⟨d', e1, e2, e3, e4⟩ := colStore_frame (m := n) (n := n) (M := r.2) (a := A.data) (off := A.off) (ld := ld) (by omega)
    (by
      intro i j hi hj
      have := hc i j hi hj
      exact (List.getElem?_eq_some_iff.1 this).1)
  obtain ⟨x, x1, x2, x3⟩ := vecStore_ok (v := r.1) w wd ws
  have d0 : A.dim 0 = n := by simp [Strided.dim, hA.dims]
  have d1 : A.dim 1 = n := by simp [Strided.dim, hA.dims]
  have st : A.stride 0 = ld := by simp [Strided.stride, hs]
  refine ⟨{ A with data := d' }, { W with data := x }, ?_, ?_, frame_of_rows hA.dims hs e2 e4, x3, x2⟩
  · unfold syevT
    rw [d0, d1, st, if_neg (by simp)]
    unfold vendorSyev
    rw [if_neg (by omega), colMat_ok hc]
    simp only [Outcome.ok_bind]
    rw [e1]
    simp only [Outcome.ok_bind]
    rw [x1]
    rfl
  · exact (holdsMat_iff (t := Strided.mk d' A.off A.dims A.strides) hA.dims hs _).2 (rowsAt_swap e3)

/-- The symmetric matrix LAPACK works on: the tensor's lower triangle. -/
theorem mat_upper_lower [Zero R] (n : Nat) (a : Nat → Nat → R) :
    mat n n (fromUpper (crop n n fun i j => a j i)) = mat n n (fromLower a) := by
  funext i j
  simp only [mat, fromUpper, fromLower, crop]
  by_cases h : i.1 ≤ j.1
  · rcases Nat.eq_or_lt_of_le h with e | e
    · simp [e]
    · simp [h, Nat.not_le.2 e]
  · simp [h, Nat.le_of_not_le h]

theorem fromLower_symm {n : Nat} {a : Nat → Nat → R} (h : (mat n n a).IsSymm) : mat n n (fromLower a) = mat n n a := by
  funext i j
  simp only [mat, fromLower]
  split
  · rfl
  · exact h.apply i j

/-! ### Powers -/

section
variable [CommRing R] [LinearOrder R]

theorem powMax_ok {e : Strided R} {n : Nat} {w : Nat → R} (he : HoldsVec e fun i : Fin n => w i) :
    ∃ M, powMax e n = .ok M ∧ (∀ k, k < n → |w k| ≤ M) ∧ (M = 0 ∨ ∃ k, k < n ∧ |w k| = M) := by
  have key : ∀ m, m ≤ n → ∃ M, (List.range m).foldlM (fun maxE (i : Nat) => (do
      let x ← e.read [(i : Int)]
      return if maxE < |x| then |x| else maxE : Outcome R)) (0 : R) = .ok M ∧ (∀ k, k < m → |w k| ≤ M) ∧
      (M = 0 ∨ ∃ k, k < m ∧ |w k| = M) := by
    intro m
    induction m with
    | zero => intro _; exact ⟨0, rfl, by simp, .inl rfl⟩
    | succ m ih =>
      intro hm
      obtain ⟨M, e1, e2, e3⟩ := ih (by omega)
      rw [List.range_succ, List.foldlM_append, e1]
      have hr : e.read [(m : Int)] = .ok (w m) := he.elems ⟨m, by omega⟩
      simp only [Outcome.ok_bind, List.foldlM_cons, List.foldlM_nil, hr]
      refine ⟨_, rfl, ?_, ?_⟩
      · intro k hk
        rcases Nat.lt_succ_iff_lt_or_eq.1 hk with h | rfl
        · split
          · exact (e2 k h).trans (le_of_lt ‹_›)
          · exact e2 k h
        · split
          · exact le_refl _
          · exact not_lt.1 ‹_›
      · split
        · exact .inr ⟨m, by omega, rfl⟩
        · rcases e3 with h | ⟨k, hk, h⟩
          · exact .inl h
          · exact .inr ⟨k, by omega, h⟩
  exact key n (Nat.le_refl _)

theorem powLoop_ok {rpow : R → R → Option R} {alpha cutoff maxE : R} {n : Nat} {e a2 : Strided R} {w : Nat → R}
    {v : Nat → Nat → R} (we : e.IsTensor) (he : HoldsVec e fun i : Fin n => w i) (wa : a2.IsTensor)
    (ha : Holds a2 (mat n n v)) :
    ∃ e' a2', powLoop rpow alpha cutoff maxE n e a2 = .ok (e', a2') ∧ a2'.IsTensor ∧
      Holds a2' (mat n n fun i j => powValue rpow alpha cutoff maxE (w i) * v i j) := by
  have key : ∀ m, m ≤ n → ∃ e' a2', (List.range m).foldlM (fun (s : Strided R × Strided R) (i : Nat) => (do
      let x ← s.1.read [(i : Int)]
      let e ← s.1.write [(i : Int)] (powValue rpow alpha cutoff maxE x)
      let y ← e.read [(i : Int)]
      let a2 ← scaleRow i y s.2
      return (e, a2) : Outcome (Strided R × Strided R))) (e, a2) = .ok (e', a2') ∧ e'.IsTensor ∧ a2'.IsTensor ∧
      HoldsVec e' (fun i : Fin n => if i.1 < m then powValue rpow alpha cutoff maxE (w i) else w i) ∧
      Holds a2' (mat n n fun i j => if i < m then powValue rpow alpha cutoff maxE (w i) * v i j else v i j) := by
    intro m
    induction m with
    | zero => intro _; exact ⟨e, a2, rfl, we, wa, by simpa using he, by simpa using ha⟩
    | succ m ih =>
      intro hm
      obtain ⟨e', a2', h1, we', wa', he', ha'⟩ := ih (by omega)
      rw [List.range_succ, List.foldlM_append, h1]
      have hr : e'.read [(m : Int)] = .ok (w m) := by simpa using he'.elems ⟨m, by omega⟩
      obtain ⟨e'', x1, x2, x3⟩ := write_represents we'.wf
        (holdsVec_represents (v := fun i => if i < m then powValue rpow alpha cutoff maxE (w i) else w i) he')
        (j := [m]) (by rw [he'.dims]; simp [InBox]; omega) (powValue rpow alpha cutoff maxE (w m))
      have hr2 : e''.read [(m : Int)] = .ok (powValue rpow alpha cutoff maxE (w m)) := by
        have := x3 [m] (by rw [x2.dims, he'.dims]; simp [InBox]; omega)
        simpa [toIdx] using this
      obtain ⟨a2'', y1, y2, y3⟩ := scaleRow_rep wa'.wf ha'.dims (tensor_strides2 wa' ha'.dims) (by simp) (row := m) (by omega)
        (represents_of_holds ha') (powValue rpow alpha cutoff maxE (w m))
      have x1' : e'.write [(m : Int)] (powValue rpow alpha cutoff maxE (w m)) = .ok e'' := x1
      simp only [Outcome.ok_bind, List.foldlM_cons, List.foldlM_nil, hr, x1', hr2, y1]
      refine ⟨e'', a2'', rfl, isTensor_of_frame we' x2, isTensor_of_frame wa' y2, ⟨by rw [x2.dims]; exact he'.dims, ?_⟩,
        ⟨by rw [y2.dims]; exact ha'.dims, ?_⟩⟩
      · intro i
        have := x3 [i.1] (by rw [x2.dims, he'.dims]; simp [InBox])
        simp only [toIdx, List.map_cons, List.map_nil, List.getD_cons_zero, List.cons.injEq, and_true] at this
        refine Eq.trans this ?_
        by_cases h : i.1 = m
        · simp [h]
        · have e : i.1 < m + 1 ↔ i.1 < m := by omega
          simp [h, e]
      · intro i j
        have := y3 [i.1, j.1] (by rw [y2.dims, ha'.dims]; simp [InBox])
        simp only [toIdx, List.map_cons, List.map_nil, List.getD_cons_zero, List.getD_cons_succ] at this
        refine Eq.trans this ?_
        by_cases h : i.1 = m
        · simp [h, mat]
        · have e : i.1 < m + 1 ↔ i.1 < m := by omega
          simp [h, e, mat]
  obtain ⟨e', a2', h1, _, h3, _, h5⟩ := key n (Nat.le_refl _)
  refine ⟨e', a2', h1, h3, ?_⟩
  convert h5 using 1
  funext i j
  simp [mat]

open Matrix in
theorem matPow_ok [BEq R] [LawfulBEq R] {syev : SyevFn R} {rpow : R → R → Option R} {z : Nat → R} {n : Nat} {A : Strided R}
    {alpha cutoff : R} (wA : A.IsTensor) (hn : n ≠ 0) {a : Nat → Nat → R} (hA : Holds A (mat n n a)) :
    let r := syev true n (crop n n fun i j => a j i)
    ∃ P M, matPow syev rpow z A alpha cutoff = .ok P ∧ P.IsTensor ∧ (∀ k, k < n → |r.1 k| ≤ M) ∧
      (M = 0 ∨ ∃ k, k < n ∧ |r.1 k| = M) ∧
      Holds P (mat n n r.2 * diagonal (fun k : Fin n => powValue rpow alpha cutoff M (r.1 k)) * (mat n n r.2)ᵀ) := by
  intro r
  have d0 : A.dim 0 = n := by simp [Strided.dim, hA.dims]
  have d1 : A.dim 1 = n := by simp [Strided.dim, hA.dims]
  have we : (Strided.mk' z [n]).IsTensor := isTensor_mk' z (by simp)
  obtain ⟨A', W', e1, e2, e3, e4, e5⟩ := syevT_ok (syev := syev) (vectors := true) (tensor_strides2 wA hA.dims) (Nat.le_refl _)
    hn hA we.wf rfl (by rw [we.strides]; rfl)
  have wA' := isTensor_of_frame wA e3
  obtain ⟨M, m1, m2, m3⟩ := powMax_ok e4
  obtain ⟨e', a2', l1, l2, l3⟩ := powLoop_ok (rpow := rpow) (alpha := alpha) (cutoff := cutoff) (maxE := M)
    (isTensor_of_frame we e5) e4 wA' e2
  obtain ⟨wR, sR, dR⟩ := fresh_matrix z n n
  have wR0 := isTensor_zero wR
  obtain ⟨P, g1, g2, g3⟩ := gemm_mul (ta := true) (tb := false) (alpha := 1) (beta := 0) (m := n) (n := n) (k := n)
    (tensor_strides2 l2 l3.dims) (tensor_strides2 wA' e2.dims) (tensor_strides2 wR0 dR) (Nat.le_refl _) (Nat.le_refl _)
    (Nat.le_refl _) wR0.wf l3 e2 (holds_zero wR dR) (fun h => absurd h hn)
  refine ⟨P, M, ?_, isTensor_of_frame wR0 g2, m2, m3, ?_⟩
  · unfold matPow
    rw [d0, d1, if_neg (by simp), hA.dims]
    simp only
    rw [e1]
    simp only [Outcome.ok_bind]
    rw [m1]
    simp only [Outcome.ok_bind]
    rw [l1]
    simp only [Outcome.ok_bind]
    exact g1
  · convert g3 using 1
    rw [zero_smul, zero_add, one_smul]
    congr 1
    funext i j
    rw [mul_diagonal]
    simp [opMat, mat, r, mul_comm]

end

/-! ### Algebra of an orthogonal diagonalisation -/

section
open Matrix
variable [CommRing R] {n : Nat} {S V : Matrix (Fin n) (Fin n) R} {w : Fin n → R}

theorem diag_eq (ho : Vᵀ * V = 1) (he : S * V = V * diagonal w) : S = V * diagonal w * Vᵀ := by
  have ho' : V * Vᵀ = 1 := mul_eq_one_comm.1 ho
  rw [← he, Matrix.mul_assoc, ho', Matrix.mul_one]

theorem diag_left (ho : Vᵀ * V = 1) (he : S * V = V * diagonal w) : Vᵀ * S = diagonal w * Vᵀ := by
  rw [diag_eq ho he, ← Matrix.mul_assoc, ← Matrix.mul_assoc, ho, Matrix.one_mul]

theorem diag_apply [NoZeroDivisors R] (ho : Vᵀ * V = 1) (he : S * V = V * diagonal w) (g : R → R) {v : Fin n → R} {x : R}
    (hv : S *ᵥ v = x • v) : (V * diagonal (fun k => g (w k)) * Vᵀ) *ᵥ v = g x • v := by
  have ho' : V * Vᵀ = 1 := mul_eq_one_comm.1 ho
  have hc : diagonal w *ᵥ (Vᵀ *ᵥ v) = x • (Vᵀ *ᵥ v) := by
    rw [mulVec_mulVec, ← diag_left ho he, ← mulVec_mulVec, hv, mulVec_smul]
  have hg : diagonal (fun k => g (w k)) *ᵥ (Vᵀ *ᵥ v) = g x • (Vᵀ *ᵥ v) := by
    funext k
    have := congrFun hc k
    simp only [mulVec_diagonal, Pi.smul_apply, smul_eq_mul] at this ⊢
    by_cases h : (Vᵀ *ᵥ v) k = 0
    · simp [h]
    · have : w k = x := mul_right_cancel₀ h this
      rw [this]
  rw [← mulVec_mulVec, ← mulVec_mulVec, hg, mulVec_smul, mulVec_mulVec, ho', one_mulVec]

theorem diag_column (he : S * V = V * diagonal w) (k : Fin n) : S *ᵥ (fun i => V i k) = w k • fun i => V i k := by
  funext i
  have := congrFun (congrFun he i) k
  rw [mul_diagonal] at this
  simp only [Pi.smul_apply, smul_eq_mul]
  rw [mul_comm, ← this]
  rfl

theorem diag_column_ne [Nontrivial R] (ho : Vᵀ * V = 1) (k : Fin n) : (fun i => V i k) ≠ 0 := by
  intro h
  have := congrFun (congrFun ho k) k
  rw [mul_apply, one_apply_eq] at this
  have e : ∀ i, V i k = 0 := fun i => congrFun h i
  simp [transpose_apply, e] at this

theorem diag_eigenvalue [Nontrivial R] (ho : Vᵀ * V = 1) (he : S * V = V * diagonal w) (k : Fin n) : IsEigenvalue S (w k) :=
  ⟨_, diag_column_ne ho k, diag_column he k⟩

theorem diag_eigenvalues [NoZeroDivisors R] (ho : Vᵀ * V = 1) (he : S * V = V * diagonal w) {x : R} (h : IsEigenvalue S x) :
    ∃ k, w k = x := by
  obtain ⟨v, hv, e⟩ := h
  by_contra hc
  apply hv
  have ho' : V * Vᵀ = 1 := mul_eq_one_comm.1 ho
  have hc' : Vᵀ *ᵥ v = 0 := by
    funext k
    have hd : diagonal w *ᵥ (Vᵀ *ᵥ v) = x • (Vᵀ *ᵥ v) := by
      rw [mulVec_mulVec, ← diag_left ho he, ← mulVec_mulVec, e, mulVec_smul]
    have := congrFun hd k
    simp only [mulVec_diagonal, Pi.smul_apply, smul_eq_mul] at this
    by_contra h0
    exact hc ⟨k, mul_right_cancel₀ h0 this⟩
  have : V *ᵥ (Vᵀ *ᵥ v) = 0 := by rw [hc', mulVec_zero]
  rwa [mulVec_mulVec, ho', one_mulVec] at this

theorem diag_mul (ho : Vᵀ * V = 1) (f g : Fin n → R) :
    V * diagonal f * Vᵀ * (V * diagonal g * Vᵀ) = V * diagonal (fun k => f k * g k) * Vᵀ := by
  calc V * diagonal f * Vᵀ * (V * diagonal g * Vᵀ) = V * diagonal f * (Vᵀ * V) * diagonal g * Vᵀ := by
        simp only [Matrix.mul_assoc]
    _ = _ := by rw [ho, Matrix.mul_one, Matrix.mul_assoc V, diagonal_mul_diagonal]

theorem diag_one (ho : Vᵀ * V = 1) : V * diagonal (fun _ => 1) * Vᵀ = 1 := by
  rw [show diagonal (fun _ : Fin n => (1 : R)) = 1 from diagonal_one, Matrix.mul_one]
  exact mul_eq_one_comm.1 ho

theorem diag_pow (ho : Vᵀ * V = 1) (he : S * V = V * diagonal w) (p : Nat) :
    S ^ p = V * diagonal (fun k => w k ^ p) * Vᵀ := by
  induction p with
  | zero => simp only [pow_zero]; exact (diag_one ho).symm
  | succ p ih =>
    rw [pow_succ, ih]
    rw [diag_eq ho he, diag_mul ho]
    simp only [pow_succ]

theorem diag_radius [Nontrivial R] [NoZeroDivisors R] [LinearOrder R] [IsOrderedAddMonoid R] (ho : Vᵀ * V = 1)
    (he : S * V = V * diagonal w) (hn : n ≠ 0) {M : R} (h1 : ∀ k, |w k| ≤ M) (h2 : M = 0 ∨ ∃ k, |w k| = M) :
    IsRadius S M := by
  refine ⟨?_, ?_⟩
  · rcases h2 with h | ⟨k, hk⟩
    · refine ⟨w ⟨0, by omega⟩, diag_eigenvalue ho he _, le_antisymm (h1 _) ?_⟩
      rw [h]
      exact abs_nonneg _
    · exact ⟨_, diag_eigenvalue ho he k, hk⟩
  · intro x hx
    obtain ⟨k, rfl⟩ := diag_eigenvalues ho he hx
    exact h1 k

end

/-! ### Lyapunov equation -/

section
open Matrix

theorem vendorGees_ok [Zero R] {gees : GeesFn R} {n : Nat} {d vs : List R} {a : Nat → Nat → R} (h : RowsAt d 0 n n n a)
    (hv : vs.length = n * n) :
    ∃ d' vs', vendorGees gees n d n vs n = .ok (d', vs') ∧ RowsAt d' 0 n n n (gees n (crop n n a)).1 ∧ d'.length = d.length ∧
      RowsAt vs' 0 n n n (gees n (crop n n a)).2 ∧ vs'.length = n * n := by
  obtain ⟨d', e1, e2, e3, _⟩ := viaColumns_ok (Nat.le_refl n) h (call := fun M => .ok (gees n M)) rfl
  obtain ⟨v', f1, f2, f3, _⟩ := storeColumns_ok (r := n) (c := n) (M := (gees n (crop n n a)).2) (u := vs) (off := 0) (ldu := n)
    (Nat.le_refl _) (by intro i j hi hj; rw [hv]; have := sq_lt hi hj; omega)
  refine ⟨d', v', ?_, e3, e2, f3, f2.trans hv⟩
  unfold vendorGees
  rw [if_neg (by omega), if_neg (by omega), e1]
  simp only [Outcome.ok_bind]
  rw [f1]
  rfl

theorem vendorTrsyl_ok [Zero R] {trsyl : TrsylFn R} {n : Nat} {d c : List R} {a f : Nat → Nat → R} (h : RowsAt d 0 n n n a)
    (hc : RowsAt c 0 n n n f) :
    let t := trsyl n n (crop n n a) (crop n n a) (crop n n f)
    ∃ c', vendorTrsyl trsyl n n d n d n c n = .ok (c', t.1) ∧ RowsAt c' 0 n n n t.2 ∧ c'.length = c.length := by
  intro t
  obtain ⟨x, x1, _, x3⟩ := toColumns_ok (Nat.le_refl n) h
  obtain ⟨c', e1, e2, e3, _⟩ := viaColumns_ok (Nat.le_refl n) hc
    (call := fun C => .ok ((trsyl n n (crop n n a) (crop n n a) C).2, (trsyl n n (crop n n a) (crop n n a) C).1)) rfl
  refine ⟨c', ?_, e3, e2⟩
  unfold vendorTrsyl
  rw [if_neg (by omega), if_neg (by omega), if_neg (by omega), x1]
  simp only [Outcome.ok_bind]
  rw [x3]
  simp only [Outcome.ok_bind]
  exact e1

theorem isTensor_square {x : List R} {n : Nat} (h : x.length = n * n) : (Strided.mk x 0 [n, n] [n, 1]).IsTensor :=
  ⟨rfl, by simp [dimsToStrides], by simp [h, numel]⟩

theorem lyapunov_ok [CommRing R] [BEq R] [LawfulBEq R] {gees : GeesFn R} {trsyl : TrsylFn R} {z : Nat → R} {n : Nat}
    {A Q : Strided R} (wA : A.IsTensor) (wQ : Q.IsTensor) {a q : Nat → Nat → R} (hA : Holds A (mat n n a))
    (hQ : Holds Q (mat n n q)) :
    let r := gees n (crop n n a)
    ∃ F, mat n n F = (mat n n r.2)ᵀ * mat n n q * mat n n r.2 ∧ ∃ X,
      lyapunov gees trsyl z A Q = .ok X ∧
      Holds X ((trsyl n n (crop n n r.1) (crop n n r.1) (crop n n F)).1 •
        (mat n n r.2 * mat n n (trsyl n n (crop n n r.1) (crop n n r.1) (crop n n F)).2 * (mat n n r.2)ᵀ)) := by
  intro r
  have d0 : A.dim 0 = n := by simp [Strided.dim, hA.dims]
  have d1 : A.dim 1 = n := by simp [Strided.dim, hA.dims]
  have q0 : Q.dim 0 = n := by simp [Strided.dim, hQ.dims]
  have q1 : Q.dim 1 = n := by simp [Strided.dim, hQ.dims]
  have hk : n = 0 → n = 0 ∨ n = 0 := fun h => .inl h
  have hrow := (holdsMat_iff hA.dims (tensor_strides2 wA hA.dims) a).1 hA
  rw [wA.off] at hrow
  obtain ⟨wz, sz, dz⟩ := fresh_matrix z n n
  obtain ⟨d', vs', g1, g2, g3, g4, g5⟩ := vendorGees_ok (gees := gees) (vs := (Strided.mk' z [n, n]).data) hrow
    (by rw [wz.length]; simp [Strided.mk', numel])
  have eU : ({ Strided.mk' z [n, n] with data := vs' } : Strided R) = Strided.mk vs' 0 [n, n] [n, 1] := by
    rw [← wz.off, ← sz]; rfl
  have wU := isTensor_square g5
  have hU : Holds (Strided.mk vs' 0 [n, n] [n, 1]) (mat n n r.2) := (holdsMat_iff (t := Strided.mk vs' 0 [n, n] [n, 1]) rfl rfl _).2 g4
  obtain ⟨Fb, a1, a2, a3⟩ := gemmNew_mul (ta := true) (tb := false) (m := n) (n := n) (k := n) (alpha := 1) z wU wQ hU hQ hk
  obtain ⟨fb, hfb⟩ := exists_mat ((1 : R) • (opMat true n n r.2 * opMat false n n q))
  rw [hfb] at a3
  obtain ⟨F, b1, b2, b3⟩ := gemmNew_mul (ta := false) (tb := false) (m := n) (n := n) (k := n) (alpha := 1) z a2 wU a3 hU hk
  obtain ⟨f, hf⟩ := exists_mat ((1 : R) • (opMat false n n fb * opMat false n n r.2))
  rw [hf] at b3
  have hFrow := (holdsMat_iff b3.dims (tensor_strides2 b2 b3.dims) f).1 b3
  rw [b2.off] at hFrow
  obtain ⟨c', t1, t2, t3⟩ := vendorTrsyl_ok (trsyl := trsyl) g2 hFrow
  have eF : ({ F with data := c' } : Strided R) = Strided.mk c' 0 [n, n] [n, 1] := by
    rw [← b2.off, ← tensor_strides2 b2 b3.dims, ← b3.dims]
  have wF : (Strided.mk c' 0 [n, n] [n, 1]).IsTensor := isTensor_square (by rw [t3, b2.length, b3.dims]; simp [numel])
  have hF : Holds (Strided.mk c' 0 [n, n] [n, 1]) (mat n n _) := (holdsMat_iff (t := Strided.mk c' 0 [n, n] [n, 1]) rfl rfl _).2 t2
  obtain ⟨Xb, x1, x2, x3⟩ := gemmNew_mul (ta := false) (tb := false) (m := n) (n := n) (k := n)
    (alpha := (trsyl n n (crop n n r.1) (crop n n r.1) (crop n n f)).1) z wU wF hU hF hk
  obtain ⟨xb, hxb⟩ := exists_mat ((trsyl n n (crop n n r.1) (crop n n r.1) (crop n n f)).1 • (opMat false n n r.2 *
    opMat false n n (trsyl n n (crop n n r.1) (crop n n r.1) (crop n n f)).2))
  rw [hxb] at x3
  obtain ⟨X, y1, _, y3⟩ := gemmNew_mul (ta := false) (tb := true) (m := n) (n := n) (k := n) (alpha := 1) z x2 wU x3 hU hk
  refine ⟨f, ?_, X, ?_, ?_⟩
  · rw [← hf, one_smul]
    rw [one_smul] at hfb
    show mat n n fb * mat n n r.2 = _
    rw [← hfb]
    rfl
  · unfold lyapunov
    rw [d0, d1, q0, q1, if_neg (by simp)]
    simp only
    rw [g1]
    simp only [Outcome.ok_bind]
    rw [eU, a1]
    simp only [Outcome.ok_bind]
    rw [b1]
    simp only [Outcome.ok_bind]
    rw [t1]
    simp only [Outcome.ok_bind]
    rw [eF, x1]
    simp only [Outcome.ok_bind]
    exact y1
  · convert y3 using 1
    rw [one_smul]
    show _ = mat n n xb * (mat n n r.2)ᵀ
    rw [← hxb, Matrix.smul_mul]
    rfl

theorem quasi_crop [Zero R] {n : Nat} {T : Nat → Nat → R} (h : QuasiUpper n T) : QuasiUpper n (crop n n T) := by
  refine ⟨fun i j hi hj => ?_, fun i hi => ?_⟩
  · unfold crop
    rw [h.1 i j hi hj]
    simp
  · unfold crop
    rcases h.2 i hi with e | e
    · left; rw [e]; simp
    · right; rw [e]; simp

end

end Einsums
