import Mathlib.Tactic.Linarith
import Mathlib.Algebra.Order.Field.Basic
import Mathlib.Algebra.Order.BigOperators.Ring.Finset
import Verif.Model.Random
import Verif.Spec.Random
import Verif.Proofs.Spectral
import Verif.Proofs.Inverse
import Verif.Proofs.Utilities
/-
Proofs about random tensors.
-/
namespace Einsums.Proofs
open Spec Model Matrix

theorem generate_length {R G : Type} (draw : G → R × G) (n : Nat) (g : G) : (generate draw n g).length = n := by
  induction n generalizing g with
  | zero => rfl
  | succ n ih => simp [generate, ih]

theorem generate_get {R G : Type} (draw : G → R × G) (n : Nat) (g : G) (k : Nat) (hk : k < n) :
    (generate draw n g)[k]? = some (drawn draw g k) := by
  induction n generalizing g k with
  | zero => omega
  | succ n ih => cases k with
    | zero => rfl
    | succ k => exact ih _ _ (by omega)

theorem drawn_of {R G : Type} {draw : G → R × G} {P : R → Prop} (h : ∀ g, P (draw g).1) (g : G) (k : Nat) : P (drawn draw g k) := by
  induction k generalizing g with
  | zero => exact h g
  | succ k ih => exact ih _

theorem randRaces_one (size : Nat) : randRaces size 1 = false := by
  simp [randRaces]

theorem mem_randAccesses {size threads tid i : Nat} (h : i < size) : ⟨.elem i, true⟩ ∈ randAccesses size threads tid := by
  simp [randAccesses, h]

theorem randRaces_two {size threads : Nat} (hs : size ≠ 0) (ht : 2 ≤ threads) : randRaces size threads = true := by
  simp only [randRaces, List.any_eq_true, List.mem_range, Bool.and_eq_true, decide_eq_true_eq]
  exact ⟨0, by omega, 1, by omega, by decide, _, mem_randAccesses (i := 0) (by omega), _, mem_randAccesses (i := 0) (by omega),
    rfl, rfl⟩

theorem randomTensor_ok {R G : Type} (draw : G → R × G) (seed : G) (z : Nat → R) {dims : List Nat} (hd : dims ≠ []) :
    ∃ t, randomTensor draw seed z 1 dims = .ok t ∧ t.IsTensor ∧ t.dims = dims ∧ t.data = generate draw (numel dims) seed := by
  have w := isTensor_mk' z hd
  refine ⟨{ Strided.mk' z dims with data := generate draw (Strided.mk' z dims).data.length seed }, ?_, ⟨w.off, w.strides, ?_⟩, rfl, ?_⟩
  · unfold randomTensor
    simp only
    rw [randRaces_one]
    simp
  · show (generate draw _ _).length = _
    rw [generate_length, w.length]
  · show generate draw _ _ = _
    rw [w.length]
    rfl

theorem randomTensor_mat {R G : Type} (draw : G → R × G) (seed : G) (z : Nat → R) (m n : Nat) :
    ∃ t, randomTensor draw seed z 1 [m, n] = .ok t ∧ t.IsTensor ∧ Holds t (mat m n fun i j => drawn draw seed (i * n + j)) := by
  obtain ⟨t, e1, w, e2, e3⟩ := randomTensor_ok draw seed z (dims := [m, n]) (by simp)
  refine ⟨t, e1, w, (holdsMat_iff e2 (tensor_strides2 w e2) _).2 ?_⟩
  intro i j hi hj
  rw [w.off, e3, Nat.zero_add, generate_get]
  have : (i + 1) * n ≤ m * n := Nat.mul_le_mul_right _ hi
  simp [numel]
  rw [Nat.add_mul] at this
  omega

/-! ### Loops -/

theorem evecsLoop_singular {R : Type} [CommRing R] {getrf : GetrfFn R} {E : Strided R}
    (h : ∀ pivs, ∃ info temp pv, getrfT getrf E pivs = .ok (info, temp, pv) ∧ 0 < info) (fuel : Nat) (pivs : List Nat) :
    evecsLoop getrf (.ok E) fuel pivs = none := by
  induction fuel generalizing pivs with
  | zero => rfl
  | succ f ih =>
    obtain ⟨info, temp, pv, e1, e2⟩ := h pivs
    simp only [evecsLoop, e1]
    rw [if_pos e2]
    exact ih pv

theorem evecsLoop_regular {R : Type} [CommRing R] {getrf : GetrfFn R} {E temp : Strided R} {pivs pv : List Nat}
    (h : getrfT getrf E pivs = .ok (0, temp, pv)) (fuel : Nat) :
    evecsLoop getrf (.ok E) (fuel + 1) pivs = some (.ok (E, temp)) := by
  simp [evecsLoop, h]

section
variable {R G : Type} [Field R] [LinearOrder R] [IsStrictOrderedRing R]
  {normal : G → R × G} {sqrt : R → R} {mean : R}

omit [IsStrictOrderedRing R] in
theorem maxwell_pos (hs : ∀ x, 0 ≤ sqrt x) (hm : 0 < mean) (g : G) : 0 ≤ (maxwell normal sqrt mean g).1 := by
  simp only [maxwell, if_neg (not_lt.2 (le_of_lt hm))]
  exact hs _

theorem maxwell_neg (hs : ∀ x, 0 ≤ sqrt x) (hm : mean < 0) (g : G) : (maxwell normal sqrt mean g).1 ≤ 0 := by
  simp only [maxwell, if_pos hm]
  exact neg_nonpos.2 (hs _)

omit [IsStrictOrderedRing R] in
theorem nonzeroLoop_some {fuel : Nat} {g : G} {r : R × G} (h : nonzeroLoop normal sqrt mean fuel g = some r) :
    r.1 ≠ 0 ∧ ∃ g', r = maxwell normal sqrt mean g' := by
  induction fuel generalizing g with
  | zero => simp [nonzeroLoop] at h
  | succ f ih =>
    simp only [nonzeroLoop] at h
    split at h
    · exact ih h
    · simp only [Option.some.injEq] at h
      subst h
      exact ⟨‹_›, g, rfl⟩

omit [IsStrictOrderedRing R] in
theorem definiteEvals_some {fuel n : Nat} {g : G} {l : List R} (h : definiteEvals normal sqrt mean fuel n g = some l) :
    l.length = n ∧ ∀ x ∈ l, x ≠ 0 ∧ ∃ g', x = (maxwell normal sqrt mean g').1 := by
  induction n generalizing g l with
  | zero => simp [definiteEvals] at h; subst h; simp
  | succ n ih =>
    simp only [definiteEvals] at h
    cases hl : nonzeroLoop normal sqrt mean fuel g with
    | none => rw [hl] at h; simp at h
    | some r =>
      obtain ⟨e, g'⟩ := r
      rw [hl] at h
      simp only [Option.map_eq_some_iff] at h
      obtain ⟨l', h1, rfl⟩ := h
      obtain ⟨h2, h3⟩ := ih h1
      obtain ⟨h4, g2, h5⟩ := nonzeroLoop_some hl
      refine ⟨by simp [h2], ?_⟩
      intro x hx
      rw [List.mem_cons] at hx
      rcases hx with rfl | hx
      · exact ⟨h4, g2, congrArg Prod.fst h5⟩
      · exact h3 x hx

omit [IsStrictOrderedRing R] in
theorem nonzeroLoop_ends (hq : ∀ a b c : R, a ≠ 0 → sqrt (a * a + b * b + c * c) ≠ 0) {fuel : Nat} {g : G}
    (h : ∃ k, k < fuel ∧ Spec.drawn normal g (3 * k) ≠ 0) : ∃ r, nonzeroLoop normal sqrt mean fuel g = some r := by
  induction fuel generalizing g with
  | zero => obtain ⟨k, hk, _⟩ := h; omega
  | succ f ih =>
    simp only [nonzeroLoop]
    split
    · rename_i e
      obtain ⟨k, hk, h⟩ := h
      match k, hk, h with
      | 0, _, h =>
        exfalso
        have := hq (normal g).1 (normal (normal g).2).1 (normal (normal (normal g).2).2).1 h
        simp only [maxwell] at e
        split at e
        · exact this (neg_eq_zero.1 e)
        · exact this e
      | k + 1, hk, h => exact ih ⟨k, by omega, h⟩
    · exact ⟨_, rfl⟩

omit [IsStrictOrderedRing R] in
theorem definiteEvals_ends {fuel : Nat} (hq : ∀ a b c : R, a ≠ 0 → sqrt (a * a + b * b + c * c) ≠ 0)
    (h : ∀ g, ∃ k, k < fuel ∧ Spec.drawn normal g (3 * k) ≠ 0) (n : Nat) (g : G) :
    ∃ l, definiteEvals normal sqrt mean fuel n g = some l := by
  induction n generalizing g with
  | zero => exact ⟨[], rfl⟩
  | succ n ih =>
    obtain ⟨r, hr⟩ := nonzeroLoop_ends (mean := mean) hq (h g)
    obtain ⟨l, e⟩ := ih r.2
    refine ⟨r.1 :: l, ?_⟩
    simp only [definiteEvals, hr]
    rw [e]
    rfl

omit [IsStrictOrderedRing R] in
theorem semidefiniteEvals_length (z : Int) (i n : Nat) (g : G) : (semidefiniteEvals normal sqrt mean z i n g).length = n := by
  induction n generalizing i g with
  | zero => rfl
  | succ n ih => simp only [semidefiniteEvals]; split <;> simp [ih]

omit [IsStrictOrderedRing R] in
theorem semidefiniteEvals_get (z : Int) (i n : Nat) (g : G) (k : Nat) (hk : k < n) :
    ∃ x, (semidefiniteEvals normal sqrt mean z i n g)[k]? = some x ∧
      (((i + k : Nat) : Int) < z → x = 0) ∧ (z ≤ ((i + k : Nat) : Int) → ∃ g', x = (maxwell normal sqrt mean g').1) := by
  induction n generalizing i g k with
  | zero => omega
  | succ n ih =>
    simp only [semidefiniteEvals]
    split
    · cases k with
      | zero => exact ⟨0, rfl, fun _ => rfl, fun h => by simp at h; omega⟩
      | succ k =>
        obtain ⟨x, h1, h2, h3⟩ := ih (i + 1) g k (by omega)
        exact ⟨x, h1, fun h => h2 (by rw [show i + 1 + k = i + (k + 1) by omega]; exact h), fun h => h3 (by rw [show i + 1 + k = i + (k + 1) by omega]; exact h)⟩
    · cases k with
      | zero => exact ⟨_, rfl, fun h => absurd h ‹¬ _›, fun _ => ⟨g, rfl⟩⟩
      | succ k =>
        obtain ⟨x, h1, h2, h3⟩ := ih (i + 1) (maxwell normal sqrt mean g).2 k (by omega)
        exact ⟨x, h1, fun h => h2 (by rw [show i + 1 + k = i + (k + 1) by omega]; exact h), fun h => h3 (by rw [show i + 1 + k = i + (k + 1) by omega]; exact h)⟩

end

/-! ### The matrix -/

theorem assemble_ok {R : Type} [Field R] [LinearOrder R] [BEq R] [LawfulBEq R] {geqrf : GeqrfFn R} {orgqr : OrgqrFn R} (z : Nat → R)
    {n : Nat} (hn : n ≠ 0) {E T : Strided R} {a : Nat → Nat → R} (wE : E.IsTensor) (hE : Holds E (mat n n a)) (wT : T.IsTensor)
    (dT : T.dims = [n, n]) {d : List R} (hd : d.length = n) (lapack : IsQR n n (crop n n a) (geqrf n n (crop n n a)))
    (lapack' : ∀ F t, IsOrgqr n n n F t (orgqr n n n F t)) :
    ∃ t, ∃ q : Matrix (Fin n) (Fin n) R, assembleMatrix geqrf orgqr z E T d = .ok t ∧ t.IsTensor ∧ qᵀ * q = 1 ∧
      Holds t (qᵀ * Matrix.diagonal (fun i : Fin n => d.getD i 0) * q) := by
  obtain ⟨QR, e1, w2, e2⟩ := qr_ok (geqrf := geqrf) wE hE
  obtain ⟨Q, q1, wQ, q2⟩ := qrQ_ok (orgqr := orgqr) (tau := ⟨(List.range (min n n)).map (geqrf n n (crop n n a)).2, 0,
    [min n n], [1]⟩) w2 e2 (by simp)
  have key : mat n n (orgqr n n n (crop n n (geqrf n n (crop n n a)).1)
      fun i => ((List.range (min n n)).map (geqrf n n (crop n n a)).2).getD i 0) =
      reflectors n (min n n) (geqrf n n (crop n n a)).1 (geqrf n n (crop n n a)).2 := by
    funext i j
    have := lapack' (crop n n (geqrf n n (crop n n a)).1)
      (fun i => ((List.range (min n n)).map (geqrf n n (crop n n a)).2).getD i 0) i j j.2
    rw [mat, this, Nat.min_self]
    refine congrFun (congrFun (reflectors_congr ?_ ?_) i) _
    · intro i hi
      simp [List.getD_eq_getElem?_getD, hi]
    · intro i j hi hj
      rw [crop, if_pos ⟨hi, hj⟩]
  have ho := lapack.1
  rw [← key] at ho
  generalize orgqr n n n (crop n n (geqrf n n (crop n n a)).1)
      (fun i => ((List.range (min n n)).map (geqrf n n (crop n n a)).2).getD i 0) = q at q2 ho
  have hv : Model.Strided.Represents (⟨d, 0, [d.length], [1]⟩ : Strided R) fun l => d.getD (l.getD 0 0) 0 := by
    intro l hl
    obtain ⟨i, rfl, hi⟩ := inBox1_cases hl
    refine (read1_iff (t := ⟨d, 0, [d.length], [1]⟩) (n := d.length) rfl rfl _).2 ?_
    simp [List.getD_eq_getElem?_getD, hi]
  obtain ⟨D, d1, wD, d2, d3⟩ := diagonalOf_eq z (v := ⟨d, 0, [d.length], [1]⟩) (n := n) (by simp [hd]) hv (le_refl n) (le_refl n)
  have hD : Holds D (mat n n fun i j => if i = j then d.getD i 0 else 0) := by
    refine ⟨d2, fun i j => ?_⟩
    refine (d3 i j i.2 j.2).trans ?_
    simp [mat]
  obtain ⟨t0, ht0⟩ := holds_of_wf wT.wf dT
  obtain ⟨T', g1, g2, g3⟩ := gemm_mul (ta := false) (tb := false) (m := n) (n := n) (k := n) (alpha := (1 : R)) (beta := 0)
    (tensor_strides2 wD d2) (tensor_strides2 wQ q2.dims) (tensor_strides2 wT dT) (Nat.le_refl _) (Nat.le_refl _) (Nat.le_refl _)
    wT.wf hD q2 ht0 (fun h => absurd h hn)
  rw [zero_smul, zero_add, one_smul] at g3
  obtain ⟨t', ht'⟩ := exists_mat (opMat false n n (fun i j => if i = j then d.getD i 0 else 0) * opMat false n n q)
  rw [ht'] at g3
  obtain ⟨M, m1, m2, m3⟩ := gemm_mul (ta := true) (tb := false) (m := n) (n := n) (k := n) (alpha := (1 : R)) (beta := 0)
    (tensor_strides2 wQ q2.dims) (tensor_strides2 (isTensor_of_frame wT g2) (g2.dims.trans dT)) (tensor_strides2 wD d2)
    (Nat.le_refl _) (Nat.le_refl _) (Nat.le_refl _) wD.wf q2 g3 hD (fun h => absurd h hn)
  refine ⟨M, mat n n q, ?_, isTensor_of_frame wD m2, ho, ?_⟩
  · unfold assembleMatrix
    rw [e1]
    simp only [Outcome.ok_bind]
    rw [q1]
    simp only [Outcome.ok_bind]
    have hdg : Model.diagonal z (⟨d, 0, [d.length], [1]⟩ : Strided R) = .ok D := by
      unfold Model.diagonal
      simp only [List.headD_cons, hd] at d1 ⊢
      exact d1
    rw [hdg]
    simp only [Outcome.ok_bind]
    rw [g1]
    simp only [Outcome.ok_bind]
    exact m1
  · convert m3 using 1
    rw [zero_smul, zero_add, one_smul, Matrix.mul_assoc]
    have e : opMat false n n t' = Matrix.diagonal (fun i : Fin n => d.getD i 0) * mat n n q := by
      have : opMat false n n t' = mat n n t' := rfl
      rw [this, ← ht']
      congr 1
      funext i j
      simp [opMat, Matrix.diagonal_apply, Fin.ext_iff]
    rw [e]
    rfl

section
variable {R : Type} [Field R] [LinearOrder R] [IsStrictOrderedRing R] {n : Nat} {q : Matrix (Fin n) (Fin n) R} {d : Fin n → R}

omit [LinearOrder R] [IsStrictOrderedRing R] in
theorem qdq_symm : (qᵀ * Matrix.diagonal d * q).IsSymm := by
  unfold Matrix.IsSymm
  rw [transpose_mul, transpose_mul, transpose_transpose, diagonal_transpose, Matrix.mul_assoc]

omit [LinearOrder R] [IsStrictOrderedRing R] in
theorem qdq_form (x : Fin n → R) : x ⬝ᵥ (qᵀ * Matrix.diagonal d * q) *ᵥ x = ∑ k, d k * ((q *ᵥ x) k * (q *ᵥ x) k) := by
  rw [← mulVec_mulVec, ← mulVec_mulVec, dotProduct_mulVec, vecMul_transpose, dotProduct]
  refine Finset.sum_congr rfl fun k _ => ?_
  rw [mulVec_diagonal]
  ring

omit [LinearOrder R] [IsStrictOrderedRing R] in
theorem q_mulVec_ne (ho : qᵀ * q = 1) {x : Fin n → R} (hx : x ≠ 0) : q *ᵥ x ≠ 0 := by
  intro h
  apply hx
  have := congrArg (fun y => qᵀ *ᵥ y) h
  simpa [mulVec_mulVec, ho] using this

theorem qdq_pos (ho : qᵀ * q = 1) (hd : ∀ k, 0 < d k) (x : Fin n → R) (hx : x ≠ 0) :
    0 < x ⬝ᵥ (qᵀ * Matrix.diagonal d * q) *ᵥ x := by
  rw [qdq_form]
  obtain ⟨k, hk⟩ := Function.ne_iff.1 (q_mulVec_ne ho hx)
  exact Finset.sum_pos' (fun k _ => mul_nonneg (le_of_lt (hd k)) (mul_self_nonneg _))
    ⟨k, Finset.mem_univ _, mul_pos (hd k) (mul_self_pos.2 hk)⟩

theorem qdq_nonneg (hd : ∀ k, 0 ≤ d k) (x : Fin n → R) : 0 ≤ x ⬝ᵥ (qᵀ * Matrix.diagonal d * q) *ᵥ x := by
  rw [qdq_form]
  exact Finset.sum_nonneg fun k _ => mul_nonneg (hd k) (mul_self_nonneg _)

omit [LinearOrder R] [IsStrictOrderedRing R] in
theorem qdq_neg : -(qᵀ * Matrix.diagonal d * q) = qᵀ * Matrix.diagonal (fun k => -d k) * q := by
  rw [show (Matrix.diagonal fun k => -d k) = -Matrix.diagonal d from (diagonal_neg d).symm, Matrix.mul_neg, Matrix.neg_mul]

omit [LinearOrder R] [IsStrictOrderedRing R] in
theorem qdq_row (ho : qᵀ * q = 1) (k : Fin n) : (qᵀ * Matrix.diagonal d * q) *ᵥ q k = d k • q k := by
  have ho' : q * qᵀ = 1 := mul_eq_one_comm.1 ho
  have h1 : q *ᵥ q k = Pi.single k 1 := by
    funext i
    have := congrFun (congrFun ho' i) k
    rw [one_apply] at this
    rw [Pi.single_apply]
    exact this
  rw [← mulVec_mulVec, h1, ← mulVec_mulVec]
  funext i
  simp [Matrix.mulVec_single, mul_comm]

end

end Einsums.Proofs
