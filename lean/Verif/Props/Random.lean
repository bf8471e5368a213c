import Mathlib.Tactic.FinCases
import Mathlib.Tactic.NormNum
import Mathlib.Algebra.Order.Ring.Rat
import Mathlib.Algebra.Field.Rat
import Mathlib.LinearAlgebra.Matrix.Notation
import Verif.Proofs.Random
import Verif.Props.Inverse
import Verif.Props.Lapack
/-
C149 (`create_random_tensor`), C150 (`create_random_definite`, `create_random_semidefinite`), C151 (`sum_square`).
-/
namespace Einsums.Props
open Spec Model Proofs Matrix

/-! ### C149 -/

section
variable {R G : Type} (draw : G → R × G) (seed : G) (z : Nat → R)

/-- **C149 (partial: one thread).** With one thread, `create_random_tensor` returns a tensor of the given shape; element number k in
row-major order is the k-th number drawn from a new engine, so every element has every property that all the drawn numbers have (to lie in
[-1, 1), say).  Missing: more threads, `C149_race_refuted`. -/
theorem C149_tensor_partial (dims : List Nat) (hd : dims ≠ []) :
    ∃ t, randomTensor draw seed z 1 dims = .ok t ∧ t.IsTensor ∧ t.dims = dims ∧
      (∀ k, k < numel dims → t.data[k]? = some (drawn draw seed k)) ∧
      ∀ P : R → Prop, (∀ g, P (draw g).1) → ∀ x ∈ t.data, P x := by
  obtain ⟨t, e1, w, e2, e3⟩ := randomTensor_ok draw seed z hd
  refine ⟨t, e1, w, e2, fun k hk => by rw [e3]; exact generate_get _ _ _ _ hk, fun P hP x hx => ?_⟩
  obtain ⟨k, hk, rfl⟩ := List.mem_iff_getElem.1 hx
  have hk' : k < numel dims := by rw [e3, generate_length] at hk; exact hk
  have := generate_get draw (numel dims) seed k hk'
  rw [← e3, List.getElem?_eq_getElem hk] at this
  rw [Option.some.inj this]
  exact drawn_of hP _ _

/-- **C149 (refuted).** With two threads or more, every call for a tensor with elements is a data race: every thread writes every element, and
the engine is shared. -/
theorem C149_race_refuted (threads : Nat) (ht : 2 ≤ threads) (dims : List Nat) (hd : dims ≠ []) (hn : numel dims ≠ 0) :
    (randomTensor draw seed z threads dims).isUb = true ∧
    ∀ i, i < numel dims → ∀ t, t < threads → ⟨.elem i, true⟩ ∈ randAccesses (numel dims) threads t := by
  refine ⟨?_, fun i hi t _ => mem_randAccesses hi⟩
  unfold randomTensor
  simp only
  rw [randRaces_two (by rw [(isTensor_mk' z hd).length]; exact hn) ht]
  rfl

/-- **C149 (refuted: randomness).** Two calls never give different numbers: of any two tensors, whatever their shapes, the elements at the
same position in memory are the same. -/
theorem C149_repeat_refuted (dims dims' : List Nat) (hd : dims ≠ []) (hd' : dims' ≠ []) (k : Nat) (h : k < numel dims)
    (h' : k < numel dims') : ∃ t t', randomTensor draw seed z 1 dims = .ok t ∧ randomTensor draw seed z 1 dims' = .ok t' ∧
      t.data[k]? = t'.data[k]? ∧ k < t.data.length := by
  obtain ⟨t, e1, w, e2, e3, _⟩ := C149_tensor_partial draw seed z dims hd
  obtain ⟨t', e1', w', e2', e3', _⟩ := C149_tensor_partial draw seed z dims' hd'
  exact ⟨t, t', e1, e1', by rw [e3 k h, e3' k h'], by rw [w.length, e2]; exact h⟩

end

/-- An engine that counts. -/
def countDraw (l : List Rat) (k : Nat) : Rat × Nat := (l.getD k 0, k + 1)

/-- Concrete cases: one thread, and two. -/
example : randomTensor (countDraw [1 / 2, 1 / 4, 0, -1 / 2]) 0 (fun _ => 9) 1 [2, 2] =
    .ok ⟨[1 / 2, 1 / 4, 0, -1 / 2], 0, [2, 2], [2, 1]⟩ := by decide +kernel
example : (randomTensor (countDraw [1 / 2, 1 / 4, 0, -1 / 2]) 0 (fun _ => 9) 2 [2, 2]).isUb = true := by decide +kernel

/-! ### C150 -/

section
variable {R G : Type} [Field R] [LinearOrder R] [IsStrictOrderedRing R] [BEq R] [LawfulBEq R]
  (draw normal : G → R × G) (seed : G) (sqrt : R → R) (getrf : GetrfFn R) (geqrf : GeqrfFn R) (orgqr : OrgqrFn R) (z : Nat → R)
  (fuel n : Nat) (mean : R)

omit [LinearOrder R] [IsStrictOrderedRing R] [BEq R] [LawfulBEq R] in
/-- The call ends with what LAPACK leaves of the random matrix; the rest does not depend on it. -/
theorem evecs_cases (hn : n ≠ 0) :
    ∃ E, randomTensor draw seed z 1 [n, n] = .ok E ∧ E.IsTensor ∧ Holds E (mat n n fun i j => drawn draw seed (i * n + j)) ∧
      ∀ pivs, (evecsLoop getrf (.ok E) fuel pivs = none ∨
        ∃ T, evecsLoop getrf (.ok E) fuel pivs = some (.ok (E, T)) ∧ T.IsTensor ∧ T.dims = [n, n]) := by
  obtain ⟨E, e1, w, e2⟩ := randomTensor_mat draw seed z n n
  refine ⟨E, e1, w, e2, ?_⟩
  induction fuel with
  | zero => exact fun _ => .inl rfl
  | succ f ih =>
    intro pivs
    obtain ⟨T, pv, g1, g2, g3, _⟩ := getrfT_ok (getrf := getrf) (tensor_strides2 w e2.dims) (by omega) e2 (pivot := pivs)
    simp only [evecsLoop, g1]
    split
    · exact ih pv
    · exact .inr ⟨T, rfl, isTensor_of_frame w g3, g2.dims⟩

/-- **C150 (partial: definite).** Whenever `create_random_definite(name, n, n, mean)` (n > 0, one thread) returns for a mean that is not
zero, it returns a new symmetric n×n matrix that is positive definite for a positive mean and negative definite for a negative one.
`sqrt` is any function that is not negative.  Missing: it need not return (`C150_hang_refuted`), a mean of zero
(`C150_mean_refuted`), several threads (`C150_race_refuted`). -/
theorem C150_definite_partial (hn : n ≠ 0) (hs : ∀ x, 0 ≤ sqrt x) (hm : mean ≠ 0)
    (lapack : IsQR n n (crop n n fun i j => drawn draw seed (i * n + j)) (geqrf n n (crop n n fun i j => drawn draw seed (i * n + j))))
    (lapack' : ∀ F t, IsOrgqr n n n F t (orgqr n n n F t)) (r : Outcome (Strided R))
    (h : randomDefinite draw normal seed sqrt getrf geqrf orgqr z 1 fuel n n mean = some r) :
    ∃ t M, r = .ok t ∧ t.IsTensor ∧ Holds t (M : Matrix (Fin n) (Fin n) R) ∧ (0 < mean → PositiveDefinite M) ∧
      (mean < 0 → PositiveDefinite (-M)) := by
  obtain ⟨E, e1, w, e2, e3⟩ := evecs_cases draw seed getrf z fuel n hn
  unfold randomDefinite at h
  rw [if_neg (by simp), e1] at h
  rcases e3 [] with e | ⟨T, e, wT, dT⟩
  · rw [e] at h; simp at h
  · rw [e] at h
    simp only [if_neg hm] at h
    cases hv : definiteEvals normal sqrt mean fuel n seed with
    | none => rw [hv] at h; simp at h
    | some d =>
      rw [hv] at h
      simp only [Option.some.injEq] at h
      obtain ⟨d1, d2⟩ := definiteEvals_some hv
      obtain ⟨t, q, t1, t2, t3, t4⟩ := assemble_ok (geqrf := geqrf) (orgqr := orgqr) z hn w e2 wT dT d1
        lapack lapack'
      have hk : ∀ k : Fin n, d.getD k 0 ≠ 0 ∧ ∃ g, d.getD k 0 = (maxwell normal sqrt mean g).1 := by
        intro k
        have hk : k.1 < d.length := by rw [d1]; exact k.2
        have := d2 d[k.1] (List.getElem_mem hk)
        simpa [List.getD_eq_getElem?_getD, hk] using this
      refine ⟨t, _, h.symm.trans t1, t2, t4, fun hp => ⟨qdq_symm, qdq_pos t3 fun k => ?_⟩, fun hp => ?_⟩
      · obtain ⟨h1, g, h2⟩ := hk k
        exact lt_of_le_of_ne (by rw [h2]; exact maxwell_pos hs hp g) (Ne.symm h1)
      · rw [qdq_neg]
        refine ⟨qdq_symm, qdq_pos t3 fun k => ?_⟩
        obtain ⟨h1, g, h2⟩ := hk k
        exact neg_pos.2 (lt_of_le_of_ne (by rw [h2]; exact maxwell_neg hs hp g) h1)

/-- **C150 (partial: semidefinite).** Likewise `create_random_semidefinite`: a symmetric matrix, positive (negative) semidefinite for a
positive (negative) mean, with orthonormal eigenvectors `q k`, of which the first `force_zeros` have the eigenvalue 0. -/
theorem C150_semidefinite_partial (hn : n ≠ 0) (hs : ∀ x, 0 ≤ sqrt x) (hm : mean ≠ 0) (forceZeros : Int)
    (lapack : IsQR n n (crop n n fun i j => drawn draw seed (i * n + j)) (geqrf n n (crop n n fun i j => drawn draw seed (i * n + j))))
    (lapack' : ∀ F t, IsOrgqr n n n F t (orgqr n n n F t)) (r : Outcome (Strided R))
    (h : randomSemidefinite draw normal seed sqrt getrf geqrf orgqr z 1 fuel n n mean forceZeros = some r) :
    ∃ t M, r = .ok t ∧ t.IsTensor ∧ Holds t (M : Matrix (Fin n) (Fin n) R) ∧ (0 < mean → PositiveSemidefinite M) ∧
      (mean < 0 → PositiveSemidefinite (-M)) ∧
      ∃ q : Matrix (Fin n) (Fin n) R, (∀ k l, q k ⬝ᵥ q l = if k = l then 1 else 0) ∧
        ∀ k : Fin n, (k.1 : Int) < forceZeros → M *ᵥ q k = 0 := by
  obtain ⟨E, e1, w, e2, e3⟩ := evecs_cases draw seed getrf z fuel n hn
  unfold randomSemidefinite at h
  rw [if_neg (by simp), e1] at h
  rcases e3 [] with e | ⟨T, e, wT, dT⟩
  · rw [e] at h; simp at h
  · rw [e] at h
    simp only [if_neg hm, Option.some.injEq] at h
    obtain ⟨t, q, t1, t2, t3, t4⟩ := assemble_ok (geqrf := geqrf) (orgqr := orgqr) z hn w e2 wT dT
      (semidefiniteEvals_length (normal := normal) (sqrt := sqrt) (mean := mean) forceZeros 0 n seed)
      lapack lapack'
    generalize hd : semidefiniteEvals normal sqrt mean forceZeros 0 n seed = d at h t1 t4
    have hk : ∀ k : Fin n, ((k.1 : Int) < forceZeros → d.getD k 0 = 0) ∧
        (forceZeros ≤ (k.1 : Int) → ∃ g, d.getD k 0 = (maxwell normal sqrt mean g).1) := by
      intro k
      obtain ⟨x, h1, h2, h3⟩ := semidefiniteEvals_get (normal := normal) (sqrt := sqrt) (mean := mean) forceZeros 0 n seed k k.2
      rw [hd] at h1
      rw [Nat.zero_add] at h2 h3
      have : d.getD k 0 = x := by simp [List.getD_eq_getElem?_getD, h1]
      rw [this]
      exact ⟨h2, h3⟩
    refine ⟨t, _, h.symm.trans t1, t2, t4, fun hp => ⟨qdq_symm, qdq_nonneg fun k => ?_⟩, fun hp => ?_, q, fun k l => ?_, fun k h0 => ?_⟩
    · rcases lt_or_ge (k.1 : Int) forceZeros with h0 | h0
      · rw [(hk k).1 h0]
      · obtain ⟨g, hg⟩ := (hk k).2 h0
        rw [hg]
        exact maxwell_pos hs hp g
    · rw [qdq_neg]
      refine ⟨qdq_symm, qdq_nonneg fun k => ?_⟩
      rcases lt_or_ge (k.1 : Int) forceZeros with h0 | h0
      · rw [(hk k).1 h0, neg_zero]
      · obtain ⟨g, hg⟩ := (hk k).2 h0
        rw [hg]
        exact neg_nonneg.2 (maxwell_neg hs hp g)
    · have ho : q * qᵀ = 1 := mul_eq_one_comm.1 t3
      have := congrFun (congrFun ho k) l
      rw [one_apply] at this
      exact this
    · rw [qdq_row t3, (hk k).1 h0, zero_smul]

omit [LinearOrder R] [IsStrictOrderedRing R] [BEq R] [LawfulBEq R] in
theorem info_pos (lu : IsLU n n (crop n n fun i j => drawn draw seed (j * n + i)) (getrf n n (crop n n fun i j => drawn draw seed (j * n + i)))) :
    (getrf n n (crop n n fun i j => drawn draw seed (j * n + i))).1 = 0 ↔
      (mat n n fun i j => drawn draw seed (i * n + j)).det ≠ 0 := by
  have := lu_info lu
  rw [this, mat_crop, ← Matrix.det_transpose]
  rfl

omit [IsStrictOrderedRing R] [LawfulBEq R] in
/-- **C150 (refuted: it returns).** The loop that is to replace a singular matrix by another one draws the same matrix again, because every
call of `create_random_tensor` starts a new engine: if the first matrix is singular, both functions never return. -/
theorem C150_hang_refuted (hn : n ≠ 0)
    (lu : IsLU n n (crop n n fun i j => drawn draw seed (j * n + i)) (getrf n n (crop n n fun i j => drawn draw seed (j * n + i))))
    (hdet : (mat n n fun i j => drawn draw seed (i * n + j)).det = 0) (forceZeros : Int) :
    randomDefinite draw normal seed sqrt getrf geqrf orgqr z 1 fuel n n mean = none ∧
    randomSemidefinite draw normal seed sqrt getrf geqrf orgqr z 1 fuel n n mean forceZeros = none := by
  obtain ⟨E, e1, w, e2⟩ := randomTensor_mat draw seed z n n
  have hl : evecsLoop getrf (.ok E) fuel [] = none := by
    refine evecsLoop_singular (fun pivs => ?_) _ _
    obtain ⟨T, pv, g1, _⟩ := getrfT_ok (getrf := getrf) (tensor_strides2 w e2.dims) (by omega) e2 (pivot := pivs)
    refine ⟨_, T, pv, g1, Nat.pos_of_ne_zero fun h => ?_⟩
    exact (info_pos draw seed getrf n lu).1 h hdet
  unfold randomDefinite randomSemidefinite
  rw [if_neg (by simp), if_neg (by simp), e1, hl]
  exact ⟨rfl, rfl⟩

omit [IsStrictOrderedRing R] [LawfulBEq R] in
/-- **C150 (it returns otherwise).** If the first matrix is not singular, `create_random_semidefinite` returns whatever is drawn, and
`create_random_definite` returns unless the normal distribution goes on giving zeros: an eigenvalue takes three numbers, and a zero one is
replaced by one from the next three, up to `fuel` times. -/
theorem C150_returns (hn : n ≠ 0) (hm : mean ≠ 0) (hf : fuel ≠ 0)
    (lu : IsLU n n (crop n n fun i j => drawn draw seed (j * n + i)) (getrf n n (crop n n fun i j => drawn draw seed (j * n + i))))
    (hdet : (mat n n fun i j => drawn draw seed (i * n + j)).det ≠ 0) (forceZeros : Int) :
    (randomSemidefinite draw normal seed sqrt getrf geqrf orgqr z 1 fuel n n mean forceZeros).isSome = true ∧
    ((∀ a b c : R, a ≠ 0 → sqrt (a * a + b * b + c * c) ≠ 0) → (∀ g, ∃ k, k < fuel ∧ drawn normal g (3 * k) ≠ 0) →
      (randomDefinite draw normal seed sqrt getrf geqrf orgqr z 1 fuel n n mean).isSome = true) := by
  obtain ⟨E, e1, w, e2⟩ := randomTensor_mat draw seed z n n
  obtain ⟨T, pv, g1, _⟩ := getrfT_ok (getrf := getrf) (tensor_strides2 w e2.dims) (by omega) e2 (pivot := [])
  rw [(info_pos draw seed getrf n lu).2 hdet] at g1
  obtain ⟨f, rfl⟩ := Nat.exists_eq_succ_of_ne_zero hf
  have hl := evecsLoop_regular g1 f
  refine ⟨?_, fun h1 h2 => ?_⟩
  · unfold randomSemidefinite
    rw [if_neg (by simp), e1, hl]
    simp only [if_neg hm]
    rfl
  · obtain ⟨l, e⟩ := definiteEvals_ends (normal := normal) (sqrt := sqrt) (mean := mean) h1 h2 n seed
    unfold randomDefinite
    rw [if_neg (by simp), e1, hl]
    simp only [if_neg hm, e]
    rfl

omit [IsStrictOrderedRing R] [LawfulBEq R] in
/-- **C150 (rejected).** A matrix that is not square is rejected. -/
theorem C150_square (rows cols threads : Nat) (h : rows ≠ cols) (forceZeros : Int) :
    randomDefinite draw normal seed sqrt getrf geqrf orgqr z threads fuel rows cols mean =
      some (.error "Can only make square positive definite matrices.") ∧
    randomSemidefinite draw normal seed sqrt getrf geqrf orgqr z threads fuel rows cols mean forceZeros =
      some (.error "Can only make square positive definite matrices.") := by
  unfold randomDefinite randomSemidefinite
  rw [if_pos h, if_pos h]
  exact ⟨rfl, rfl⟩

omit [IsStrictOrderedRing R] [LawfulBEq R] in
/-- **C150 (refuted for several threads).** Both functions race. -/
theorem C150_race_refuted (hn : n ≠ 0) (threads : Nat) (ht : 2 ≤ threads) (forceZeros : Int) :
    randomDefinite draw normal seed sqrt getrf geqrf orgqr z threads (fuel + 1) n n mean = some (.ub "data race") ∧
    randomSemidefinite draw normal seed sqrt getrf geqrf orgqr z threads (fuel + 1) n n mean forceZeros = some (.ub "data race") := by
  have h : randomTensor draw seed z threads [n, n] = .ub "data race" := by
    unfold randomTensor
    simp only
    rw [randRaces_two (by rw [(isTensor_mk' z (by simp)).length]; simp [Strided.mk', numel, hn]) ht]
    rfl
  unfold randomDefinite randomSemidefinite
  rw [if_neg (by simp), if_neg (by simp), h]
  exact ⟨rfl, rfl⟩

omit [IsStrictOrderedRing R] [LawfulBEq R] in
/-- **C150 (refuted for a mean of zero).** Both functions make a normal distribution with standard deviation 0, which has no defined
behaviour; the result is not the zero matrix. -/
theorem C150_mean_refuted (hn : n ≠ 0) (hf : fuel ≠ 0)
    (lu : IsLU n n (crop n n fun i j => drawn draw seed (j * n + i)) (getrf n n (crop n n fun i j => drawn draw seed (j * n + i))))
    (hdet : (mat n n fun i j => drawn draw seed (i * n + j)).det ≠ 0) (forceZeros : Int) :
    (∃ e, randomDefinite draw normal seed sqrt getrf geqrf orgqr z 1 fuel n n 0 = some (.ub e)) ∧
    ∃ e, randomSemidefinite draw normal seed sqrt getrf geqrf orgqr z 1 fuel n n 0 forceZeros = some (.ub e) := by
  obtain ⟨E, e1, w, e2⟩ := randomTensor_mat draw seed z n n
  obtain ⟨T, pv, g1, _⟩ := getrfT_ok (getrf := getrf) (tensor_strides2 w e2.dims) (by omega) e2 (pivot := [])
  rw [(info_pos draw seed getrf n lu).2 hdet] at g1
  obtain ⟨f, rfl⟩ := Nat.exists_eq_succ_of_ne_zero hf
  have hl := evecsLoop_regular g1 f
  unfold randomDefinite randomSemidefinite
  rw [if_neg (by simp), if_neg (by simp), e1, hl]
  simp only [if_true]
  exact ⟨⟨_, rfl⟩, ⟨_, rfl⟩⟩

end

/-- Concrete cases: the numbers drawn are [[3, 1], [4, 2]] / 10, and 1, 2, 2, 2, 3, 6 for the eigenvalues. -/
def randDraw : Nat → Rat × Nat := countDraw [3 / 10, 1 / 10, 4 / 10, 2 / 10]
/-- Reflectors, R and tau. -/
def randQr : (Nat → Nat → ℚ) × (Nat → ℚ) := (ofRows [[-1/2, -11/50], [1/2, 1/25]], fun i => if i = 0 then 8/5 else 0)

theorem rand_isQR : IsQR 2 2 (crop 2 2 fun i j => drawn randDraw 0 (i * 2 + j)) randQr :=
  ⟨matrix_ext_rat (by decide +kernel), matrix_ext_rat (by decide +kernel)⟩

/-- A square root of 9 and 49. -/
def sqrtEx (x : Rat) : Rat := if x = 9 then 3 else if x = 49 then 7 else 0

theorem randomEx : randomDefinite randDraw (countDraw [1, 2, 2, 2, 3, 6]) 0 sqrtEx (getrfId ℚ) (fun _ _ _ => randQr) orgqrQ (fun _ => 9) 1 1 2 2 1 =
    some (.ok ⟨[139/25, -48/25, -48/25, 111/25], 0, [2, 2], [2, 1]⟩) := by decide +kernel
example := C150_definite_partial randDraw (countDraw [1, 2, 2, 2, 3, 6]) 0 sqrtEx (getrfId ℚ) (fun _ _ _ => randQr) orgqrQ (fun _ => 9) 1 2 1
  (by decide) (fun x => by unfold sqrtEx; split <;> [decide; (split <;> decide)]) (by decide) rand_isQR
  (fun F t i j h => by unfold orgqrQ; rw [dif_pos ⟨i.2, h⟩]) _ randomEx
theorem randomEx' : randomSemidefinite randDraw (countDraw [1, 2, 2, 2, 3, 6]) 0 sqrtEx (getrfId ℚ) (fun _ _ _ => randQr) orgqrQ (fun _ => 9)
    1 1 2 2 (-1) 1 = some (.ok ⟨[-48/25, 36/25, 36/25, -27/25], 0, [2, 2], [2, 1]⟩) := by decide +kernel
example := C150_semidefinite_partial randDraw (countDraw [1, 2, 2, 2, 3, 6]) 0 sqrtEx (getrfId ℚ) (fun _ _ _ => randQr) orgqrQ (fun _ => 9) 1 2
  (-1) (by decide) (fun x => by unfold sqrtEx; split <;> [decide; (split <;> decide)]) (by decide) 1 rand_isQR
  (fun F t i j h => by unfold orgqrQ; rw [dif_pos ⟨i.2, h⟩]) _ randomEx'

/-- xGETRF of a 1×1 matrix. -/
def getrfOne : GetrfFn ℚ := fun _ _ M => (if M 0 0 = 0 then 1 else 0, M, fun i => i + 1)
theorem getrfOne_lu (x : Rat) (k : Nat) : IsLU 1 1 (crop 1 1 fun i j => drawn (countDraw [x]) k (j * 1 + i))
    (getrfOne 1 1 (crop 1 1 fun i j => drawn (countDraw [x]) k (j * 1 + i))) where
  pivots := by
    intro i hi
    simp [getrfOne] at *
    omega
  eq := by
    ext i j
    fin_cases i; fin_cases j
    simp [getrfOne, Matrix.mul_apply, unitLower, mat, upperPart, interchanges, crop]
  info := by
    simp [getrfOne, crop]

/-- A singular first matrix: no number of iterations is enough. -/
example (fuel : Nat) := C150_hang_refuted (countDraw [0]) (countDraw [1]) 0 sqrtEx getrfOne (fun _ _ _ => randQr) orgqrQ (fun _ => 9) fuel 1 1
  (by decide) (getrfOne_lu 0 0) (by simp [mat, drawn, countDraw]) 1
example := C150_returns (countDraw [1 / 2]) (fun g => (1, g)) 0 (fun _ => 1) getrfOne (fun _ _ _ => randQr) orgqrQ (fun _ => 9) 1 1 1
  (by decide) (by decide) (by decide) (getrfOne_lu (1 / 2) 0) (by simp [mat, drawn, countDraw]) 1
example := C150_mean_refuted (countDraw [1 / 2]) (fun g => (1, g)) 0 (fun _ => 1) getrfOne (fun _ _ _ => randQr) orgqrQ (fun _ => 9) 1 1
  (by decide) (by decide) (getrfOne_lu (1 / 2) 0) (by simp [mat, drawn, countDraw]) 1

/-! ### C151 -/

/-- **C151.** `sum_square(a, &scale, &sumsq)` of every vector, a tensor or a view of any stride: the new values satisfy
`scale² sumsq = Σ |a(i)|² + (old scale)² (old sumsq)`. -/
theorem C151_sum_square {K R : Type} [CommRing R] (sq : K → R) (lassq : LassqFn K R) (n : Nat) (a : Strided K) (s : Nat)
    (hs : a.strides = [s]) (v : Fin n → K) (ha : HoldsVec a v) (scale sumsq : R)
    (lapack : ∀ xs, xs = List.ofFn v → (lassq xs scale sumsq).1 * (lassq xs scale sumsq).1 * (lassq xs scale sumsq).2 =
      (xs.map sq).sum + scale * scale * sumsq) :
    ∃ c q, sumSquare lassq a scale sumsq = .ok (c, q) ∧ c * c * q = ∑ i, sq (v i) + scale * scale * sumsq := by
  have d0 : a.dim 0 = n := by simp [Strided.dim, ha.dims]
  have st : a.stride 0 = s := by simp [Strided.stride, hs]
  have key : (List.range n).mapM (fun i => memGet a.data (a.off + i * s)) = .ok (List.ofFn v) := by
    have h : ∀ m, m ≤ n → (List.range m).mapM (fun i => memGet a.data (a.off + i * s)) =
        .ok ((List.finRange n).take m |>.map v) := by
      intro m
      induction m with
      | zero => intro _; rfl
      | succ m ih =>
        intro hm
        have hr := (read1_iff (i := m) ha.dims hs _).1 (ha.elems ⟨m, hm⟩)
        rw [List.range_succ, List.mapM_append, ih (by omega)]
        simp only [Outcome.ok_bind, List.mapM_cons, List.mapM_nil, memGet, hr]
        rw [List.take_add_one]
        simp [show m < n from hm]
    rw [h n (Nat.le_refl n), List.take_of_length_le (by simp), List.ofFn_eq_map]
  refine ⟨(lassq (List.ofFn v) scale sumsq).1, (lassq (List.ofFn v) scale sumsq).2, ?_, ?_⟩
  · unfold sumSquare
    rw [d0, st, key]
    rfl
  · rw [lapack _ rfl, List.map_ofFn, List.sum_ofFn]
    rfl

/-- A concrete case: the second column of [[1, 2], [3, 4]], with scale 1 and sum 5 before. -/
example : ∃ c q, sumSquare (fun xs c q => (2, ((xs.map fun x : Rat => x * x).sum + c * c * q) / 4)) ⟨[1, 2, 3, 4], 1, [2], [2]⟩ 1 5 = .ok (c, q) ∧
    c * c * q = ∑ i : Fin 2, (![2, 4] i : Rat) * ![2, 4] i + 1 * 1 * 5 :=
  C151_sum_square (fun x => x * x) _ 2 ⟨[1, 2, 3, 4], 1, [2], [2]⟩ 2 rfl ![2, 4]
    ⟨rfl, fun i => by fin_cases i <;> rfl⟩ 1 5 (fun xs _ => by ring)

end Einsums.Props
