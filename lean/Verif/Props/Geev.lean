import Mathlib.LinearAlgebra.Matrix.Charpoly.Coeff
import Mathlib.Algebra.Order.Ring.Defs
import Verif.Proofs.Geev
import Verif.Props.Lapack
/-
C111: `geev` of real matrices.

xGEEV is an arbitrary function of which LAPACK's documentation is assumed at the matrix it is called with (`IsGeev`).
-/
namespace Einsums.Props
open Spec Model Matrix Polynomial

section
variable {R : Type} [CommRing R] [LinearOrder R]

/-- **C111 (partial).** `geev(&A, &W, &lvecs, &rvecs)` of a non-empty n×n matrix (tensors or views with contiguous rows, W
contiguous): the eigenvalues of A with their multiplicities are `wr j + i·wi j`; the *columns* of `rvecs` are the right and those
of `lvecs` the left eigenvectors, packed as in LAPACK (a complex pair in two columns: real and imaginary part); W holds the
eigenvalues *rounded to float*; nothing outside the arguments changes.  Missing: W itself for `double`
(`C111_double_refuted`), other layouts (`C111_stride_refuted`). -/
theorem C111_geev_partial (toFloat : R → R) (geev : GeevFn R) (n la ll lv : Nat) (A L V : Strided R) (W : Strided (R × R))
    (M : Matrix (Fin n) (Fin n) R) (hn : 0 < n) (hA : Holds A M) (sA : A.strides = [la, 1]) (hla : n ≤ la) (wW : W.WF)
    (dW : W.dims = [n]) (sW : W.strides = [1]) (wL : L.WF) (dL : L.dims = [n, n]) (sL : L.strides = [ll, 1]) (hll : n ≤ ll)
    (wV : V.WF) (dV : V.dims = [n, n]) (sV : V.strides = [lv, 1]) (hlv : n ≤ lv)
    (lapack : ∀ f, mat n n f = M →
      IsGeev n f (geev true n f).wr (geev true n f).wi (geev true n f).vl (geev true n f).vr) :
    ∃ A' W' L' V', ∃ (wr wi : Nat → R) (l v : Nat → Nat → R), geevT toFloat geev true A W L V = .ok (A', W', L', V') ∧
      A.Frame A' ∧ W.Frame W' ∧ L.Frame L' ∧ V.Frame V' ∧
      HoldsVec W' (fun j : Fin n => (toFloat (wr j), toFloat (wi j))) ∧ Holds L' (mat n n l) ∧ Holds V' (mat n n v) ∧
      IsSpectrum M wr wi ∧
      (∀ j, j < n → IsRightPair M (wr j) (wi j) (packedRe n wi v j) (packedIm n wi v j)) ∧
      ∀ j, j < n → IsLeftPair M (wr j) (wi j) (packedRe n wi l j) (packedIm n wi l j) := by
  obtain ⟨a, rfl⟩ := exists_mat M
  obtain ⟨A', W', L', V', e1, e2, e3, e4, e5, e6, e7, e8⟩ := geevT_ok (toFloat := toFloat) (geev := geev) hn hA sA hla wW dW sW wL dL
    sL hll wV dV sV hlv
  have G := lapack (crop n n a) (mat_crop _ _ _)
  have s := G.spectrum
  have r := G.right
  have l := G.left
  rw [mat_crop] at s r l
  exact ⟨A', W', L', V', _, _, _, _, e1, e2, e3, e4, e5, e6, e7, e8, s, r, l⟩

/-- **C111 (partial: `float`).** For matrices of `float` W holds the eigenvalues. -/
theorem C111_float_partial (geev : GeevFn R) (n la ll lv : Nat) (A L V : Strided R) (W : Strided (R × R))
    (M : Matrix (Fin n) (Fin n) R) (hn : 0 < n) (hA : Holds A M) (sA : A.strides = [la, 1]) (hla : n ≤ la) (wW : W.WF)
    (dW : W.dims = [n]) (sW : W.strides = [1]) (wL : L.WF) (dL : L.dims = [n, n]) (sL : L.strides = [ll, 1]) (hll : n ≤ ll)
    (wV : V.WF) (dV : V.dims = [n, n]) (sV : V.strides = [lv, 1]) (hlv : n ≤ lv)
    (lapack : ∀ f, mat n n f = M →
      IsGeev n f (geev true n f).wr (geev true n f).wi (geev true n f).vl (geev true n f).vr) :
    ∃ A' W' L' V', ∃ wr wi : Nat → R, geevT id geev true A W L V = .ok (A', W', L', V') ∧
      HoldsVec W' (fun j : Fin n => (wr j, wi j)) ∧ IsSpectrum M wr wi := by
  obtain ⟨A', W', L', V', wr, wi, _, _, e1, _, _, _, _, e6, _, _, e9, _⟩ := C111_geev_partial id geev n la ll lv A L V W M hn hA sA
    hla wW dW sW wL dL sL hll wV dV sV hlv lapack
  exact ⟨A', W', L', V', wr, wi, e1, e6, e9⟩

omit [LinearOrder R] in
/-- **C111 (refuted for other layouts).** If the rows of A are not contiguous — a transposed view — or the leading dimension of
one of the results is too small, `geev` returns normally and nothing has been computed. -/
theorem C111_stride_refuted (toFloat : R → R) (geev : GeevFn R) (n : Nat) (A L V : Strided R) (W : Strided (R × R))
    (dA : A.dims = [n, n]) (dW : W.dims = [n]) (dL : L.dims = [n, n]) (dV : V.dims = [n, n])
    (h : A.stride 0 < n ∨ L.stride 0 < n ∨ V.stride 0 < n) : geevT toFloat geev true A W L V = .ok (A, W, L, V) := by
  have d0 : A.dim 0 = n := by simp [Strided.dim, dA]
  have d1 : A.dim 1 = n := by simp [Strided.dim, dA]
  unfold geevT
  rw [d0, d1, if_neg (by simp [Strided.dim, dW, dL, dV])]
  unfold vendorGeev
  rw [if_pos (by simp only [true_and]; omega)]
  rfl

/-- The spectrum of a 1×1 matrix. -/
theorem spectrum_one {x : R} [Nontrivial R] {wr wi : Nat → R} (h : IsSpectrum (mat 1 1 fun _ _ => x) wr wi) :
    wr 0 = x ∧ wi 0 = 0 := by
  obtain ⟨h1, h2, h3⟩ := h
  have w0 : wi 0 = 0 := by
    rcases lt_trichotomy (wi 0) 0 with h | h | h
    · exact absurd (h2 0 (by omega) h).1 (by omega)
    · exact h
    · exact absurd (h1 0 (by omega) h).1 (by omega)
  refine ⟨?_, w0⟩
  rw [Matrix.charpoly, det_fin_one] at h3
  simp only [Fin.prod_univ_one, Fin.val_zero, w0, if_true] at h3
  have := congrArg (fun p => p.coeff 0) h3
  simp [mat] at this
  exact this.symm

/-- **C111 (refuted for `double`).** For every number x that is not representable as a `float` and every 1×1 matrix [x]: what
`geev` stores in W is x rounded, which is not an eigenvalue. -/
theorem C111_double_refuted [IsStrictOrderedRing R] (toFloat : R → R) (h0 : toFloat 0 = 0) (x : R) (hx : toFloat x ≠ x)
    (geev : GeevFn R) (lapack : ∀ f, mat 1 1 f = (mat 1 1 fun _ _ => x) →
      IsGeev 1 f (geev true 1 f).wr (geev true 1 f).wi (geev true 1 f).vl (geev true 1 f).vr) :
    ∃ A' W' L' V', geevT toFloat geev true ⟨[x], 0, [1, 1], [1, 1]⟩ ⟨[(0, 0)], 0, [1], [1]⟩ ⟨[0], 0, [1, 1], [1, 1]⟩
        ⟨[0], 0, [1, 1], [1, 1]⟩ = .ok (A', W', L', V') ∧
      HoldsVec W' (fun _ : Fin 1 => (toFloat x, 0)) ∧
      ∀ u v, ¬ IsRightPair (mat 1 1 fun _ _ => x) (toFloat x) 0 u v := by
  have t1 : ∀ y : R, (Strided.mk [y] 0 [1, 1] [1, 1]).IsTensor := fun y => ⟨rfl, rfl, rfl⟩
  have t2 : (Strided.mk [((0 : R), (0 : R))] 0 [1] [1]).IsTensor := ⟨rfl, rfl, rfl⟩
  have hA : Holds (Strided.mk [x] 0 [1, 1] [1, 1]) (mat 1 1 fun _ _ => x) :=
    (holdsMat_iff (t := Strided.mk [x] 0 [1, 1] [1, 1]) rfl rfl _).2 (by
      intro i j hi hj
      obtain rfl : i = 0 := by omega
      obtain rfl : j = 0 := by omega
      rfl)
  obtain ⟨A', W', L', V', wr, wi, _, _, e1, _, _, _, _, e6, _, _, e9, _⟩ := C111_geev_partial toFloat geev 1 1 1 1 _ _ _ _ _
    (by decide) hA rfl (by decide) t2.wf rfl rfl (t1 0).wf rfl rfl (by decide) (t1 0).wf rfl rfl (by decide) lapack
  obtain ⟨w1, w2⟩ := spectrum_one e9
  refine ⟨A', W', L', V', e1, ⟨e6.dims, fun i => ?_⟩, ?_⟩
  · rw [e6.elems i]
    obtain rfl : i = 0 := Subsingleton.elim _ _
    simp only [Fin.val_zero, w1, w2, h0]
  · rintro u v ⟨hne, hu, hv⟩
    have key : ∀ y : Fin 1 → R, (mat 1 1 fun _ _ => x) *ᵥ y = toFloat x • y → y = 0 := by
      intro y h
      have := congrFun h 0
      simp [mulVec, dotProduct, mat] at this
      funext i
      obtain rfl : i = 0 := Subsingleton.elim _ _
      rcases this with h | h
      · exact absurd h.symm hx
      · exact h
    rw [zero_smul, sub_zero] at hu
    rw [zero_smul, add_zero] at hv
    rcases hne with h | h
    · exact h (key u hu)
    · exact h (key v hv)

end

/-! ### Instances -/

/-- What LAPACK returns for [[0, -1], [1, 0]], whose eigenvalues are ±i. -/
def rotOut : GeevResult ℚ :=
  ⟨ofRows [], fun _ => 0, fun i => [1, -1].getD i 0, ofRows [[1, 0], [0, -1]], ofRows [[1, 0], [0, -1]]⟩

theorem rot_isGeev (f : Nat → Nat → ℚ) (h : mat 2 2 f = mat 2 2 (ofRows [[0, -1], [1, 0]])) :
    IsGeev 2 f rotOut.wr rotOut.wi rotOut.vl rotOut.vr := by
  constructor
  · rw [h]
    refine ⟨?_, ?_, ?_⟩
    · have : ∀ j : Fin 2, 0 < rotOut.wi j → j.1 + 1 < 2 ∧ rotOut.wr (j + 1) = rotOut.wr j ∧ rotOut.wi (j + 1) = -rotOut.wi j := by
        decide +kernel
      exact fun j hj => this ⟨j, hj⟩
    · have : ∀ j : Fin 2, rotOut.wi j < 0 → 0 < j.1 ∧ 0 < rotOut.wi (j - 1) := by decide +kernel
      exact fun j hj => this ⟨j, hj⟩
    · have e1 : rotOut.wi 0 = 1 := rfl
      have e2 : rotOut.wi 1 = -1 := rfl
      have e3 : ∀ i, rotOut.wr i = 0 := fun _ => rfl
      rw [charpoly_fin_two]
      have t : (mat 2 2 (ofRows [[0, -1], [1, 0]])).trace = 0 := by decide +kernel
      have d : (mat 2 2 (ofRows [[0, -1], [1, 0]])).det = 1 := by
        rw [det_fin_two]; decide +kernel
      rw [t, d, Fin.prod_univ_two]
      simp only [Fin.val_zero, Fin.val_one, e1, e2, e3]
      norm_num
  · intro j hj
    rw [h]
    obtain rfl | rfl : j = 0 ∨ j = 1 := by omega
    · refine ⟨Or.inl fun h => ?_, ?_, ?_⟩
      · exact absurd (congrFun h 0) (by decide +kernel)
      · funext i; revert i; decide +kernel
      · funext i; revert i; decide +kernel
    · refine ⟨Or.inl fun h => ?_, ?_, ?_⟩
      · exact absurd (congrFun h 0) (by decide +kernel)
      · funext i; revert i; decide +kernel
      · funext i; revert i; decide +kernel
  · intro j hj
    rw [h]
    obtain rfl | rfl : j = 0 ∨ j = 1 := by omega
    · refine ⟨Or.inl fun h => ?_, ?_, ?_⟩
      · exact absurd (congrFun h 0) (by decide +kernel)
      · funext i; revert i; decide +kernel
      · funext i; revert i; decide +kernel
    · refine ⟨Or.inl fun h => ?_, ?_, ?_⟩
      · exact absurd (congrFun h 0) (by decide +kernel)
      · funext i; revert i; decide +kernel
      · funext i; revert i; decide +kernel

/-- The tensor [[0, -1], [1, 0]]. -/
def rotA : Strided ℚ := ⟨[0, -1, 1, 0], 0, [2, 2], [2, 1]⟩

example : ∃ A' W' L' V', ∃ (wr wi : Nat → ℚ) (l v : Nat → Nat → ℚ),
    geevT (fun q => (q.floor : ℚ)) (fun _ _ _ => rotOut) true rotA ⟨[(7, 7), (7, 7)], 0, [2], [1]⟩ ⟨[5, 5, 5, 5], 0, [2, 2], [2, 1]⟩
        ⟨[5, 5, 5, 5], 0, [2, 2], [2, 1]⟩ = .ok (A', W', L', V') ∧ IsSpectrum (mat 2 2 (ofRows [[0, -1], [1, 0]])) wr wi ∧
      Holds L' (mat 2 2 l) ∧ Holds V' (mat 2 2 v) := by
  obtain ⟨A', W', L', V', wr, wi, l, v, e1, _, _, _, _, _, e7, e8, e9, _⟩ := C111_geev_partial (fun q => (q.floor : ℚ))
    (fun _ _ _ => rotOut) 2 2 2 2 rotA ⟨[5, 5, 5, 5], 0, [2, 2], [2, 1]⟩ ⟨[5, 5, 5, 5], 0, [2, 2], [2, 1]⟩
    ⟨[(7, 7), (7, 7)], 0, [2], [1]⟩ _ (by decide) (holds_ofRows _ rfl _ (by decide +kernel)) rfl (by decide)
    (Strided.IsTensor.wf ⟨rfl, by decide, by decide⟩) rfl rfl (Strided.IsTensor.wf ⟨rfl, by decide, by decide⟩) rfl rfl (by decide)
    (Strided.IsTensor.wf ⟨rfl, by decide, by decide⟩) rfl rfl (by decide) rot_isGeev
  exact ⟨A', W', L', V', wr, wi, l, v, e1, e9, e7, e8⟩

/-- A transposed view: row stride 1. -/
example : geevT (fun q => (q.floor : ℚ)) (fun _ _ _ => rotOut) true ⟨[0, -1, 1, 0], 0, [2, 2], [1, 2]⟩
    ⟨[(7, 7), (7, 7)], 0, [2], [1]⟩ ⟨[5, 5, 5, 5], 0, [2, 2], [2, 1]⟩ ⟨[5, 5, 5, 5], 0, [2, 2], [2, 1]⟩ =
    .ok (⟨[0, -1, 1, 0], 0, [2, 2], [1, 2]⟩, ⟨[(7, 7), (7, 7)], 0, [2], [1]⟩, ⟨[5, 5, 5, 5], 0, [2, 2], [2, 1]⟩,
      ⟨[5, 5, 5, 5], 0, [2, 2], [2, 1]⟩) :=
  C111_stride_refuted _ _ 2 _ _ _ _ rfl rfl rfl rfl (Or.inl (by decide))

/-- A routine for 1×1 matrices that is what LAPACK documents; a `float` here is an integer. -/
example : ∃ A' W' L' V', geevT (fun q : ℚ => (q.floor : ℚ)) (fun _ _ f => ⟨f, fun _ => f 0 0, fun _ => 0, fun _ _ => 1, fun _ _ => 1⟩)
      true ⟨[1 / 3], 0, [1, 1], [1, 1]⟩ ⟨[(0, 0)], 0, [1], [1]⟩ ⟨[0], 0, [1, 1], [1, 1]⟩ ⟨[0], 0, [1, 1], [1, 1]⟩ =
        .ok (A', W', L', V') := by
  obtain ⟨A', W', L', V', e, _⟩ := C111_double_refuted (fun q : ℚ => (q.floor : ℚ)) (by decide +kernel) (1 / 3) (by decide +kernel)
    (fun _ _ f => ⟨f, fun _ => f 0 0, fun _ => 0, fun _ _ => 1, fun _ _ => 1⟩) (by
      intro f hf
      have h0 : f 0 0 = 1 / 3 := congrFun (congrFun hf 0) 0
      constructor
      · refine ⟨fun j _ h => absurd h (lt_irrefl _), fun j _ h => absurd h (lt_irrefl _), ?_⟩
        rw [Matrix.charpoly, det_fin_one]
        simp [mat]
      all_goals
        intro j hj
        refine ⟨Or.inl fun h => ?_, ?_, ?_⟩
        · exact absurd (congrFun h 0) (by simp [packedRe])
        · funext i
          obtain rfl : i = 0 := Subsingleton.elim _ _
          simp [mulVec, vecMul, dotProduct, packedRe, mat]
        · funext i
          obtain rfl : i = 0 := Subsingleton.elim _ _
          simp [mulVec, vecMul, dotProduct, packedIm, mat])
  exact ⟨A', W', L', V', e⟩

end Einsums.Props
