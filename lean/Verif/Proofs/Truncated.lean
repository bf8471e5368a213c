import Verif.Model.Truncated
import Verif.Proofs.Spectral
/-
The range finder of the randomised decompositions.
-/
namespace Einsums
open Spec Model Props Matrix

variable {R : Type} [CommRing R]

/-- `geqrf` followed by `orgqr` in place. -/
theorem thinQ_ok {geqrf : GeqrfFn R} {orgqr : OrgqrFn R} {m l : Nat} {Y : Strided R} (w : Y.IsTensor) {f : Nat → Nat → R}
    (hY : Holds Y (mat m l f)) (hl : l ≤ m) (lapack : ∀ F t, IsOrgqr m l l F t (orgqr m l l F t)) :
    ∃ r d, vendorGeqrf geqrf m l Y.data 0 l = .ok r ∧
      vendorOrgqr orgqr m l (min m l) r.1 0 l ((List.range (min m l)).map r.2) = .ok d ∧
      ({ Y with data := d } : Strided R).IsTensor ∧
      Holds { Y with data := d } (thinQ m l (geqrf m l (crop m l f))) := by
  have s := tensor_strides2 w hY.dims
  have h := (holdsMat_iff hY.dims s f).1 hY
  rw [w.off] at h
  obtain ⟨d, e1, e2, e3, _⟩ := viaColumns_ok (Nat.le_refl l) h (call := fun M => .ok (geqrf m l M)) rfl
  obtain ⟨d', q1, q2, q3, _⟩ := viaColumns_ok (Nat.le_refl l) e3
    (call := fun M => .ok (orgqr m l l M fun i => ((List.range l).map (geqrf m l (crop m l f)).2).getD i 0, ())) rfl
  refine ⟨(d, (geqrf m l (crop m l f)).2), d', ?_, ?_, ⟨w.off, w.strides, ?_⟩, ?_⟩
  · unfold vendorGeqrf
    rw [if_neg (by omega), e1]
  · unfold vendorOrgqr
    rw [Nat.min_eq_right hl, if_neg (by omega), if_neg (by omega), if_neg (by simp), q1]
    rfl
  · rw [← w.length]; exact q2.trans e2
  · have key := (holdsMat_iff (t := { Y with data := d' }) hY.dims s _).2 (by simpa only [w.off] using q3)
    refine ⟨hY.dims, fun i j => ?_⟩
    rw [key.elems i j]
    congr 1
    have hj : j.1 < m := by have := j.2; omega
    have L := lapack (crop m l (geqrf m l (crop m l f)).1)
      (fun i => ((List.range l).map (geqrf m l (crop m l f)).2).getD i 0) i j hj
    rw [mat, L, thinQ, dif_pos hj]
    refine congrFun (congrFun (reflectors_congr ?_ ?_) i) _
    · intro i hi
      simp [List.getD_eq_getElem?_getD, hi]
    · intro i j hi hj
      rw [crop, if_pos ⟨hi, hj⟩]

/-- The thin factor has orthonormal columns. -/
theorem thinQ_orthonormal {m l : Nat} {A : Nat → Nat → R} {out : (Nat → Nat → R) × (Nat → R)} (h : IsQR m l A out)
    (hl : l ≤ m) : (thinQ m l out)ᵀ * thinQ m l out = 1 := by
  have h1 := h.1
  rw [Nat.min_eq_right hl] at h1
  ext i j
  have hi : i.1 < m := by have := i.2; omega
  have hj : j.1 < m := by have := j.2; omega
  have := congrFun (congrFun h1 ⟨i, hi⟩) ⟨j, hj⟩
  simp only [mul_apply, transpose_apply, one_apply, Fin.mk.injEq] at this
  simp only [mul_apply, transpose_apply, one_apply, thinQ, hi, hj, dif_pos, this]
  simp [Fin.ext_iff]

/-- The thin factor times the top of R is the matrix. -/
theorem thinQ_mul {m l : Nat} {A : Nat → Nat → R} {out : (Nat → Nat → R) × (Nat → R)} (h : IsQR m l A out) (hl : l ≤ m) :
    thinQ m l out * mat l l (upperPart out.1) = mat m l A := by
  have h1 := h.2
  rw [Nat.min_eq_right hl] at h1
  rw [← h1]
  ext i j
  simp only [mul_apply]
  obtain ⟨e, rfl⟩ : ∃ e, m = l + e := ⟨m - l, by omega⟩
  rw [Fin.sum_univ_add]
  refine Eq.trans (add_zero _).symm (congrArg₂ (· + ·) ?_ ?_)
  · refine Finset.sum_congr rfl fun x _ => ?_
    have hx : x.1 < l + e := by have := x.2; omega
    rw [thinQ, dif_pos hx]
    rfl
  · refine (Finset.sum_eq_zero fun x _ => ?_).symm
    rw [mat, upperPart, if_pos (by simp only [Fin.natAdd]; have := j.2; omega), mul_zero]

/-- Projecting the columns on the range of the thin factor changes nothing. -/
theorem thinQ_proj {m l : Nat} {A : Nat → Nat → R} {out : (Nat → Nat → R) × (Nat → R)} (h : IsQR m l A out) (hl : l ≤ m) :
    thinQ m l out * (thinQ m l out)ᵀ * mat m l A = mat m l A := by
  have h1 := thinQ_mul h hl
  have h2 := thinQ_orthonormal h hl
  generalize thinQ m l out = Q at *
  rw [← h1, Matrix.mul_assoc, ← Matrix.mul_assoc Qᵀ, h2, Matrix.one_mul]

omit [CommRing R] in
theorem fresh_holds (z : Nat → R) (m n : Nat) : Holds (Strided.mk' z [m, n]) (mat m n fun i j => z (i * n + j)) := by
  obtain ⟨w, s, d⟩ := fresh_matrix z m n
  refine (holdsMat_iff d s _).2 ?_
  intro i j hi hj
  have : i * n + j < m * n := by
    have : (i + 1) * n ≤ m * n := Nat.mul_le_mul_right _ hi
    rw [Nat.add_mul] at this
    omega
  simp [Strided.mk', vecResize, linearSize_eq (ds := [m, n]) (by simp), numel, this]

theorem rangeFinder_ok [BEq R] [LawfulBEq R] {geqrf : GeqrfFn R} {orgqr : OrgqrFn R} {z omega : Nat → R} {m n l lda : Nat}
    {A : Strided R} {a : Nat → Nat → R} (sA : A.strides = [lda, 1]) (hlda : n ≤ lda) (hn : 0 < n) (hA : Holds A (mat m n a))
    (hl : l ≤ m) (lapack : ∀ F t, IsOrgqr m l l F t (orgqr m l l F t)) :
    ∃ Q f, rangeFinder geqrf orgqr z omega A l = .ok Q ∧ Q.IsTensor ∧
      mat m l f = mat m n a * mat n l (fun i j => omega (i * l + j)) ∧ Holds Q (thinQ m l (geqrf m l f)) := by
  have d0 : A.dim 0 = m := by simp [Strided.dim, hA.dims]
  have d1 : A.dim 1 = n := by simp [Strided.dim, hA.dims]
  obtain ⟨wO, sO, dO⟩ := fresh_matrix omega n l
  obtain ⟨wY, sY, dY⟩ := fresh_matrix z m l
  obtain ⟨Y, y1, y2, y3⟩ := gemm_mul (ta := false) (tb := false) (m := m) (n := l) (k := n) (alpha := 1) (beta := 0) sA sO sY
    hlda (Nat.le_refl l) (Nat.le_refl l) wY.wf hA (fresh_holds omega n l) (fresh_holds z m l) (by omega)
  have y3 : Holds Y (mat m n a * mat n l (fun i j => omega (i * l + j))) := by
    rw [zero_smul, zero_add, one_smul] at y3
    exact y3
  obtain ⟨f, hf⟩ := exists_mat (mat m n a * mat n l (fun i j => omega (i * l + j)))
  rw [hf] at y3
  obtain ⟨r, d, e1, e2, e3, e4⟩ := thinQ_ok (geqrf := geqrf) (orgqr := orgqr) (isTensor_of_frame wY y2) y3 hl lapack
  refine ⟨_, crop m l f, ?_, e3, (mat_crop _ _ _).trans hf.symm, e4⟩
  unfold rangeFinder
  simp only [d0, d1, y1, e1, e2, Outcome.ok_bind]
  rfl

theorem svdDd_strides {gesdd : GesddFn R} {m n : Nat} {A U S Vt : Strided R} {job : Job} (d : A.dims = [m, n])
    (h : svdDd gesdd A job = .ok (U, S, Vt)) : U.strides = [m, 1] ∧ Vt.strides = [n, 1] := by
  have d0 : A.dim 0 = m := by simp [Strided.dim, d]
  have d1 : A.dim 1 = n := by simp [Strided.dim, d]
  unfold svdDd at h
  simp only [d0, d1] at h
  cases hv : vendorGesdd gesdd job m n A.data n (List.replicate (m * m) 0) m (List.replicate (n * n) 0) n with
  | ok r =>
    rw [hv] at h
    simp only [Outcome.ok_bind] at h
    have := Outcome.ok.inj h
    injection this with h1 h2
    injection h2 with h2 h3
    subst h1 h3
    exact ⟨rfl, rfl⟩
  | error e => rw [hv] at h; cases h
  | ub e => rw [hv] at h; cases h

end Einsums
