import Verif.Spec.Gesv
import Verif.Proofs.Inverse
/-
Lemmas about `gesv`.
-/
namespace Einsums
open Spec Model Matrix

section mem
variable {R : Type} [Zero R]

theorem vendorGesv_ok {gesv : GesvRoutine R} {n k : Nat} {d : List R} {aoff lda : Nat} {e : List R} {boff ldb : Nat}
    {a b : Nat → Nat → R} (hl : max 1 n ≤ lda) (hl' : max 1 n ≤ ldb) (h : RowsAt d aoff lda n n a) (h' : RowsAt e boff ldb k n b) :
    let r := gesv n k (crop n n fun i j => a j i) (crop n k fun i j => b j i)
    ∃ d' e', vendorGesv gesv n k d aoff lda e boff ldb = .ok (r.1, d', e') ∧ d'.length = d.length ∧ e'.length = e.length ∧
      RowsAt d' aoff lda n n (fun i j => r.2.1 j i) ∧ RowsAt e' boff ldb k n (fun i j => r.2.2 j i) ∧
      SameOutside d d' aoff lda n n ∧ SameOutside e e' boff ldb k n := by
  intro r
  have hc := colsAt_swap h
  have hc' := colsAt_swap h'
  obtain ⟨d', e1, e2, e3, e4⟩ := colStore_frame (m := n) (n := n) (M := r.2.1) (a := d) (off := aoff) (ld := lda) (by omega)
    (fun i j hi hj => (List.getElem?_eq_some_iff.1 (hc i j hi hj)).1)
  obtain ⟨e', f1, f2, f3, f4⟩ := colStore_frame (m := n) (n := k) (M := r.2.2) (a := e) (off := boff) (ld := ldb) (by omega)
    (fun i j hi hj => (List.getElem?_eq_some_iff.1 (hc' i j hi hj)).1)
  refine ⟨d', e', ?_, e2, f2, rowsAt_swap e3, rowsAt_swap f3, e4, f4⟩
  unfold vendorGesv
  rw [if_neg (by omega), if_neg (by omega), colMat_ok hc]
  simp only [Outcome.ok_bind]
  rw [colMat_ok hc']
  simp only [Outcome.ok_bind]
  rw [e1]
  simp only [Outcome.ok_bind]
  rw [f1]
  rfl

omit [Zero R] in
theorem sameOutside_mono {a a' : List R} {off ld m n n' : Nat} (h : SameOutside a a' off ld m n) (hn : n ≤ n') :
    SameOutside a a' off ld m n' :=
  fun p hp => h p fun i j hi hj => hp i j hi (by omega)

/-- `gesv` for an n×n tensor and a tensor whose rows have at least n elements. -/
theorem gesvT_ok {gesv : GesvRoutine R} {n k m : Nat} (hn : 0 < n) (hm : n ≤ m) {A B : Strided R} (hs : A.strides = [n, 1])
    (hs' : B.strides = [m, 1]) {a b : Nat → Nat → R} (hA : Holds A (mat n n a)) (hB : Holds B (mat k m b)) :
    let r := gesv n k (crop n n fun i j => a j i) (crop n k fun i j => b j i)
    ∃ A' B', gesvT gesv A B = .ok (r.1, A', B') ∧ Holds A' (mat n n fun i j => r.2.1 j i) ∧
      Holds B' (mat k m fun i j => if j < n then r.2.2 j i else b i j) ∧ A.Frame A' ∧ B.Frame B' := by
  intro r
  have h := (holdsMat_iff hA.dims hs a).1 hA
  have h' := (holdsMat_iff hB.dims hs' b).1 hB
  obtain ⟨d', e', e1, e2, e3, e4, e5, e6, e7⟩ := vendorGesv_ok (gesv := gesv) (lda := n) (ldb := m) (by omega) (by omega) h
    (fun i j hi hj => h' i j hi (by omega))
  have d0 : A.dim 0 = n := by simp [Strided.dim, hA.dims]
  have b0 : B.dim 0 = k := by simp [Strided.dim, hB.dims]
  have b1 : B.dim 1 = m := by simp [Strided.dim, hB.dims]
  refine ⟨{ A with data := d' }, { B with data := e' }, ?_, ?_, ?_, frame_of_rows hA.dims hs e2 e6,
    frame_of_rows hB.dims hs' e3 (sameOutside_mono e7 hm)⟩
  · unfold gesvT
    simp only [d0, b0, b1, e1, Outcome.ok_bind]
    rfl
  · exact (holdsMat_iff (t := Strided.mk d' A.off A.dims A.strides) hA.dims hs _).2 e4
  · refine (holdsMat_iff (t := Strided.mk e' B.off B.dims B.strides) hB.dims hs' _).2 ?_
    intro i j hi hj
    show e'[B.off + i * m + j]? = some (if j < n then r.2.2 j i else b i j)
    by_cases c : j < n
    · rw [if_pos c]
      exact e5 i j hi c
    · rw [if_neg c]
      refine (e7 _ ?_).trans (h' i j hi hj)
      intro i' j' hi' hj' he
      have h1 : i * m + j = i' * m + j' := by omega
      have h2 : (i * m + j) % m = j := by rw [Nat.mul_comm, Nat.mul_add_mod, Nat.mod_eq_of_lt hj]
      have h3 : (i' * m + j') % m = j' := by rw [Nat.mul_comm, Nat.mul_add_mod, Nat.mod_eq_of_lt (by omega)]
      rw [h1, h3] at h2
      omega

end mem

/-- The solution, seen row by row. -/
theorem gesv_solution {R : Type} [CommRing R] {n k : Nat} {a b : Nat → Nat → R} {out : Nat × (Nat → Nat → R) × (Nat → Nat → R)}
    (h : IsGesv n k (crop n n fun i j => a j i) (crop n k fun i j => b j i) out) (h0 : out.1 = 0) :
    mat k n (fun i j => out.2.2 j i) * mat n n a = mat k n b := by
  have e := h.2 h0
  rw [mat_crop, mat_crop] at e
  have e := congrArg Matrix.transpose e
  rwa [Matrix.transpose_mul] at e

theorem gesv_info {R : Type} [CommRing R] [IsDomain R] {n k : Nat} {a b : Nat → Nat → R}
    {out : Nat × (Nat → Nat → R) × (Nat → Nat → R)}
    (h : IsGesv n k (crop n n fun i j => a j i) (crop n k fun i j => b j i) out) : out.1 = 0 ↔ (mat n n a).det ≠ 0 := by
  obtain ⟨⟨p, hp⟩, _⟩ := h
  have := lu_info hp
  rwa [mat_crop, mat_transpose, Matrix.det_transpose] at this

end Einsums
