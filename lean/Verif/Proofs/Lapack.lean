import Verif.Model.Lapack
import Verif.Proofs.Blas
/-
Lemmas about the LAPACK wrappers, at the level of memory.
-/
namespace Einsums
open Spec Model

section
variable {R : Type} [Zero R]

/-- The row-major m×n matrix at `a + off`, rows `ld` apart, has the elements `f`. -/
def RowsAt (a : List R) (off ld m n : Nat) (f : Nat → Nat → R) : Prop :=
  ∀ i j, i < m → j < n → a[off + i * ld + j]? = some (f i j)

/-- The column-major m×n matrix at `a + off` has the elements `f`. -/
def ColsAt (a : List R) (off ld m n : Nat) (f : Nat → Nat → R) : Prop :=
  ∀ i j, i < m → j < n → a[off + i + j * ld]? = some (f i j)

/-- `a'` and `a` agree outside the row-major m×n matrix. -/
def SameOutside (a a' : List R) (off ld m n : Nat) : Prop :=
  ∀ p, (∀ i j, i < m → j < n → p ≠ off + i * ld + j) → a'[p]? = a[p]?

omit [Zero R] in
theorem transposeLoop_ok {x y : Nat} {inp : List R} {ioff ldin : Nat} {out : List R} {ooff ldout : Nat}
    {f : Nat → Nat → R} (hx : x ≤ ldout) (hy : y ≤ ldin) (hin : RowsAt inp ioff ldin x y f)
    (hout : ∀ j i, j < x → i < y → ooff + i * ldout + j < out.length) :
    ∃ out', transposeLoop x y inp ioff ldin out ooff ldout = .ok out' ∧ out'.length = out.length ∧
      ColsAt out' ooff ldout x y f ∧ SameOutside out out' ooff ldout y x := by
  have hinj : ((colPairs x y).map fun ji => ooff + ji.2 * ldout + ji.1).Nodup := by
    apply List.Nodup.map_on _ (nodup_colPairs x y)
    rintro ⟨j, i⟩ h1 ⟨j', i'⟩ h2 e
    rw [mem_colPairs] at h1 h2
    simp only at h1 h2 e
    obtain ⟨e1, e2⟩ := colPos_inj (i := j) (j := i) (i' := j') (j' := i') h1.1 h2.1 hx (by omega)
    rw [e1, e2]
  obtain ⟨out', e1, e2, e3, e4⟩ := memLoop (colPairs x y) (fun ji => ooff + ji.2 * ldout + ji.1)
    (fun ji _ => memGet inp (ioff + ji.1 * ldin + ji.2)) (fun ji _ => f ji.1 ji.2) out hinj
    (by rintro ⟨j, i⟩ h; rw [mem_colPairs] at h; exact hout j i h.1 h.2)
    (by
      rintro ⟨j, i⟩ h old _
      rw [mem_colPairs] at h
      unfold memGet
      rw [hin j i h.1 h.2])
  refine ⟨out', ?_, e2, ?_, ?_⟩
  · unfold transposeLoop
    rw [Nat.min_eq_left hx, Nat.min_eq_left hy]
    exact e1
  · intro j i hj hi
    have := e3 (j, i) (mem_colPairs.2 ⟨hj, hi⟩)
    rw [List.getElem?_eq_getElem (hout j i hj hi)] at this
    rw [show ooff + j + i * ldout = ooff + i * ldout + j by omega]
    simpa using this
  · intro p hp
    apply e4
    intro h
    obtain ⟨⟨j, i⟩, h1, h2⟩ := List.mem_map.1 h
    rw [mem_colPairs] at h1
    exact hp i j h1.2 h1.1 h2.symm

theorem colMat_ok {m n : Nat} {a : List R} {off ld : Nat} {f : Nat → Nat → R} (h : ColsAt a off ld m n f) :
    colMat m n a off ld = .ok (crop m n f) := by
  unfold colMat
  rw [if_pos]
  · congr 1
    funext i j
    unfold crop
    split
    · rename_i hij
      have := h i j hij.1 hij.2
      simp [List.getD_eq_getElem?_getD, this]
    · rfl
  · rw [List.all_eq_true]
    rintro ⟨i, j⟩ hij
    rw [mem_colPairs] at hij
    have := h i j hij.1 hij.2
    simp only [decide_eq_true_eq]
    by_contra hc
    rw [List.getElem?_eq_none (by omega)] at this
    simp at this

omit [Zero R] in
theorem colStore_ok {m n : Nat} {M : Nat → Nat → R} {a : List R} {off ld : Nat} (hm : m ≤ ld)
    (hb : ∀ i j, i < m → j < n → off + i + j * ld < a.length) :
    ∃ a', colStore m n M a off ld = .ok a' ∧ a'.length = a.length ∧ ColsAt a' off ld m n M := by
  have hinj : ((colPairs m n).map fun ij => off + ij.1 + ij.2 * ld).Nodup := by
    apply List.Nodup.map_on _ (nodup_colPairs m n)
    rintro ⟨i, j⟩ h1 ⟨i', j'⟩ h2 e
    rw [mem_colPairs] at h1 h2
    simp only at h1 h2 e
    obtain ⟨e1, e2⟩ := colPos_inj (i := i) (j := j) (i' := i') (j' := j') h1.1 h2.1 hm (by omega)
    rw [e1, e2]
  obtain ⟨a', e1, e2, e3, _⟩ := memLoop (colPairs m n) (fun ij => off + ij.1 + ij.2 * ld)
    (fun ij _ => .ok (M ij.1 ij.2)) (fun ij _ => M ij.1 ij.2) a hinj
    (by rintro ⟨i, j⟩ h; rw [mem_colPairs] at h; exact hb i j h.1 h.2) (by intros; rfl)
  refine ⟨a', e1, e2, ?_⟩
  intro i j hi hj
  have := e3 (i, j) (mem_colPairs.2 ⟨hi, hj⟩)
  rw [List.getElem?_eq_getElem (hb i j hi hj)] at this
  simpa using this

/-- Positions of a column-major block fit the temporaries of the wrappers. -/
theorem col_lt {i j m n : Nat} (hi : i < m) (hj : j < n) : i + j * max 1 m < max 1 m * max 1 n := by
  have h1 : max 1 m = m := by omega
  have h2 : max 1 n = n := by omega
  rw [h1, h2]
  have : (j + 1) * m ≤ n * m := Nat.mul_le_mul_right _ hj
  rw [Nat.add_mul] at this
  rw [Nat.mul_comm m n]
  omega

omit [Zero R] in
theorem rowsAt_of_cols {a : List R} {off ld m n : Nat} {f : Nat → Nat → R} (h : ColsAt a off ld m n f) :
    RowsAt a off ld n m fun j i => f i j := by
  intro j i hj hi
  have := h i j hi hj
  rwa [show off + j * ld + i = off + i + j * ld by omega]

omit [Zero R] in
theorem rowsAt_lt {a : List R} {off ld m n : Nat} {f : Nat → Nat → R} (h : RowsAt a off ld m n f) {i j : Nat}
    (hi : i < m) (hj : j < n) : off + i * ld + j < a.length := by
  by_contra hc
  have := h i j hi hj
  rw [List.getElem?_eq_none (by omega)] at this
  simp at this

theorem toColumns_ok {m n : Nat} {a : List R} {off lda : Nat} {f : Nat → Nat → R} (hn : n ≤ lda)
    (h : RowsAt a off lda m n f) :
    ∃ t, transposeRow m n a off lda (List.replicate (max 1 m * max 1 n) 0) 0 (max 1 m) = .ok t ∧
      t.length = max 1 m * max 1 n ∧ colMat m n t 0 (max 1 m) = .ok (crop m n f) := by
  obtain ⟨t, e1, e2, e3, _⟩ := transposeLoop_ok (x := m) (y := n) (out := List.replicate (max 1 m * max 1 n) 0)
    (ooff := 0) (ldout := max 1 m) (by omega) hn h
    (by
      intro j i hj hi
      have := col_lt hj hi
      simp only [List.length_replicate]
      omega)
  exact ⟨t, e1, by simpa using e2, colMat_ok e3⟩

theorem viaColumns_ok {β : Type} {m n : Nat} {a : List R} {off lda : Nat} {f : Nat → Nat → R} (hn : n ≤ lda)
    (h : RowsAt a off lda m n f) {call : Mat R → Outcome (Mat R × β)} {r : Mat R × β}
    (hc : call (crop m n f) = .ok r) :
    ∃ a', viaColumns m n a off lda call = .ok (a', r.2) ∧ a'.length = a.length ∧ RowsAt a' off lda m n r.1 ∧
      SameOutside a a' off lda m n := by
  obtain ⟨t, e1, e2, e3⟩ := toColumns_ok hn h
  obtain ⟨t', s1, s2, s3⟩ := colStore_ok (m := m) (n := n) (M := r.1) (a := t) (off := 0) (ld := max 1 m) (by omega)
    (by intro i j hi hj; have := col_lt hi hj; omega)
  obtain ⟨a', b1, b2, b3, b4⟩ := transposeLoop_ok (x := n) (y := m) (out := a) (ooff := off) (ldout := lda) hn
    (by omega) (rowsAt_of_cols s3) (by intro j i hj hi; exact rowsAt_lt h hi hj)
  refine ⟨a', ?_, b2, ?_, b4⟩
  · unfold viaColumns
    simp only [e1, e3, hc, s1, Outcome.ok_bind]
    unfold transposeColumn
    rw [b1]
    rfl
  · intro i j hi hj
    have := b3 j i hj hi
    rwa [show off + j + i * lda = off + i * lda + j by omega] at this

theorem storeColumns_ok {r c : Nat} {M : Mat R} {u : List R} {off ldu : Nat} (hc : c ≤ ldu)
    (hu : ∀ i j, i < r → j < c → off + i * ldu + j < u.length) :
    ∃ u', storeColumns r c c (max 1 r) M u off ldu r = .ok u' ∧ u'.length = u.length ∧ RowsAt u' off ldu r c M ∧
      SameOutside u u' off ldu r c := by
  obtain ⟨t, s1, s2, s3⟩ := colStore_ok (m := r) (n := c) (M := M) (a := List.replicate (max 1 r * max 1 c) 0)
    (off := 0) (ld := max 1 r) (by omega)
    (by intro i j hi hj; have := col_lt hi hj; simp only [List.length_replicate]; omega)
  obtain ⟨u', b1, b2, b3, b4⟩ := transposeLoop_ok (x := c) (y := r) (out := u) (ooff := off) (ldout := ldu) hc
    (by omega) (rowsAt_of_cols s3) (by intro j i hj hi; exact hu i j hi hj)
  refine ⟨u', ?_, b2, ?_, b4⟩
  · unfold storeColumns
    simp only [s1, Outcome.ok_bind]
    exact b1
  · intro i j hi hj
    have := b3 j i hj hi
    rwa [show off + j + i * ldu = off + i * ldu + j by omega] at this

end
end Einsums
