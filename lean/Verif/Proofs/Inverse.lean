import Verif.Model.Inverse
import Verif.Spec.Lu
import Verif.Proofs.LapackFront
import Mathlib.LinearAlgebra.Matrix.Block
/-
Lemmas about `getrf`, `getri`, `invert`, `norm` and `det`.
-/
namespace Einsums
open Spec Model Matrix

section mem
variable {R : Type} [Zero R]

omit [Zero R] in
theorem colStore_frame {m n : Nat} {M : Nat → Nat → R} {a : List R} {off ld : Nat} (hm : m ≤ ld)
    (hb : ∀ i j, i < m → j < n → off + i + j * ld < a.length) :
    ∃ a', colStore m n M a off ld = .ok a' ∧ a'.length = a.length ∧ ColsAt a' off ld m n M ∧
      SameOutside a a' off ld n m := by
  have hinj : ((colPairs m n).map fun ij => off + ij.1 + ij.2 * ld).Nodup := by
    apply List.Nodup.map_on _ (nodup_colPairs m n)
    rintro ⟨i, j⟩ h1 ⟨i', j'⟩ h2 e
    rw [mem_colPairs] at h1 h2
    simp only at h1 h2 e
    obtain ⟨e1, e2⟩ := colPos_inj (i := i) (j := j) (i' := i') (j' := j') h1.1 h2.1 hm (by omega)
    rw [e1, e2]
  obtain ⟨a', e1, e2, e3, e4⟩ := memLoop (colPairs m n) (fun ij => off + ij.1 + ij.2 * ld)
    (fun ij _ => .ok (M ij.1 ij.2)) (fun ij _ => M ij.1 ij.2) a hinj
    (by rintro ⟨i, j⟩ h; rw [mem_colPairs] at h; exact hb i j h.1 h.2) (by intros; rfl)
  refine ⟨a', e1, e2, ?_, ?_⟩
  · intro i j hi hj
    have := e3 (i, j) (mem_colPairs.2 ⟨hi, hj⟩)
    simp only at this
    rw [this, List.getElem?_eq_getElem (hb i j hi hj)]
    rfl
  · intro p hp
    apply e4
    intro hmem
    rw [List.mem_map] at hmem
    obtain ⟨⟨i, j⟩, h1, h2⟩ := hmem
    rw [mem_colPairs] at h1
    exact hp j i h1.2 h1.1 (by rw [← h2]; simp only; omega)

omit [Zero R] in
theorem colsAt_swap {a : List R} {off ld m n : Nat} {f : Nat → Nat → R} (h : RowsAt a off ld m n f) :
    ColsAt a off ld n m fun i j => f j i := by
  intro i j hi hj
  rw [show off + i + j * ld = off + j * ld + i by omega]
  exact h j i hj hi

omit [Zero R] in
theorem rowsAt_swap {a : List R} {off ld m n : Nat} {f : Nat → Nat → R} (h : ColsAt a off ld m n f) :
    RowsAt a off ld n m fun i j => f j i := by
  intro i j hi hj
  rw [show off + i * ld + j = off + j + i * ld by omega]
  exact h j i hj hi

theorem vendorGetrf_ok {getrf : GetrfFn R} {n : Nat} {d : List R} {off lda : Nat} {a : Nat → Nat → R} (hl : max 1 n ≤ lda)
    (h : RowsAt d off lda n n a) :
    let r := getrf n n (crop n n fun i j => a j i)
    ∃ d', vendorGetrf getrf n n d off lda = .ok (r.1, d', r.2.2) ∧ d'.length = d.length ∧
      RowsAt d' off lda n n (fun i j => r.2.1 j i) ∧ SameOutside d d' off lda n n := by
  intro r
  have hc := colsAt_swap h
  obtain ⟨d', e1, e2, e3, e4⟩ := colStore_frame (m := n) (n := n) (M := r.2.1) (a := d) (off := off) (ld := lda) (by omega)
    (by
      intro i j hi hj
      have := hc i j hi hj
      exact (List.getElem?_eq_some_iff.1 this).1)
  refine ⟨d', ?_, e2, rowsAt_swap e3, e4⟩
  unfold vendorGetrf
  rw [if_neg (by omega), colMat_ok hc]
  simp only [Outcome.ok_bind]
  rw [e1]
  rfl

theorem vendorGetri_ok {getri : GetriFn R} {n : Nat} {d : List R} {off lda : Nat} {a : Nat → Nat → R} {p : List Nat}
    (hl : max 1 n ≤ lda) (h : RowsAt d off lda n n a) (hp : n ≤ p.length) :
    let r := getri n (crop n n fun i j => a j i) (fun i => p.getD i 0)
    ∃ d', vendorGetri getri n d off lda p = .ok (r.1, d') ∧ d'.length = d.length ∧
      RowsAt d' off lda n n (fun i j => r.2 j i) ∧ SameOutside d d' off lda n n := by
  intro r
  have hc := colsAt_swap h
  obtain ⟨d', e1, e2, e3, e4⟩ := colStore_frame (m := n) (n := n) (M := r.2) (a := d) (off := off) (ld := lda) (by omega)
    (by
      intro i j hi hj
      have := hc i j hi hj
      exact (List.getElem?_eq_some_iff.1 this).1)
  refine ⟨d', ?_, e2, rowsAt_swap e3, e4⟩
  unfold vendorGetri
  rw [if_neg (by omega), if_neg (by omega), colMat_ok hc]
  simp only [Outcome.ok_bind]
  rw [e1]
  rfl

omit [Zero R] in
theorem sameOutside_trans {a b c : List R} {off ld m n : Nat} (h1 : SameOutside a b off ld m n)
    (h2 : SameOutside b c off ld m n) : SameOutside a c off ld m n :=
  fun p hp => (h2 p hp).trans (h1 p hp)

omit [Zero R] in
/-- A store into the rows of a matrix view. -/
theorem frame_of_rows {A : Strided R} {m n ld : Nat} {d' : List R} (hd : A.dims = [m, n]) (hs : A.strides = [ld, 1])
    (hl : d'.length = A.data.length) (h : SameOutside A.data d' A.off ld m n) : A.Frame { A with data := d' } where
  off := rfl
  dims := rfl
  strides := rfl
  length := hl
  outside := by
    intro p hp
    apply h
    intro i j hi hj
    have := hp [i, j] (by rw [hd]; simp [InBox, hi, hj])
    rw [hs] at this
    simpa [dot, Nat.add_assoc] using this

end mem

/-! ### The algebra of the factorisation -/

section lu
variable {R : Type}

theorem interchanges_congr {m k : Nat} {p q : Nat → Nat} (h : ∀ i, i < k → p i = q i) :
    interchanges m k p = interchanges m k q := by
  unfold interchanges
  congr 1
  apply List.map_congr_left
  intro i hi
  rw [List.mem_range] at hi
  simp only [h i hi]

theorem interchanges_none {m k : Nat} {p : Nat → Nat} (h : ∀ i, i < k → p i = i + 1) : interchanges m k p = 1 := by
  unfold interchanges
  apply List.prod_eq_one
  intro x hx
  rw [List.mem_map] at hx
  obtain ⟨i, hi, rfl⟩ := hx
  rw [List.mem_range] at hi
  simp only [h i hi, Nat.add_sub_cancel, Equiv.swap_self]
  split <;> rfl

theorem unitLower_congr [Zero R] [One R] {m k : Nat} {F G : Nat → Nat → R} (h : ∀ i j, i < m → j < k → F i j = G i j) :
    unitLower m k F = unitLower m k G := by
  funext i j
  unfold unitLower
  split
  · rfl
  · split
    · exact h i j i.2 j.2
    · rfl

theorem upper_congr [Zero R] {m k : Nat} {F G : Nat → Nat → R} (h : ∀ i j, i < m → j < k → F i j = G i j) :
    mat m k (upperPart F) = mat m k (upperPart G) := by
  funext i j
  unfold mat upperPart
  split
  · rfl
  · exact h i j i.2 j.2

theorem det_unitLower [CommRing R] (n : Nat) (F : Nat → Nat → R) : (unitLower n n F).det = 1 := by
  rw [Matrix.det_of_isLowerTriangular]
  · apply Finset.prod_eq_one
    intro i _
    simp [unitLower]
  · intro i j hij
    have hij' : i < j := hij
    have : i.1 < j.1 := hij'
    unfold unitLower
    rw [if_neg (by omega), if_neg (by omega)]

theorem det_upper [CommRing R] (n : Nat) (F : Nat → Nat → R) : (mat n n (upperPart F)).det = ∏ i : Fin n, F i i := by
  rw [Matrix.det_of_isUpperTriangular]
  · apply Finset.prod_congr rfl
    intro i _
    simp [mat, upperPart]
  · intro i j hij
    have hij' : j < i := hij
    have : j.1 < i.1 := hij'
    unfold mat upperPart
    rw [if_pos this]

/-- The determinant from the factorisation. -/
theorem lu_det [CommRing R] {n : Nat} {A : Nat → Nat → R} {out : Nat × (Nat → Nat → R) × (Nat → Nat)} (h : IsLU n n A out) :
    ((Equiv.Perm.sign (interchanges n n out.2.2) : ℤ) : R) * (mat n n A).det = ∏ i : Fin n, out.2.1 i i := by
  have e := congrArg Matrix.det (show (mat n n A).submatrix (interchanges n n out.2.2) id =
    unitLower n n out.2.1 * mat n n (upperPart out.2.1) by
      have := h.eq
      revert this
      rw [Nat.min_self]
      exact id)
  rw [Matrix.det_permute, Matrix.det_mul, det_unitLower, one_mul, det_upper] at e
  exact e

theorem lu_info [CommRing R] [IsDomain R] {n : Nat} {A : Nat → Nat → R} {out : Nat × (Nat → Nat → R) × (Nat → Nat)}
    (h : IsLU n n A out) : out.1 = 0 ↔ (mat n n A).det ≠ 0 := by
  have e := lu_det h
  rw [h.info, Nat.min_self]
  have hs : ((Equiv.Perm.sign (interchanges n n out.2.2) : ℤ) : R) ≠ 0 := by
    rcases Int.units_eq_one_or (Equiv.Perm.sign (interchanges n n out.2.2)) with h | h <;> rw [h] <;> simp
  constructor
  · intro hF hdet
    rw [hdet, mul_zero] at e
    obtain ⟨i, _, hi⟩ := Finset.prod_eq_zero_iff.1 e.symm
    exact hF i i.2 hi
  · intro hdet i hi h0
    rw [Finset.prod_eq_zero (Finset.mem_univ (⟨i, hi⟩ : Fin n)) h0] at e
    exact (mul_ne_zero hs hdet) e

theorem mat_transpose (m n : Nat) (f : Nat → Nat → R) : mat n m (fun i j => f j i) = (mat m n f)ᵀ := rfl

/-- What xGETRI computes from a factorisation of `A` is a left inverse of `A`. -/
theorem getri_inverse [CommRing R] {n : Nat} {A F G : Nat → Nat → R} {p q : Nat → Nat} {out : Nat × (Nat → Nat → R)}
    (h : IsLU n n A (0, F, p)) (hG : ∀ i j, i < n → j < n → G i j = F i j) (hq : ∀ i, i < n → q i = p i)
    (hi : IsGetri n G q out) : out.1 = 0 ∧ mat n n out.2 * mat n n A = 1 := by
  have hF := h.info.1 rfl
  rw [Nat.min_self] at hF
  obtain ⟨h1, h2⟩ := hi (fun i hi => by rw [hG i i hi hi]; exact hF i hi)
  refine ⟨h1, ?_⟩
  rw [unitLower_congr hG, upper_congr hG, interchanges_congr hq] at h2
  have e : (mat n n A).submatrix (interchanges n n p) id = unitLower n n F * mat n n (upperPart F) := by
    have := h.eq
    revert this
    rw [Nat.min_self]
    exact id
  rw [← e] at h2
  rw [Matrix.submatrix_submatrix] at h2
  simpa using h2

end lu

/-! ### The functions -/

section front
variable {R : Type}

theorem getrfT_ok [Zero R] {getrf : GetrfFn R} {n ld : Nat} {A : Strided R} (hs : A.strides = [ld, 1]) (hl : max 1 n ≤ ld)
    {a : Nat → Nat → R} (hA : Holds A (mat n n a)) {pivot : List Nat} :
    let r := getrf n n (crop n n fun i j => a j i)
    ∃ A' pv, getrfT getrf A pivot = .ok (r.1, A', pv) ∧ Holds A' (mat n n fun i j => r.2.1 j i) ∧ A.Frame A' ∧
      pv.length = max pivot.length n ∧ ∀ i, i < n → pv[i]? = some (r.2.2 i) := by
  intro r
  have h := (holdsMat_iff hA.dims hs a).1 hA
  obtain ⟨d', e1, e2, e3, e4⟩ := vendorGetrf_ok (getrf := getrf) hl h
  have d0 : A.dim 0 = n := by simp [Strided.dim, hA.dims]
  have d1 : A.dim 1 = n := by simp [Strided.dim, hA.dims]
  have st : A.stride 0 = ld := by simp [Strided.stride, hs]
  refine ⟨{ A with data := d' }, (List.range (max pivot.length n)).map fun i => if i < n then r.2.2 i else pivot.getD i 0,
    ?_, ?_, frame_of_rows hA.dims hs e2 e4, ?_, ?_⟩
  · unfold getrfT
    simp only [d0, d1, st, e1, Outcome.ok_bind, Nat.min_self]
    rfl
  · exact (holdsMat_iff (t := Strided.mk d' A.off A.dims A.strides) hA.dims hs _).2 e3
  · simp
  · intro i hi
    have : i < max pivot.length n := by omega
    simp [this, hi, r]

theorem getriT_ok [Zero R] {getri : GetriFn R} {n ld : Nat} {A : Strided R} (hs : A.strides = [ld, 1]) (hl : max 1 n ≤ ld)
    {a : Nat → Nat → R} (hA : Holds A (mat n n a)) {pivot : List Nat} (hp : n ≤ pivot.length) :
    let r := getri n (crop n n fun i j => a j i) (fun i => pivot.getD i 0)
    ∃ A', getriT getri A pivot = .ok (r.1, A') ∧ Holds A' (mat n n fun i j => r.2 j i) ∧ A.Frame A' := by
  intro r
  have h := (holdsMat_iff hA.dims hs a).1 hA
  obtain ⟨d', e1, e2, e3, e4⟩ := vendorGetri_ok (getri := getri) hl h hp
  have d0 : A.dim 0 = n := by simp [Strided.dim, hA.dims]
  have st : A.stride 0 = ld := by simp [Strided.stride, hs]
  refine ⟨{ A with data := d' }, ?_, ?_, frame_of_rows hA.dims hs e2 e4⟩
  · unfold getriT
    simp only [d0, st, e1, Outcome.ok_bind]
    rfl
  · exact (holdsMat_iff (t := Strided.mk d' A.off A.dims A.strides) hA.dims hs _).2 e3

theorem frame_trans {A B C : Strided R} (h1 : A.Frame B) (h2 : B.Frame C) : A.Frame C where
  off := h2.off.trans h1.off
  dims := h2.dims.trans h1.dims
  strides := h2.strides.trans h1.strides
  length := h2.length.trans h1.length
  outside := by
    intro p hp
    rw [h2.outside p (by rw [h1.dims, h1.off, h1.strides]; exact hp), h1.outside p hp]

/-! ### The pivot loop of `det` -/

theorem detChase_runs {pivots : List Nat} {i : Nat} (hp : ∀ k c, pivots[k]? = some c → k + 1 ≤ c ∧ c ≤ pivots.length) :
    ∀ fuel curr count, i + 1 < curr → curr ≤ pivots.length → detChase pivots i fuel curr count = none := by
  intro fuel
  induction fuel with
  | zero => intros; rfl
  | succ fuel ih =>
    intro curr count h1 h2
    unfold detChase
    rw [if_neg (by omega), if_neg (by omega), List.getElem?_eq_getElem (by omega)]
    have := hp (curr - 1) _ (List.getElem?_eq_getElem (by omega))
    exact ih _ _ (by omega) this.2

theorem detParity_runs {pivots : List Nat} (hp : ∀ k c, pivots[k]? = some c → k + 1 ≤ c ∧ c ≤ pivots.length) (fuel : Nat) :
    ∀ (l : List Nat) (parity : Nat), (∃ i ∈ l, ∃ c, pivots[i]? = some c ∧ c ≠ i + 1) →
      (∀ i ∈ l, i < pivots.length) → detParity pivots fuel l parity = none := by
  intro l
  induction l with
  | nil => rintro _ ⟨i, h, _⟩; simp at h
  | cons i l ih =>
    rintro parity ⟨k, hk, c, hc, hne⟩ hl
    have hi := hl i (by simp)
    unfold detParity
    rw [List.getElem?_eq_getElem hi]
    have hb := hp i _ (List.getElem?_eq_getElem hi)
    by_cases he : pivots[i] = i + 1
    · have hki : k ≠ i := by
        rintro rfl
        rw [List.getElem?_eq_getElem hi] at hc
        simp at hc
        exact hne (hc.symm.trans he)
      have hk' : k ∈ l := by
        rcases List.mem_cons.1 hk with h | h
        · exact absurd h hki
        · exact h
      cases fuel with
      | zero => simp [detChase]
      | succ f =>
        simp only [detChase, he, if_true]
        exact ih _ ⟨k, hk', c, hc, hne⟩ (fun x hx => hl x (by simp [hx]))
    · have hlt : i + 1 < pivots[i] := by
        rcases Nat.lt_or_ge (i + 1) pivots[i] with h | h
        · exact h
        · exact absurd (Nat.le_antisymm h hb.1) he
      simp only [detChase_runs hp fuel pivots[i] 0 hlt hb.2]

theorem detParity_zero {pivots : List Nat} (fuel : Nat) :
    ∀ (l : List Nat) (parity : Nat), (∀ i ∈ l, pivots[i]? = some (i + 1)) →
      detParity pivots (fuel + 1) l parity = some (.ok parity) := by
  intro l
  induction l with
  | nil => intros; rfl
  | cons i l ih =>
    intro parity h
    unfold detParity
    rw [h i (by simp)]
    simp only [detChase, if_true]
    exact ih _ (fun k hk => h k (by simp [hk]))

theorem detFold_ok [CommRing R] {n : Nat} {A : Strided R} {a : Nat → Nat → R} (hA : Holds A (mat n n a)) (k : Nat) (hk : k ≤ n)
    (x : R) :
    (List.range k).foldlM (fun (ret : R) (i : Nat) => (do
      let x ← A.read [(i : Int), (i : Int)]
      return ret * x : Outcome R)) x = .ok (x * ∏ i : Fin k, a i i) := by
  induction k with
  | zero => simp
  | succ k ih =>
    rw [List.range_succ, List.foldlM_append, ih (by omega)]
    have := hA.elems ⟨k, by omega⟩ ⟨k, by omega⟩
    simp only [Outcome.ok_bind, List.foldlM_cons, List.foldlM_nil]
    simp only at this
    rw [this]
    simp only [Outcome.ok_bind, mat]
    rw [Fin.prod_univ_castSucc]
    simp [mul_assoc]

theorem det_cases [CommRing R] {getrf : GetrfFn R} {n ld : Nat} {A : Strided R} (hs : A.strides = [ld, 1]) (hl : max 1 n ≤ ld)
    {a : Nat → Nat → R} (hA : Holds A (mat n n a)) (lapack : IsLU n n (crop n n fun i j => a j i)
      (getrf n n (crop n n fun i j => a j i))) :
    let r := getrf n n (crop n n fun i j => a j i)
    (r.1 ≠ 0 → ∀ fuel, Model.det getrf fuel A = some (.ok 0)) ∧
    (r.1 = 0 → (∃ i, i < n ∧ r.2.2 i ≠ i + 1) → ∀ fuel, Model.det getrf fuel A = none) ∧
    (r.1 = 0 → (∀ i, i < n → r.2.2 i = i + 1) → ∀ fuel, Model.det getrf (fuel + 1) A = some (.ok (∏ i : Fin n, a i i))) := by
  intro r
  obtain ⟨A', pv, e1, _, _, e2, e3⟩ := getrfT_ok (getrf := getrf) hs hl hA (pivot := [])
  have d0 : A.dim 0 = n := by simp [Strided.dim, hA.dims]
  have d1 : A.dim 1 = n := by simp [Strided.dim, hA.dims]
  have hpv : pv.length = n := by rw [e2]; simp
  have hpiv := lapack.pivots
  rw [Nat.min_self] at hpiv
  have hp : ∀ k c, pv[k]? = some c → k + 1 ≤ c ∧ c ≤ pv.length := by
    intro k c hc
    have hk : k < n := by
      have := (List.getElem?_eq_some_iff.1 hc).1
      omega
    rw [e3 k hk] at hc
    simp only [Option.some.injEq] at hc
    rw [hpv, ← hc]
    exact hpiv k hk
  refine ⟨?_, ?_, ?_⟩
  · intro hr fuel
    unfold Model.det
    rw [if_neg (by omega), e1]
    simp only
    rw [if_pos (Nat.pos_of_ne_zero hr)]
  · rintro hr ⟨i, hi, hne⟩ fuel
    unfold Model.det
    rw [if_neg (by omega), e1]
    simp only
    rw [if_neg (Nat.not_lt.2 (Nat.le_of_eq hr)), d0, detParity_runs hp fuel (List.range n) 0 ⟨i, by simpa using hi, _, e3 i hi, hne⟩
      (by intro k hk; rw [List.mem_range] at hk; omega)]
  · intro hr hnone fuel
    unfold Model.det
    rw [if_neg (by omega), e1]
    simp only
    rw [if_neg (Nat.not_lt.2 (Nat.le_of_eq hr)), d0, detParity_zero fuel (List.range n) 0
      (by intro k hk; rw [List.mem_range] at hk; rw [e3 k hk, hnone k hk])]
    simp only [detProduct, d0]
    rw [detFold_ok hA n (Nat.le_refl n) 1, one_mul]
    rfl

end front

end Einsums
