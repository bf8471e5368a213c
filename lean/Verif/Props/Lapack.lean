import Verif.Proofs.LapackFront
import Mathlib.Data.Rat.Defs
/-
C98–C100: QR and singular value decompositions.

The LAPACK routines are arbitrary functions; each theorem assumes of them what LAPACK documents, at the arguments they are
called with (`IsQR`, `IsOrgqr`, `IsSvd`, `IsThinSvd` in Spec/Factor.lean).  `Holds t M`: the tensor `t` holds the matrix `M`.
-/
namespace Einsums.Props
open Spec Model Matrix

/-! ### C98 -/

/-- **C98 (the factorisation).** For every m×n tensor: `qr` returns the reflectors and R in a new m×n tensor and tau in a
vector of min(m, n): the product of the reflectors is orthogonal, and times the part of the result on and above the diagonal it
is the argument. -/
theorem C98_qr {R : Type} [CommRing R] (geqrf : GeqrfFn R) (m n : Nat) (A : Strided R) (w : A.IsTensor)
    (a : Nat → Nat → R) (hA : Holds A (mat m n a))
    (lapack : IsQR m n (crop m n a) (geqrf m n (crop m n a))) :
    ∃ QR tau, qr geqrf A = .ok (QR, tau) ∧ ∃ (F : Nat → Nat → R) (t : Nat → R), Holds QR (mat m n F) ∧
      HoldsVec tau (fun i : Fin (min m n) => t i) ∧
      (reflectors m (min m n) F t)ᵀ * reflectors m (min m n) F t = 1 ∧
      reflectors m (min m n) F t * mat m n (upperPart F) = mat m n a := by
  obtain ⟨QR, e1, _, e2⟩ := qr_ok (geqrf := geqrf) w hA
  refine ⟨_, _, e1, _, _, e2, holdsVec_list _ _ (fun _ => rfl), lapack.1, ?_⟩
  rw [lapack.2, mat_crop]

/-- **C98.** For every n×n tensor: `q(qr(A))` is an orthogonal matrix Q with Q·R = A, where R is the part of the first
result of `qr` on and above the diagonal.  Missing: matrices that are not square (refuted below). -/
theorem C98_q_partial {R : Type} [CommRing R] (geqrf : GeqrfFn R) (orgqr : OrgqrFn R) (n : Nat) (A : Strided R)
    (w : A.IsTensor) (a : Nat → Nat → R) (hA : Holds A (mat n n a))
    (lapack : IsQR n n (crop n n a) (geqrf n n (crop n n a)))
    (lapack' : ∀ F t, IsOrgqr n n n F t (orgqr n n n F t)) :
    ∃ QR tau Q, qr geqrf A = .ok (QR, tau) ∧ qrQ orgqr QR tau = .ok Q ∧
      ∃ q r : Nat → Nat → R, Holds Q (mat n n q) ∧ Holds QR (mat n n r) ∧
        (mat n n q)ᵀ * mat n n q = 1 ∧ mat n n q * mat n n (upperPart r) = mat n n a := by
  obtain ⟨QR, e1, w2, e2⟩ := qr_ok (geqrf := geqrf) w hA
  obtain ⟨Q, q1, _, q2⟩ := qrQ_ok (orgqr := orgqr) (tau := ⟨(List.range (min n n)).map (geqrf n n (crop n n a)).2, 0,
    [min n n], [1]⟩) w2 e2 (by simp)
  refine ⟨_, _, _, e1, q1, _, _, q2, e2, ?_⟩
  have key : mat n n (orgqr n n n (crop n n (geqrf n n (crop n n a)).1)
      fun i => ((List.range (min n n)).map (geqrf n n (crop n n a)).2).getD i 0) =
      reflectors n (min n n) (geqrf n n (crop n n a)).1 (geqrf n n (crop n n a)).2 := by
    funext i j
    have := lapack' (crop n n (geqrf n n (crop n n a)).1)
      (fun i => ((List.range (min n n)).map (geqrf n n (crop n n a)).2).getD i 0) i j j.2
    rw [mat, this, Nat.min_self]
    refine congrFun (congrFun (reflectors_congr ?_ ?_) i) _
    · intro i hi
      simp [List.getD_eq_getElem?_getD, hi]
    · intro i j hi hj
      rw [crop, if_pos ⟨hi, hj⟩]
  rw [key]
  refine ⟨lapack.1, ?_⟩
  rw [lapack.2, mat_crop]

/-- **C98 (refuted for matrices with fewer rows than columns).** `q` takes the number of columns for the order of Q: for
every such argument it reads outside the storage. -/
theorem C98_wide_refuted {R : Type} [CommRing R] (orgqr : OrgqrFn R) (p m : Nat) (hp : p < m) (QR tau : Strided R)
    (w : QR.IsTensor) (d : QR.dims = [p, m]) (ht : p ≤ tau.data.length) : (qrQ orgqr QR tau).isUb = true := by
  have d0 : QR.dim 0 = p := by simp [Strided.dim, d]
  have d1 : QR.dim 1 = m := by simp [Strided.dim, d]
  have hlen : QR.data.length = p * m := by rw [w.length, d]; simp [numel]
  unfold qrQ
  simp only [d0, d1]
  unfold vendorOrgqr
  rw [if_neg (by omega), if_neg (by omega), if_neg (by omega)]
  have key : (transposeRow m m QR.data 0 m (List.replicate (max 1 m * max 1 m) 0) 0 (max 1 m)).isUb = true := by
    unfold transposeRow transposeLoop
    apply memFold_ub
    · rintro ⟨j, i⟩ _ old
      unfold memGet
      split <;> rfl
    · refine ⟨(p, 0), mem_colPairs.2 ⟨by simp only; omega, by simp only; omega⟩, fun old => ?_⟩
      unfold memGet
      rw [List.getElem?_eq_none (by simp only; omega)]
      rfl
  unfold viaColumns
  dsimp only
  generalize transposeRow m m QR.data 0 m (List.replicate (max 1 m * max 1 m) 0) 0 (max 1 m) = z at key ⊢
  cases z with
  | ok x => simp [Outcome.isUb] at key
  | error x => simp [Outcome.isUb] at key
  | ub x => rfl

/-- **C98 (refuted for matrices with more rows than columns).** For every such argument LAPACK rejects the call and the
program aborts. -/
theorem C98_tall_refuted {R : Type} [CommRing R] (orgqr : OrgqrFn R) (p m : Nat) (hp : m < p) (QR tau : Strided R)
    (d : QR.dims = [p, m]) : (qrQ orgqr QR tau).isError = true := by
  have d0 : QR.dim 0 = p := by simp [Strided.dim, d]
  have d1 : QR.dim 1 = m := by simp [Strided.dim, d]
  unfold qrQ
  simp only [d0, d1]
  unfold vendorOrgqr
  rw [if_neg (by omega), if_pos (by omega)]
  rfl

/-! #### An instance: [[3, 1], [4, 2]], and what LAPACK returns for it -/

/-- A matrix given by its rows. -/
def ofRows (l : List (List ℚ)) : Nat → Nat → ℚ := fun i j => (l.getD i []).getD j 0

/-- The tensor [[3, 1], [4, 2]]. -/
def qrA : Strided ℚ := ⟨[3, 1, 4, 2], 0, [2, 2], [2, 1]⟩

theorem holds_ofRows {m n : Nat} (t : Strided ℚ) (d : t.dims = [m, n]) (l : List (List ℚ))
    (h : ∀ (i : Fin m) (j : Fin n), t.read [(i.1 : Int), (j.1 : Int)] = .ok (ofRows l i j)) : Holds t (mat m n (ofRows l)) :=
  ⟨d, h⟩

theorem matrix_ext_rat {m n : Nat} {M N : Matrix (Fin m) (Fin n) ℚ}
    (h : ∀ (i : Fin m) (j : Fin n), decide (M i j = N i j) = true) : M = N := by
  ext i j
  exact of_decide_eq_true (h i j)

/-- Reflectors, R and tau of `qrA`. -/
def qrOut : (Nat → Nat → ℚ) × (Nat → ℚ) := (ofRows [[-5, -11/5], [1/2, 2/5]], fun i => if i = 0 then 8/5 else 0)

theorem qrA_isQR : IsQR 2 2 (crop 2 2 (ofRows [[3, 1], [4, 2]])) qrOut := by
  constructor
  · exact matrix_ext_rat (by decide +kernel)
  · exact matrix_ext_rat (by decide +kernel)

/-- ORGQR itself. -/
def orgqrQ : OrgqrFn ℚ := fun m _ k F tau i j =>
  if h : i < m ∧ j < m then reflectors m k F tau ⟨i, h.1⟩ ⟨j, h.2⟩ else 0

example : ∃ QR tau Q, qr (fun _ _ _ => qrOut) qrA = .ok (QR, tau) ∧ qrQ orgqrQ QR tau = .ok Q ∧
      ∃ q r : Nat → Nat → ℚ, Holds Q (mat 2 2 q) ∧ Holds QR (mat 2 2 r) ∧
        (mat 2 2 q)ᵀ * mat 2 2 q = 1 ∧ mat 2 2 q * mat 2 2 (upperPart r) = mat 2 2 (ofRows [[3, 1], [4, 2]]) :=
  C98_q_partial _ orgqrQ 2 qrA ⟨rfl, by decide, by decide⟩ _ (holds_ofRows _ rfl _ (by decide +kernel)) qrA_isQR
    (fun F t i j h => by simp [orgqrQ, h])

example : ∃ QR tau, qr (fun _ _ _ => qrOut) qrA = .ok (QR, tau) := by
  obtain ⟨QR, tau, h, _⟩ := C98_qr (fun _ _ _ => qrOut) 2 2 qrA ⟨rfl, by decide, by decide⟩ _
    (holds_ofRows _ rfl _ (by decide +kernel)) qrA_isQR
  exact ⟨QR, tau, h⟩

example : (qrQ orgqrQ ⟨[1, 2], 0, [1, 2], [2, 1]⟩ ⟨[1], 0, [1], [1]⟩).isUb = true :=
  C98_wide_refuted orgqrQ 1 2 (by decide) _ _ ⟨rfl, by decide, by decide⟩ rfl (by decide)

/-! ### C99 -/

/-- **C99 (all vectors).** For every m×n tensor: `svd_dd(A)` returns an orthogonal m×m U, min(m, n) values and an
orthogonal n×n Vt with A = U·Σ·Vt. -/
theorem C99_all {R : Type} [CommRing R] (gesdd : GesddFn R) (m n : Nat) (A : Strided R) (w : A.IsTensor)
    (a : Nat → Nat → R) (hA : Holds A (mat m n a))
    (lapack : IsSvd m n (crop m n a) (gesdd .all m n (crop m n a)).s (gesdd .all m n (crop m n a)).u
      (gesdd .all m n (crop m n a)).vt) :
    ∃ U S Vt, svdDd gesdd A .all = .ok (U, S, Vt) ∧ ∃ (u v : Nat → Nat → R) (s : Nat → R), Holds U (mat m m u) ∧
      HoldsVec S (fun i : Fin (min m n) => s i) ∧ Holds Vt (mat n n v) ∧
      (mat m m u)ᵀ * mat m m u = 1 ∧ mat n n v * (mat n n v)ᵀ = 1 ∧
      mat m m u * diagRect m n s * mat n n v = mat m n a := by
  obtain ⟨U, S, Vt, e1, e2, e3, e4⟩ := svdDd_ok (gesdd := gesdd) w hA (Or.inl rfl)
  simp only [if_true, mat_crop] at e2 e4
  refine ⟨U, S, Vt, e1, _, _, _, e2, e3, e4, lapack.left, lapack.right, ?_⟩
  rw [lapack.eq, mat_crop]

/-- **C99 (the first vectors).** With `Vectors::Some` the first min(m, n) columns of U and rows of Vt are the singular
vectors, A = U·Σ·Vt, and the rest of U and Vt is zero.  Missing: `Vectors::Overwrite` (refuted below). -/
theorem C99_some_partial {R : Type} [CommRing R] (gesdd : GesddFn R) (m n : Nat) (A : Strided R) (w : A.IsTensor)
    (a : Nat → Nat → R) (hA : Holds A (mat m n a))
    (lapack : IsThinSvd m n (crop m n a) (gesdd .some m n (crop m n a)).s (gesdd .some m n (crop m n a)).u
      (gesdd .some m n (crop m n a)).vt) :
    ∃ U S Vt, svdDd gesdd A .some = .ok (U, S, Vt) ∧ ∃ (u v : Nat → Nat → R) (s : Nat → R), Holds U (mat m m u) ∧
      HoldsVec S (fun i : Fin (min m n) => s i) ∧ Holds Vt (mat n n v) ∧
      (mat m (min m n) u)ᵀ * mat m (min m n) u = 1 ∧ mat (min m n) n v * (mat (min m n) n v)ᵀ = 1 ∧
      mat m (min m n) u * Matrix.diagonal (fun i : Fin (min m n) => s i) * mat (min m n) n v = mat m n a ∧
      (∀ i j, min m n ≤ j → u i j = 0) ∧ (∀ i j, min m n ≤ i → v i j = 0) := by
  obtain ⟨U, S, Vt, e1, e2, e3, e4⟩ := svdDd_ok (gesdd := gesdd) w hA (Or.inr rfl)
  rw [if_neg (by decide)] at e2 e4
  refine ⟨U, S, Vt, e1, _, _, _, e2, e3, e4, ?_⟩
  rw [mat_crop, mat_crop]
  refine ⟨lapack.left, lapack.right, by rw [lapack.eq, mat_crop], ?_, ?_⟩
  · intro i j hj
    rw [crop, if_neg (by omega)]
  · intro i j hi
    rw [crop, if_neg (by omega)]

/-- **C99 (refuted for `Overwrite`, at least as many rows as columns).** For every argument and every LAPACK: if the call
returns, U is zero: the vectors are left in the copy of the argument, which is lost. -/
theorem C99_overwrite_refuted {R : Type} [CommRing R] (gesdd : GesddFn R) (m n : Nat) (hmn : n ≤ m) (A U S Vt : Strided R)
    (d : A.dims = [m, n]) (h : svdDd gesdd A .overwrite = .ok (U, S, Vt)) : Holds U (0 : Matrix (Fin m) (Fin m) R) := by
  have d0 : A.dim 0 = m := by simp [Strided.dim, d]
  have d1 : A.dim 1 = n := by simp [Strided.dim, d]
  unfold svdDd at h
  simp only [d0, d1] at h
  unfold vendorGesdd at h
  have hU : decide (Job.overwrite = .all ∨ Job.overwrite = .some ∨ (True ∧ m < n)) = false := by
    simp; omega
  simp only [hU] at h
  split at h
  · simp at h
  split at h
  · simp at h
  split at h
  · simp at h
  simp only [Bool.false_eq_true, if_false] at h
  have hU0 : U = ⟨List.replicate (m * m) 0, 0, [m, m], [m, 1]⟩ := by
    cases h1 : transposeRow m n A.data 0 n (List.replicate (max 1 m * max 1 n) 0) 0 (max 1 m) with
    | error e => simp [h1] at h
    | ub e => simp [h1] at h
    | ok t =>
      simp only [h1, Outcome.ok_bind] at h
      cases h2 : colMat m n t 0 (max 1 m) with
      | error e => simp [h2] at h
      | ub e => simp [h2] at h
      | ok M =>
        simp only [h2, Outcome.ok_bind] at h
        split at h
        · generalize storeColumns (R := R) _ _ _ _ _ _ _ _ _ = z at h
          cases z with
          | error e => simp at h
          | ub e => simp at h
          | ok v => simp at h; exact h.1.symm
        · simp at h; exact h.1.symm
  subst hU0
  have : (0 : Matrix (Fin m) (Fin m) R) = mat m m fun _ _ => 0 := rfl
  rw [this, holdsMat_iff (ld := m) rfl rfl]
  intro i j hi hj
  have := sq_lt hi hj
  simp [this]

/-- **C99 (refuted for `Overwrite`, more columns than rows).** With at least two rows the program aborts for every such
argument: the wrapper passes LAPACK the leading dimension 1 for U. -/
theorem C99_overwrite_wide {R : Type} [CommRing R] (gesdd : GesddFn R) (m n : Nat) (hm : 2 ≤ m) (hmn : m < n)
    (A : Strided R) (d : A.dims = [m, n]) : (svdDd gesdd A .overwrite).isError = true := by
  have d0 : A.dim 0 = m := by simp [Strided.dim, d]
  have d1 : A.dim 1 = n := by simp [Strided.dim, d]
  unfold svdDd
  simp only [d0, d1]
  unfold vendorGesdd
  have hU : decide (Job.overwrite = .all ∨ Job.overwrite = .some ∨ (True ∧ m < n)) = true := by
    simp; omega
  have c1 : gesddNrowsU .overwrite m = 1 := rfl
  simp only [hU, c1]
  rw [if_neg (by omega)]
  split
  · rfl
  · rw [if_neg (by omega), if_pos ⟨trivial, by omega⟩]
    rfl

/-! #### An instance: a 2×3 matrix and its singular value decomposition -/

def svdA : Strided ℚ := ⟨[-4/5, 0, 6/5, 3/5, 0, 8/5], 0, [2, 3], [3, 1]⟩
def svdU : Nat → Nat → ℚ := ofRows [[3/5, -4/5], [4/5, 3/5]]
def svdVt : Nat → Nat → ℚ := ofRows [[0, 0, 1], [1, 0, 0], [0, 1, 0]]
def svdS : Nat → ℚ := fun i => if i = 0 then 2 else 1

theorem svdA_holds : Holds svdA (mat 2 3 (ofRows [[-4/5, 0, 6/5], [3/5, 0, 8/5]])) :=
  holds_ofRows _ rfl _ (by decide +kernel)

theorem svdA_isSvd : IsSvd 2 3 (crop 2 3 (ofRows [[-4/5, 0, 6/5], [3/5, 0, 8/5]])) svdS svdU svdVt := by
  constructor
  · exact matrix_ext_rat (by decide +kernel)
  · exact matrix_ext_rat (by decide +kernel)
  · exact matrix_ext_rat (by decide +kernel)

theorem svdA_isThinSvd : IsThinSvd 2 3 (crop 2 3 (ofRows [[-4/5, 0, 6/5], [3/5, 0, 8/5]])) svdS svdU svdVt := by
  constructor
  · exact matrix_ext_rat (by decide +kernel)
  · exact matrix_ext_rat (by decide +kernel)
  · exact matrix_ext_rat (by decide +kernel)

example : ∃ U S Vt, svdDd (fun _ _ _ _ => ⟨svdS, svdU, svdVt⟩) svdA .all = .ok (U, S, Vt) := by
  obtain ⟨U, S, Vt, h, _⟩ := C99_all (fun _ _ _ _ => ⟨svdS, svdU, svdVt⟩) 2 3 svdA ⟨rfl, by decide, by decide⟩ _ svdA_holds
    svdA_isSvd
  exact ⟨U, S, Vt, h⟩

example : ∃ U S Vt, svdDd (fun _ _ _ _ => ⟨svdS, svdU, svdVt⟩) svdA .some = .ok (U, S, Vt) := by
  obtain ⟨U, S, Vt, h, _⟩ := C99_some_partial (fun _ _ _ _ => ⟨svdS, svdU, svdVt⟩) 2 3 svdA ⟨rfl, by decide, by decide⟩ _
    svdA_holds svdA_isThinSvd
  exact ⟨U, S, Vt, h⟩

example : (svdDd (fun _ _ _ _ => ⟨svdS, svdU, svdVt⟩) svdA .overwrite).isError = true :=
  C99_overwrite_wide _ 2 3 (by decide) (by decide) svdA rfl

example : ∃ U S Vt, svdDd (fun _ _ _ _ => ⟨svdS, svdU, svdVt⟩) qrA .overwrite = .ok (U, S, Vt) ∧
    Holds U (0 : Matrix (Fin 2) (Fin 2) ℚ) :=
  ⟨_, _, _, rfl, C99_overwrite_refuted (fun _ _ _ _ => ⟨svdS, svdU, svdVt⟩) 2 2 (Nat.le_refl 2) qrA _ _ _ rfl rfl⟩

/-! ### C100 -/

/-- **C100 (the wrapper).** `blas::gesvd` with 'A', 'A' and a `superb` of at least min(m, n) - 1 elements: U and Vt are
orthogonal and A = U·Σ·Vt.  Missing: `svd` and `svd_nullspace` call it with a shorter `superb` (refuted below). -/
theorem C100_gesvd_partial {R : Type} [CommRing R] (gesvd : GesvdFn R) (work : Nat → R) (m n : Nat) (hm : 0 < m)
    (A : Strided R) (w : A.IsTensor) (a : Nat → Nat → R) (hA : Holds A (mat m n a)) (superb : List R)
    (hs : min m n - 1 ≤ superb.length)
    (lapack : IsSvd m n (crop m n a) (gesvd true m n (crop m n a)).s (gesvd true m n (crop m n a)).u
      (gesvd true m n (crop m n a)).vt) :
    ∃ s u v, vendorGesvd gesvd work true m n A.data n (List.replicate (m * m) 0) m (List.replicate (n * n) 0) n superb =
        .ok (s, u, v) ∧ ∃ fu fv : Nat → Nat → R,
      Holds ⟨u, 0, [m, m], [m, 1]⟩ (mat m m fu) ∧ Holds ⟨v, 0, [n, n], [n, 1]⟩ (mat n n fv) ∧
      (mat m m fu)ᵀ * mat m m fu = 1 ∧ mat n n fv * (mat n n fv)ᵀ = 1 ∧
      mat m m fu * diagRect m n s * mat n n fv = mat m n a := by
  have s := tensor_strides2 w hA.dims
  have h := (holdsMat_iff hA.dims s a).1 hA
  rw [w.off] at h
  obtain ⟨u', v', e1, _, e2, e3⟩ := vendorGesvd_ok (gesvd := gesvd) (work := work) (Nat.le_refl n) h true superb hm
  refine ⟨_, _, _, e1 hs, _, _, e2 rfl, e3, lapack.left, lapack.right, ?_⟩
  rw [lapack.eq, mat_crop]

/-- **C100 (refuted).** For every LAPACK and every matrix with at least two rows and two columns, `svd` and `svd_nullspace`
write outside the storage of `superb`. -/
theorem C100_svd_refuted {R : Type} [CommRing R] (gesvd : GesvdFn R) (work : Nat → R) (sqrt : R → R) (m n : Nat)
    (hm : 2 ≤ m) (hn : 2 ≤ n) (A : Strided R) (w : A.IsTensor) (a : Nat → Nat → R) (hA : Holds A (mat m n a)) :
    (svd gesvd work A).isUb = true ∧ (svdNullspace sqrt gesvd work A).isUb = true := by
  have s := tensor_strides2 w hA.dims
  have h := (holdsMat_iff hA.dims s a).1 hA
  rw [w.off] at h
  have d0 : A.dim 0 = m := by simp [Strided.dim, hA.dims]
  have d1 : A.dim 1 = n := by simp [Strided.dim, hA.dims]
  have st : A.stride 0 = n := by simp [Strided.stride, s]
  have key : ∀ b, ∃ e, vendorGesvd gesvd work b m n A.data n (List.replicate (m * m) 0) m (List.replicate (n * n) 0) n
      (List.replicate (min m n - 2) 0) = .ub e := by
    intro b
    obtain ⟨_, _, _, e, _⟩ := vendorGesvd_ok (gesvd := gesvd) (work := work) (Nat.le_refl n) h b
      (List.replicate (min m n - 2) 0) (by omega)
    have := e (by simp; omega)
    revert this
    generalize vendorGesvd gesvd work b m n A.data n (List.replicate (m * m) 0) m (List.replicate (n * n) 0) n
      (List.replicate (min m n - 2) 0) = z
    intro this
    cases z with
    | ok x => simp [Outcome.isUb] at this
    | error x => simp [Outcome.isUb] at this
    | ub x => exact ⟨x, rfl⟩
  have hsz : superbSize m n = .ok (min m n - 2) := by
    unfold superbSize
    rw [if_neg (by omega)]
  constructor
  · unfold svd
    obtain ⟨e, he⟩ := key true
    simp only [d0, d1, st, hsz, Outcome.ok_bind, he]
    rfl
  · unfold svdNullspace
    obtain ⟨e, he⟩ := key false
    simp only [d0, d1, st, hsz, Outcome.ok_bind, he]
    rfl

/-- **C100 (refuted).** With one row or one column they throw: the length of `superb` wraps round. -/
theorem C100_vector_refuted {R : Type} [CommRing R] (gesvd : GesvdFn R) (work : Nat → R) (sqrt : R → R) (m n : Nat)
    (h : min m n < 2) (A : Strided R) (d : A.dims = [m, n]) :
    (svd gesvd work A).isError = true ∧ (svdNullspace sqrt gesvd work A).isError = true := by
  have d0 : A.dim 0 = m := by simp [Strided.dim, d]
  have d1 : A.dim 1 = n := by simp [Strided.dim, d]
  have hsz : superbSize m n = .error "std::length_error" := by
    unfold superbSize
    rw [if_pos h]
  constructor
  · unfold svd
    simp only [d0, d1, hsz]
    rfl
  · unfold svdNullspace
    simp only [d0, d1, hsz]
    rfl

example : ∃ s u v, vendorGesvd (fun _ _ _ _ => ⟨svdS, svdU, svdVt⟩) (fun _ => 0) true 2 3 svdA.data 3
    (List.replicate (2 * 2) 0) 2 (List.replicate (3 * 3) 0) 3 [0] = .ok (s, u, v) := by
  obtain ⟨s, u, v, h, _⟩ := C100_gesvd_partial (fun _ _ _ _ => ⟨svdS, svdU, svdVt⟩) (fun _ => 0) 2 3 (by decide) svdA
    ⟨rfl, by decide, by decide⟩ _ svdA_holds [0] (by decide) svdA_isSvd
  exact ⟨s, u, v, h⟩

example : (svd (fun _ _ _ _ => ⟨svdS, svdU, svdVt⟩) (fun _ => 0) svdA).isUb = true :=
  (C100_svd_refuted _ _ id 2 3 (by decide) (by decide) svdA ⟨rfl, by decide, by decide⟩ _ svdA_holds).1

end Einsums.Props
