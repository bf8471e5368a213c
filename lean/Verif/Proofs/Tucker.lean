import Verif.Model.Tucker
import Verif.Proofs.Als
import Verif.Proofs.LapackFront
import Verif.Proofs.MatrixForm
import Verif.Proofs.PyBlas
/-
Proofs about the Tucker decompositions.
-/
namespace Einsums
open Spec Model Props

/-! ### Collecting results in a vector -/

theorem collect_ok {α : Type} (f : Nat → Outcome α) (P : Nat → α → Prop) (n : Nat) (h : ∀ i, i < n → ∃ x, f i = .ok x ∧ P i x) :
    ∃ l : List α, (List.range n).foldlM (fun us i => do
      let u ← f i
      return us ++ [u]) [] = Outcome.ok l ∧ l.length = n ∧ ∀ i, i < n → ∃ x, l[i]? = some x ∧ P i x := by
  induction n with
  | zero => exact ⟨[], rfl, rfl, fun i h => absurd h (by omega)⟩
  | succ k ih =>
    obtain ⟨us, h1, h2, h3⟩ := ih fun i hi => h i (by omega)
    obtain ⟨x, x1, x2⟩ := h k (by omega)
    refine ⟨us ++ [x], ?_, by simp [h2], ?_⟩
    · rw [List.range_succ, List.foldlM_append, h1]
      simp only [Outcome.ok_bind, List.foldlM_cons, List.foldlM_nil, x1, pure_bind]
      rfl
    · intro i hi
      by_cases e : i = k
      · subst e
        exact ⟨x, by rw [← h2]; simp, x2⟩
      · obtain ⟨y, y1, y2⟩ := h3 i (by omega)
        exact ⟨y, by rw [List.getElem?_append_left (by omega)]; exact y1, y2⟩

section
variable {R : Type} [CommRing R]

omit [CommRing R] in
theorem svdDd_shape [Zero R] {gesdd : GesddFn R} {A U S Vt : Strided R} {job : Job} (h : svdDd gesdd A job = .ok (U, S, Vt)) :
    U.off = 0 ∧ U.strides = [A.dim 0, 1] ∧ U.dims = [A.dim 0, A.dim 0] := by
  unfold svdDd at h
  obtain ⟨r, _, e⟩ := ok_of_bind h
  simp only [pure, Outcome.ok.injEq, Prod.mk.injEq] at e
  rw [← e.1]
  exact ⟨rfl, rfl, rfl⟩

omit [CommRing R] in
theorem leadingColumns_ok (z : Nat → R) {U : Strided R} {m rank : Nat} (o : U.off = 0) (s : U.strides = [m, 1]) {u : Nat → Nat → R}
    (h : Holds U (mat m m u)) (hr : rank ≤ m) :
    ∃ f, leadingColumns z U rank = .ok f ∧ f.IsTensor ∧ f.dims = [m, rank] ∧ f.Represents fun i => u (i.getD 0 0) (i.getD 1 0) := by
  let v : Strided R := ⟨U.data, 0, [m, rank], [m, 1]⟩
  have hv : U.sub [.all, .range 0 rank] = .ok v := by
    unfold Strided.sub
    rw [if_neg (by simp [h.dims])]
    simp [h.dims, s, subLoop, subStep, mkView, o, innerProduct, v]
    rw [if_neg (by omega), if_neg (show ¬ ((rank : Int) < 0) by omega), if_neg (by omega)]
    simp
  have rv : v.Represents fun i => u (i.getD 0 0) (i.getD 1 0) := by
    intro i hi
    obtain ⟨a, b, rfl, ha, hb⟩ := inBox2_cases (show InBox i [m, rank] from hi)
    have := (read2_iff h.dims s _).1 (h.elems ⟨a, ha⟩ ⟨b, by omega⟩)
    rw [o] at this
    exact (read2_iff (t := v) rfl rfl _).2 this
  obtain ⟨f, f1, f2, f3, f4⟩ := C11_of_view z v _ rv (by simp [v])
  refine ⟨f, ?_, f2, f3, f4⟩
  unfold leadingColumns
  rw [hv]
  exact f1

theorem tuckerFactor_ok (gesdd : GesddFn R) (z : Nat → R) {folds : List (Strided R)} {ranks : List Nat} {i d k r : Nat} {f : Strided R}
    (hf : folds[i]? = some f) (w : f.IsTensor) {a : Nat → Nat → R} (hA : Holds f (mat d k a)) (hr : ranks[i]? = some r) (hrd : r ≤ d) :
    ∃ x, tuckerFactor gesdd z folds ranks i = .ok x ∧ x.IsTensor ∧ x.dims = [d, r] ∧
      x.Represents fun i => (gesdd .all d k (crop d k a)).u (i.getD 0 0) (i.getD 1 0) := by
  obtain ⟨U, S, Vt, e1, e2, _, _⟩ := svdDd_ok (gesdd := gesdd) w hA (Or.inl rfl)
  obtain ⟨o, s, _⟩ := svdDd_shape e1
  have d0 : f.dim 0 = d := by simp [Strided.dim, hA.dims]
  rw [d0] at s
  simp only [if_true, mat_crop] at e2
  obtain ⟨x, x1, x2, x3, x4⟩ := leadingColumns_ok z o s e2 hrd
  refine ⟨x, ?_, x2, x3, x4⟩
  unfold tuckerFactor
  rw [hr]
  simp only [factorAt, hf, Outcome.ok_bind, e1]
  exact x1

/-- What the folds hold: the matrix `A m` of `dims[m]` rows and `K m` columns. -/
def FoldsHold (dims : List Nat) (K : Nat → Nat) (A : Nat → Nat → Nat → R) (us : List (Strided R)) : Prop :=
  ∀ (m : Nat) d, dims[m]? = some d → ∃ f, us[m]? = some f ∧ f.IsTensor ∧ Holds f (mat d (K m) (A m))

/-- The left singular vectors of the folds. -/
def leftVectors (gesdd : GesddFn R) (dims : List Nat) (K : Nat → Nat) (A : Nat → Nat → Nat → R) : Nat → Nat → Nat → R :=
  fun m => (gesdd .all (dims.getD m 0) (K m) (crop (dims.getD m 0) (K m) (A m))).u

theorem getElem?_getD {l : List Nat} {m d : Nat} (h : l[m]? = some d) : l.getD m 0 = d := by
  rw [List.getD_eq_getElem?_getD, h]; rfl

theorem initializeTucker_ok (gesdd : GesddFn R) (z : Nat → R) {dims ranks : List Nat} (hl : ranks.length = dims.length)
    (hr : ∀ (m : Nat) d r, dims[m]? = some d → ranks[m]? = some r → r ≤ d) {us : List (Strided R)} {K : Nat → Nat}
    {A : Nat → Nat → Nat → R} (hU : FoldsHold dims K A us) :
    ∃ fs, initializeTucker gesdd z dims.length us ranks = .ok fs ∧
      TuckerFactors dims ranks fs (leftVectors gesdd dims K A) := by
  obtain ⟨l, l1, l2, l3⟩ := collect_ok (tuckerFactor gesdd z us ranks) (fun m x => ∀ d r, dims[m]? = some d → ranks[m]? = some r →
      x.IsTensor ∧ x.dims = [d, r] ∧ x.Represents fun i => leftVectors gesdd dims K A m (i.getD 0 0) (i.getD 1 0)) dims.length (by
    intro m hm
    have e1 := List.getElem?_eq_getElem hm
    have e2 := List.getElem?_eq_getElem (show m < ranks.length by omega)
    obtain ⟨f, f1, f2, f3⟩ := hU m _ e1
    obtain ⟨x, x1, x2, x3, x4⟩ := tuckerFactor_ok gesdd z f1 f2 f3 e2 (hr m _ _ e1 e2)
    refine ⟨x, x1, ?_⟩
    intro d r hd hr'
    rw [e1] at hd
    rw [e2] at hr'
    obtain rfl := Option.some.inj hd
    obtain rfl := Option.some.inj hr'
    refine ⟨x2, x3, ?_⟩
    simp only [leftVectors, getElem?_getD e1]
    exact x4)
  refine ⟨l, l1, l2, ?_⟩
  intro m d r hd hr'
  obtain ⟨h, _⟩ := List.getElem?_eq_some_iff.1 hd
  obtain ⟨x, x1, x2⟩ := l3 m h
  exact ⟨x, x1, x2 d r hd hr'⟩

/-- Given what the folds hold, `tucker_ho_svd` returns their left singular vectors and the core. -/
theorem tuckerHoSvd_ok (gesdd : GesddFn R) (z : Nat → R) {t : Strided R} (ht : t.IsTensor) (h0 : t.dims ≠ []) {T : List Nat → R}
    (hT : t.Represents T) {ranks : List Nat} (hl : ranks.length = t.dims.length)
    (hr : ∀ (m : Nat) d r, t.dims[m]? = some d → ranks[m]? = some r → r ≤ d) {folds us : List (Strided R)}
    {sched : Nat → List (List Nat × List Nat × Nat)} (hus : foldsOr z t folds sched = .ok us) {K : Nat → Nat}
    {A : Nat → Nat → Nat → R} (hU : FoldsHold t.dims K A us) :
    ∃ g fs, tuckerHoSvd gesdd z t ranks folds sched = .ok (g, fs) ∧
      TuckerFactors t.dims ranks fs (leftVectors gesdd t.dims K A) ∧ g.IsTensor ∧ g.dims = ranks ∧
      g.Represents (tuckerElem t.dims T fun m a b => leftVectors gesdd t.dims K A m b a) := by
  obtain ⟨fs, f1, f2⟩ := initializeTucker_ok gesdd z hl hr hU
  obtain ⟨g, g1, g2, g3, g4⟩ := tuckerCore_eq z z (fun _ => z) ht h0 hT hl (factors := fs) (F := leftVectors gesdd t.dims K A) (by
    intro m d r hd hr'
    obtain ⟨f, a1, _, a2, a3⟩ := f2.2 m d r hd hr'
    exact ⟨f, a1, a2, a3⟩)
  refine ⟨g, fs, ?_, f2, g2, g3, g4⟩
  unfold tuckerHoSvd
  simp only [hus, Outcome.ok_bind, f1, g1]
  rfl

/-! ### Orthonormal columns -/

theorem leftVectors_orthonormal (gesdd : GesddFn R) {dims ranks : List Nat}
    (hr : ∀ (m : Nat) d r, dims[m]? = some d → ranks[m]? = some r → r ≤ d) {K : Nat → Nat} {A : Nat → Nat → Nat → R}
    (h : ∀ (m : Nat) d, dims[m]? = some d → (mat d d (gesdd .all d (K m) (crop d (K m) (A m))).u).transpose *
      mat d d (gesdd .all d (K m) (crop d (K m) (A m))).u = 1) :
    OrthonormalColumns dims ranks (leftVectors gesdd dims K A) := by
  intro m d r hd hr' a b ha hb
  have hrd := hr m d r hd hr'
  have := congrFun (congrFun (h m d hd) ⟨a, by omega⟩) ⟨b, by omega⟩
  rw [Matrix.mul_apply] at this
  rw [sumTo_fin]
  simp only [leftVectors, getElem?_getD hd]
  simp only [Matrix.transpose_apply, mat, Matrix.one_apply, Fin.mk.injEq] at this
  exact this

/-! ### Projecting along every axis -/

/-- If multiplying along any single axis by `P` changes nothing, neither does multiplying along all of them. -/
theorem tuckerElem_fixed {D : List Nat} (T : List Nat → R) (P : Nat → Nat → Nat → R)
    (h : ∀ (m : Nat) (hm : m < D.length) (j : List Nat), InBox j D → sumTo D[m] (fun c => T (j.set m c) * P m (j.getD m 0) c) = T j)
    {j : List Nat} (hj : InBox j D) : tuckerElem D T P j = T j := by
  have key : ∀ i, i ≤ D.length → ∀ j, InBox j D → ((box (D.take i)).map fun k =>
      T (k ++ j.drop i) * ((List.range i).map fun m => P m (j.getD m 0) (k.getD m 0)).prod).sum = T j := by
    intro i
    induction i with
    | zero => intro _ j _; simp [box]
    | succ i ih =>
      intro hi j hj
      have hi' : i < D.length := by omega
      have hjl := hj.length
      have e : D.take (i + 1) = D.take i ++ [D[i]] := by rw [List.take_succ_eq_append_getElem hi']
      rw [e, sum_box_snoc]
      have hlt : ∀ k : List Nat, k ∈ box (D.take i) → k.length = i := by
        intro k hk
        rw [(mem_box.1 hk).length, List.length_take]
        omega
      have step : ∀ k ∈ box (D.take i), (sumTo D[i] fun c => T (k ++ [c] ++ j.drop (i + 1)) *
            ((List.range (i + 1)).map fun m => P m (j.getD m 0) ((k ++ [c]).getD m 0)).prod)
          = T (k ++ j.drop i) * ((List.range i).map fun m => P m (j.getD m 0) (k.getD m 0)).prod := by
        intro k hk
        have hkl := hlt k hk
        have hkb : InBox (k ++ j.drop i) D := by
          have h1 : InBox (j.drop i) (D.drop i) := by
            have := hj
            rw [InBox_iff_getElem] at this ⊢
            refine ⟨by simp [hjl], ?_⟩
            intro x h1 h2
            simpa using this.2 (i + x) (by simp at h1; omega) (by simp at h2; omega)
          have := inBox_append (mem_box.1 hk) h1
          rwa [List.take_append_drop] at this
        have hf := h i hi' _ hkb
        have g1 : (k ++ j.drop i).getD i 0 = j.getD i 0 := by
          rw [List.getD_eq_getElem?_getD, List.getD_eq_getElem?_getD, List.getElem?_append_right (by omega), hkl]
          simp
        have g2 : ∀ c, (k ++ j.drop i).set i c = k ++ [c] ++ j.drop (i + 1) := by
          intro c
          rw [List.set_append_right _ _ (by omega), hkl, Nat.sub_self]
          have : j.drop i = j.getD i 0 :: j.drop (i + 1) := by
            rw [List.drop_eq_getElem_cons (by omega)]
            simp [List.getD_eq_getElem?_getD, show i < j.length by omega]
          rw [this]
          simp
        simp only [g1, g2] at hf
        rw [← hf]
        unfold sumTo
        rw [← List.sum_map_mul_right]
        apply sum_congr_list
        intro c _
        rw [List.range_succ, List.map_append, List.prod_append]
        have e1 : ((List.range i).map fun m => P m (j.getD m 0) ((k ++ [c]).getD m 0))
            = (List.range i).map fun m => P m (j.getD m 0) (k.getD m 0) := by
          apply List.map_congr_left
          intro m hm
          have := List.mem_range.1 hm
          rw [List.getD_eq_getElem?_getD (l := k ++ [c]), List.getElem?_append_left (by omega), ← List.getD_eq_getElem?_getD]
        have e2 : (k ++ [c]).getD i 0 = c := by
          rw [← hkl, List.getD_eq_getElem?_getD]
          simp
        rw [e1]
        simp only [List.map_cons, List.map_nil, List.prod_cons, List.prod_nil, mul_one, e2]
        ring
      exact (sum_congr_list step).trans (ih (by omega) j hj)
  have := key D.length (Nat.le_refl _) j hj
  rw [List.take_length] at this
  rw [← this]
  unfold tuckerElem
  apply sum_congr_list
  intro k _
  rw [List.drop_eq_nil_of_le (by rw [hj.length]), List.append_nil]

/-! ### The unfoldings -/

omit [CommRing R] in
theorem box_getD {e : List Nat} {c : Nat} (hc : c < numel e) : InBox ((box e).getD c []) e ∧ rowMajor ((box e).getD c []) e = c := by
  have hl : (box e).length = numel e := by
    have := congrArg List.length (map_rowMajor_box e)
    simpa using this
  have hc' : c < (box e).length := by omega
  have h1 : (box e).getD c [] = (box e)[c] := by simp [List.getD_eq_getElem?_getD, hc']
  rw [h1]
  refine ⟨mem_box.1 (List.getElem_mem hc'), ?_⟩
  have := congrArg (fun l => l[c]?) (map_rowMajor_box e)
  simp only [List.getElem?_map, List.getElem?_eq_getElem hc', Option.map_some] at this
  rw [List.getElem?_eq_getElem (by simpa using hc)] at this
  simpa using this

omit [CommRing R] in
theorem box_getD_rowMajor {e j : List Nat} (hj : InBox j e) : (box e).getD (rowMajor j e) [] = j := by
  obtain ⟨h1, h2⟩ := box_getD (rowMajor_lt hj)
  exact rowMajor_inj h1 hj h2

omit [CommRing R] in
theorem holds_unfolding {dims : List Nat} {T : List Nat → R} {n d : Nat} {U : Strided R} (hd : U.dims = [d, numel (dims.eraseIdx n)])
    (h : ∀ a j, a < d → InBox j (dims.eraseIdx n) → U.read (toIdx [a, rowMajor j (dims.eraseIdx n)]) = .ok (T (j.insertIdx n a))) :
    Holds U (mat d (numel (dims.eraseIdx n)) (unfolding dims T n)) := by
  refine ⟨hd, ?_⟩
  intro i c
  obtain ⟨h1, h2⟩ := box_getD c.2
  have := h i _ i.2 h1
  rw [h2] at this
  exact this

omit [CommRing R] in
theorem foldsHold_of_unfolded {dims : List Nat} {T : List Nat → R} {us : List (Strided R)} (h : UnfoldedOk dims T us) :
    FoldsHold dims (fun m => numel (dims.eraseIdx m)) (unfolding dims T) us := by
  intro m d hd
  obtain ⟨hm, rfl⟩ := List.getElem?_eq_some_iff.1 hd
  obtain ⟨U, u1, u2, u3, u4⟩ := h m hm
  exact ⟨U, u1, u2, holds_unfolding u3 u4⟩

/-! ### Exactness -/

theorem sumTo_crop {m r : Nat} (hr : r ≤ m) (f : Nat → R) : sumTo r f = ∑ x : Fin m, if x.1 < r then f x.1 else 0 := by
  rw [← sumTo_fin (n := m) (g := fun x => if x < r then f x else 0)]
  obtain ⟨k, rfl⟩ : ∃ k, m = r + k := ⟨m - r, by omega⟩
  unfold sumTo
  rw [List.range_add, List.map_append, List.sum_append]
  have z : ((List.map (fun x => r + x) (List.range k)).map fun x => if x < r then f x else 0).sum = 0 := by
    apply List.sum_eq_zero
    intro y hy
    obtain ⟨x, hx, rfl⟩ := List.mem_map.1 hy
    obtain ⟨w, _, rfl⟩ := List.mem_map.1 hx
    rw [if_neg (by omega)]
  rw [z, add_zero]
  congr 1
  apply List.map_congr_left
  intro x hx
  rw [if_pos (List.mem_range.1 hx)]

/-- If the singular values from number `r` on vanish, projecting on the first `r` left singular vectors changes nothing. -/
theorem svd_projection {m n r : Nat} {A U Vt : Nat → Nat → R} {s : Nat → R} (h : IsSvd m n A s U Vt) (hr : r ≤ m)
    (hs : ∀ x, r ≤ x → x < m → x < n → s x = 0) {a c : Nat} (ha : a < m) (hc : c < n) :
    sumTo m (fun b => A b c * sumTo r fun x => U a x * U b x) = A a c := by
  let E : Matrix (Fin m) (Fin m) R := Matrix.diagonal fun x => if x.1 < r then 1 else 0
  have e1 : E * diagRect m n s = diagRect m n s := by
    ext i j
    rw [Matrix.diagonal_mul]
    by_cases hi : i.1 < r
    · rw [if_pos hi, one_mul]
    · rw [if_neg hi, zero_mul]
      unfold diagRect
      split
      · rename_i e
        rw [hs i (by omega) i.2 (by omega)]
      · rfl
  have e2 : mat m m U * E * (mat m m U).transpose * mat m n A = mat m n A := by
    rw [← h.eq]
    calc mat m m U * E * (mat m m U).transpose * (mat m m U * diagRect m n s * mat n n Vt)
        = mat m m U * (E * (((mat m m U).transpose * mat m m U) * diagRect m n s)) * mat n n Vt := by
          simp only [Matrix.mul_assoc]
      _ = _ := by rw [h.left, Matrix.one_mul, e1]
  have := congrFun (congrFun e2 ⟨a, ha⟩) ⟨c, hc⟩
  rw [Matrix.mul_apply] at this
  rw [sumTo_fin]
  refine Eq.trans ?_ this
  apply Finset.sum_congr rfl
  intro b _
  rw [mul_comm]
  congr 1
  rw [Matrix.mul_apply]
  simp only [Matrix.mul_diagonal, E, Matrix.transpose_apply, mat]
  rw [sumTo_crop hr]
  apply Finset.sum_congr rfl
  intro x _
  split <;> simp

omit [CommRing R] in
theorem insertIdx_eraseIdx {j : List Nat} {m c : Nat} (hm : m < j.length) : (j.eraseIdx m).insertIdx m c = j.set m c := by
  induction j generalizing m with
  | nil => simp at hm
  | cons x j ih =>
    match m with
    | 0 => simp
    | m + 1 => simp at hm ⊢; exact ih hm

omit [CommRing R] in
theorem inBox_eraseIdx {j D : List Nat} (h : InBox j D) (m : Nat) : InBox (j.eraseIdx m) (D.eraseIdx m) := by
  induction j generalizing D m with
  | nil => rw [InBox_nil_left.1 h]; simp
  | cons x j ih =>
    match D, h with
    | d :: D, h =>
      match m with
      | 0 => exact h.2
      | m + 1 => exact ⟨h.1, ih h.2 m⟩

omit [CommRing R] in
/-- An element of the tensor is the corresponding element of the unfolding. -/
theorem unfolding_apply {D : List Nat} (T : List Nat → R) {j : List Nat} (hj : InBox j D) {m : Nat} (hm : m < D.length) (c : Nat) :
    unfolding D T m c (rowMajor (j.eraseIdx m) (D.eraseIdx m)) = T (j.set m c) := by
  unfold unfolding
  rw [box_getD_rowMajor (inBox_eraseIdx hj m), insertIdx_eraseIdx (by rw [hj.length]; exact hm)]

/-- If along every axis the projection on the leading vectors `F` fixes the unfolding, expanding the core gives the tensor back. -/
theorem tucker_exact {D ranks : List Nat} (hl : ranks.length = D.length) (T : List Nat → R) (F : Nat → Nat → Nat → R)
    (h : ∀ (m : Nat) d r, D[m]? = some d → ranks[m]? = some r → ∀ a c, a < d → c < numel (D.eraseIdx m) →
      sumTo d (fun b => unfolding D T m b c * sumTo r fun x => F m a x * F m b x) = unfolding D T m a c)
    {j : List Nat} (hj : InBox j D) : tuckerElem ranks (tuckerElem D T fun m a b => F m b a) F j = T j := by
  rw [tuckerElem_comp hl]
  apply tuckerElem_fixed _ _ _ hj
  intro m hm j hj
  have e1 := List.getElem?_eq_getElem hm
  have e2 := List.getElem?_eq_getElem (show m < ranks.length by omega)
  have hjm : j.getD m 0 < D[m] := by
    have := (InBox_iff_getElem.1 hj).2 m (by rw [hj.length]; exact hm) hm
    simpa [List.getD_eq_getElem?_getD, hm, hj.length] using this
  have := h m _ _ e1 e2 (j.getD m 0) _ hjm (rowMajor_lt (inBox_eraseIdx hj m))
  simp only [unfolding_apply T hj hm] at this
  rw [getElem?_getD e2, this]
  congr 1
  rw [List.getD_eq_getElem?_getD, List.getElem?_eq_getElem (by rw [hj.length]; exact hm)]
  simp

/-! ### Higher-order orthogonal iteration -/

omit [CommRing R] in
theorem filter_range_succ (N i : Nat) : (List.range (N + 1)).filter (· ≠ i)
    = (List.range N).filter (· ≠ i) ++ (if N = i then [] else [N]) := by
  rw [List.range_succ, List.filter_append]
  congr 1
  by_cases h : N = i <;> simp [h]

/-- The tensor multiplied along the axes below `k` other than `i`. -/
theorem hoOiAxis_loop (z : Nat → R) {t : Strided R} (ht : t.IsTensor) {T : List Nat → R} (hT : t.Represents T) {ranks : List Nat}
    (hl : ranks.length = t.dims.length) {factors : List (Strided R)} {F : Nat → Nat → Nat → R}
    (hF : TuckerFactors t.dims ranks factors F) (i : Nat) (k : Nat) (hk : k ≤ t.dims.length) :
    ∃ b, (List.range k).foldlM (hoOiAxis z ranks factors i) t = .ok b ∧ b.IsTensor ∧ b.dims.length = t.dims.length ∧
      (∀ m, b.dims[m]? = if m < k ∧ m ≠ i then ranks[m]? else t.dims[m]?) ∧
      b.Represents (((List.range k).filter (· ≠ i)).foldl (fun f m => modeMul m (t.dims.getD m 0) (fun r s => F m s r) f) T) := by
  induction k with
  | zero => exact ⟨t, rfl, ht, rfl, fun m => by simp, hT⟩
  | succ k ih =>
    obtain ⟨b, b1, b2, b3, b4, b5⟩ := ih (by omega)
    rw [List.range_succ, List.foldlM_append, b1]
    simp only [Outcome.ok_bind, List.foldlM_cons, List.foldlM_nil, bind_pure]
    rw [← List.range_succ, filter_range_succ]
    by_cases e : k = i
    · subst e
      refine ⟨b, by simp [hoOiAxis], b2, b3, ?_, by simpa using b5⟩
      intro m
      rw [b4]
      by_cases c : m = k
      · simp [c]
      · have : (m < k + 1 ∧ m ≠ k) ↔ (m < k ∧ m ≠ k) := by omega
        simp only [this]
    · have e1 := List.getElem?_eq_getElem (show k < t.dims.length by omega)
      have e2 := List.getElem?_eq_getElem (show k < ranks.length by omega)
      obtain ⟨f, f1, f2, f3, f4⟩ := hF.2 k _ _ e1 e2
      have hbk : k < b.dims.length := by omega
      have ebk : b.dims[k] = t.dims[k] := by
        have := b4 k
        rw [if_neg (by omega), e1, List.getElem?_eq_getElem hbk] at this
        exact Option.some.inj this
      obtain ⟨c, c1, c2, c3, c4⟩ := modeProduct_eq z (i := k) (m := ranks[k]) (C := fun r s => F k s r)
        (coef := fun r s => f.read [(s : Int), (r : Int)]) hbk b5 (by
          intro r s hr hs
          rw [ebk] at hs
          exact f4 [s, r] (by rw [f3]; exact ⟨hs, hr, trivial⟩))
      refine ⟨c, ?_, c2, by rw [c3, List.length_set]; exact b3, ?_, ?_⟩
      · unfold hoOiAxis
        rw [if_neg e, e2]
        simp only [factorAt, f1, Outcome.ok_bind]
        exact c1
      · intro m
        rw [c3, List.getElem?_set]
        by_cases hm : k = m
        · subst hm
          rw [if_pos rfl, if_pos hbk, if_pos ⟨by omega, e⟩, e2]
        · rw [if_neg hm, b4]
          have : (m < k + 1 ∧ m ≠ i) ↔ (m < k ∧ m ≠ i) := by omega
          simp only [this]
      · rw [if_neg e, List.foldl_append]
        simp only [List.foldl_cons, List.foldl_nil]
        rw [ebk] at c4
        unfold modeMul at c4 ⊢
        rw [getElem?_getD e1]
        exact c4

/-- The dimensions of the fold of axis `i` before it is unfolded. -/
theorem hoOiFold_ok (z : Nat → R) {t : Strided R} (ht : t.IsTensor) (h2 : 2 ≤ t.dims.length) {T : List Nat → R} (hT : t.Represents T)
    {ranks : List Nat} (hl : ranks.length = t.dims.length) {factors : List (Strided R)} {F : Nat → Nat → Nat → R}
    (hF : TuckerFactors t.dims ranks factors F) (sched : Nat → List (List Nat × List Nat × Nat)) {i : Nat} (hi : i < t.dims.length)
    (hs : (sched i).Perm (unfoldIterations (unfoldRanges i (Strided.mk' z (ranks.set i t.dims[i]))).1
      (unfoldRanges i (Strided.mk' z (ranks.set i t.dims[i]))).2)) :
    ∃ U, hoOiFold z t ranks factors sched i = .ok U ∧ U.IsTensor ∧
      Holds U (mat t.dims[i] (numel (ranks.eraseIdx i)) (unfolding (ranks.set i t.dims[i]) (allButOne t.dims F i T) i)) := by
  obtain ⟨b, b1, b2, b3, b4, b5⟩ := hoOiAxis_loop z ht hT hl hF i t.dims.length (Nat.le_refl _)
  have hbd : b.dims = ranks.set i t.dims[i] := by
    apply List.ext_getElem?
    intro m
    rw [b4, List.getElem?_set]
    by_cases hm : i = m
    · subst hm
      rw [if_neg (by omega), if_pos rfl, if_pos (by omega), List.getElem?_eq_getElem hi]
    · rw [if_neg hm]
      by_cases hml : m < t.dims.length
      · rw [if_pos ⟨hml, fun e => hm e.symm⟩]
      · rw [if_neg (by omega), List.getElem?_eq_none (by omega), List.getElem?_eq_none (by omega)]
  have hbi : i < b.dims.length := by omega
  have hr : unfoldRanges i b = unfoldRanges i (Strided.mk' z (ranks.set i t.dims[i])) := by
    unfold unfoldRanges Strided.dim
    rw [hbd]
    rfl
  obtain ⟨U, u1, u2, u3, u4⟩ := unfold_insert z hbi (by omega) b5 (sched := sched i) (by rw [hr]; exact hs)
  have ee : b.dims.eraseIdx i = ranks.eraseIdx i := by
    rw [hbd]
    exact List.eraseIdx_set_eq
  have ed : b.dims[i] = t.dims[i] := by simp [hbd]
  refine ⟨U, ?_, u2, ?_⟩
  · unfold hoOiFold
    rw [if_neg (by omega), copy_eq z z ht (by intro e; rw [e] at hi; simp at hi)]
    simp only [Outcome.ok_bind, b1, u1]
  · have := holds_unfolding (dims := b.dims) (T := allButOne t.dims F i T) (n := i) (d := b.dims[i]) u3 u4
    rw [ed, ee, hbd] at this
    exact this

theorem hoOiFolds_ok (z : Nat → R) {t : Strided R} (ht : t.IsTensor) (h2 : 2 ≤ t.dims.length) {T : List Nat → R} (hT : t.Represents T)
    {ranks : List Nat} (hl : ranks.length = t.dims.length) {factors : List (Strided R)} {F : Nat → Nat → Nat → R}
    (hF : TuckerFactors t.dims ranks factors F) (sched : Nat → List (List Nat × List Nat × Nat))
    (hs : ∀ (i : Nat) (hi : i < t.dims.length), (sched i).Perm (unfoldIterations (unfoldRanges i (Strided.mk' z (ranks.set i t.dims[i]))).1
      (unfoldRanges i (Strided.mk' z (ranks.set i t.dims[i]))).2)) :
    ∃ us, hoOiFolds z t ranks factors sched = .ok us ∧ us.length = t.dims.length ∧
      FoldsHold t.dims (fun m => numel (ranks.eraseIdx m))
        (fun m => unfolding (ranks.set m (t.dims.getD m 0)) (allButOne t.dims F m T) m) us := by
  obtain ⟨us, u1, u2, u3⟩ := collect_ok (hoOiFold z t ranks factors sched) (fun m U => U.IsTensor ∧
      Holds U (mat (t.dims.getD m 0) (numel (ranks.eraseIdx m)) (unfolding (ranks.set m (t.dims.getD m 0)) (allButOne t.dims F m T) m)))
    t.dims.length (by
      intro i hi
      rw [getElem?_getD (List.getElem?_eq_getElem hi)]
      exact hoOiFold_ok z ht h2 hT hl hF sched hi (hs i hi))
  refine ⟨us, u1, u2, ?_⟩
  intro m d hd
  obtain ⟨hm, _⟩ := List.getElem?_eq_some_iff.1 hd
  obtain ⟨U, v1, v2, v3⟩ := u3 m hm
  rw [getElem?_getD hd] at v3
  refine ⟨U, v1, v2, ?_⟩
  beta_reduce
  rw [getElem?_getD hd]
  exact v3

/-- The left singular vectors that LAPACK returns. -/
def svdLeft (gesdd : GesddFn R) (d k : Nat) (A : Nat → Nat → R) : Nat → Nat → R := (gesdd .all d k (crop d k A)).u

theorem hoOiLoop_ok (gesdd : GesddFn R) (z : Nat → R) {t : Strided R} (ht : t.IsTensor) (h2 : 2 ≤ t.dims.length) {T : List Nat → R}
    (hT : t.Represents T) {ranks : List Nat} (hl : ranks.length = t.dims.length)
    (hr : ∀ (m : Nat) d r, t.dims[m]? = some d → ranks[m]? = some r → r ≤ d) (sched : Nat → List (List Nat × List Nat × Nat))
    (hs : ∀ (i : Nat) (hi : i < t.dims.length), (sched i).Perm (unfoldIterations (unfoldRanges i (Strided.mk' z (ranks.set i t.dims[i]))).1
      (unfoldRanges i (Strided.mk' z (ranks.set i t.dims[i]))).2)) (stop : Nat → Bool) (fuel iter : Nat) {g : Strided R}
    {fs : List (Strided R)} {F : Nat → Nat → Nat → R} (hF : TuckerFactors t.dims ranks fs F) (hg1 : g.IsTensor) (hg2 : g.dims = ranks)
    (hg3 : g.Represents (tuckerElem t.dims T fun m a b => F m b a)) :
    ∃ g' fs' k, hoOiLoop gesdd z t ranks sched stop fuel iter (g, fs) = .ok (g', fs') ∧
      TuckerFactors t.dims ranks fs' ((hoOiVectors (svdLeft gesdd) t.dims ranks T)^[k] F) ∧ g'.IsTensor ∧ g'.dims = ranks ∧
      g'.Represents (tuckerElem t.dims T fun m a b => (hoOiVectors (svdLeft gesdd) t.dims ranks T)^[k] F m b a) ∧
      k ≤ fuel ∧ (∀ j, j + 1 < k → stop (iter + j) = false) ∧ (k < fuel → 0 < k ∧ stop (iter + (k - 1)) = true) := by
  induction fuel generalizing iter g fs F with
  | zero => exact ⟨g, fs, 0, rfl, hF, hg1, hg2, hg3, Nat.le_refl _, fun j h => by omega, fun h => by omega⟩
  | succ fuel ih =>
    obtain ⟨us, u1, ul, u2⟩ := hoOiFolds_ok z ht h2 hT hl hF sched hs
    have h0 : t.dims ≠ [] := by intro e; rw [e] at h2; simp at h2
    obtain ⟨g1, fs1, s1, s2, s3, s4, s5⟩ := tuckerHoSvd_ok gesdd z ht h0 hT hl hr (folds := us) (us := us) (sched := sched)
      (by unfold foldsOr; rw [if_neg (by omega)]) u2
    simp only [hoOiLoop, u1, Outcome.ok_bind, s1]
    by_cases c : stop iter = true
    · rw [if_pos c]
      exact ⟨g1, fs1, 1, rfl, s2, s3, s4, s5, by omega, fun j h => by omega, fun _ => ⟨by omega, c⟩⟩
    · rw [if_neg c]
      obtain ⟨g', fs', k, k1, k2, k3, k4, k5, k6, k7, k8⟩ := ih (iter + 1) s2 s3 s4 s5
      refine ⟨g', fs', k + 1, k1, ?_, k3, k4, ?_, by omega, ?_, ?_⟩
      · rw [Function.iterate_succ]; exact k2
      · rw [Function.iterate_succ]; exact k5
      · intro j hj
        match j with
        | 0 => simpa using c
        | j + 1 =>
          have := k7 j (by omega)
          rwa [show iter + 1 + j = iter + (j + 1) by omega] at this
      · intro h
        obtain ⟨a, b⟩ := k8 (by omega)
        refine ⟨by omega, ?_⟩
        rwa [show iter + 1 + (k - 1) = iter + (k + 1 - 1) by omega] at b

end
end Einsums
