import Verif.Proofs.Blas
import Verif.Proofs.Labels
import Verif.Model.Dispatch
/-
A row-major tensor whose shape is `p ++ q` seen as a `numel p × numel q` matrix.
-/
namespace Einsums
open Spec Model

/-- Multi-index at a row-major position. -/
def unflat (d : List Nat) (n : Nat) : List Nat := sentinelToIndices n (dimsToStrides d).2

theorem unflat_inBox {d : List Nat} {n : Nat} (h : n < numel d) : InBox (unflat d n) d :=
  (sentinelToIndices_spec h).1

theorem rowMajor_unflat {d : List Nat} {n : Nat} (h : n < numel d) : rowMajor (unflat d n) d = n :=
  (sentinelToIndices_spec h).2

theorem unflat_rowMajor {d i : List Nat} (h : InBox i d) : unflat d (rowMajor i d) = i :=
  sentinelToIndices_rowMajor h

theorem map_unflat_range (d : List Nat) : (List.range (numel d)).map (unflat d) = box d := by
  rw [← map_rowMajor_box, List.map_map]
  conv => rhs; rw [← List.map_id (box d)]
  apply List.map_congr_left
  intro i hi
  exact unflat_rowMajor (mem_box.1 hi)

theorem sumTo_unflat {R : Type} [Add R] [Zero R] (d : List Nat) (g : List Nat → R) :
    sumTo (numel d) (fun n => g (unflat d n)) = ((box d).map g).sum := by
  unfold sumTo
  rw [← map_unflat_range, List.map_map]; rfl

theorem inBox_append {i j p q : List Nat} (hi : InBox i p) (hj : InBox j q) : InBox (i ++ j) (p ++ q) := by
  induction i generalizing p with
  | nil => rw [InBox_nil_left.1 hi]; exact hj
  | cons a i ih => cases p with
    | nil => exact hi.elim
    | cons d p => exact ⟨hi.1, ih hi.2⟩

theorem inBox_append_iff {k p q : List Nat} :
    InBox k (p ++ q) ↔ ∃ i j, k = i ++ j ∧ InBox i p ∧ InBox j q := by
  constructor
  · intro h
    induction p generalizing k with
    | nil => exact ⟨[], k, rfl, trivial, h⟩
    | cons d p ih => cases k with
      | nil => exact h.elim
      | cons a k =>
        obtain ⟨i, j, h1, h2, h3⟩ := ih h.2
        exact ⟨a :: i, j, by simp [h1], ⟨h.1, h2⟩, h3⟩
  · rintro ⟨i, j, rfl, hi, hj⟩
    exact inBox_append hi hj

variable {R : Type}

theorem Model.Strided.RowMajor.wf {t : Strided R} (h : t.RowMajor) : t.WF where
  len := by rw [h.strides, length_dimsToStrides]
  bound := by
    intro idx hi
    have h1 := h.fits
    have h2 := rowMajor_lt hi
    rw [h.strides, dot_strides_eq hi.length]; omega
  inj := by
    intro i j hi hj e
    rw [h.strides, dot_strides_eq hi.length, dot_strides_eq hj.length] at e
    exact rowMajor_inj hi hj e

theorem Model.Strided.IsTensor.rowMajor {t : Strided R} (h : t.IsTensor) : t.RowMajor :=
  ⟨h.strides, by rw [h.off, h.length]; omega⟩

theorem Model.Strided.Frame.rowMajor {t t' : Strided R} (f : t.Frame t') (h : t.RowMajor) : t'.RowMajor :=
  ⟨by rw [f.strides, f.dims, h.strides], by rw [f.off, f.dims, f.length]; exact h.fits⟩

/-- Storage of a row-major tensor. -/
theorem rowMajor_get {t : Strided R} (h : t.RowMajor) {f : List Nat → R} (hf : t.Represents f)
    {i : List Nat} (hi : InBox i t.dims) : t.data[t.off + rowMajor i t.dims]? = some (f i) := by
  have := represents_get hf hi
  rwa [h.strides, dot_strides_eq hi.length] at this

theorem mul_add_lt {i j m n : Nat} (hi : i < m) (hj : j < n) : i * n + j < m * n := by
  have : (i + 1) * n ≤ m * n := Nat.mul_le_mul_right n hi
  rw [Nat.add_mul] at this; omega

section
variable [Add R] [Mul R] [Zero R] [One R] [BEq R] [Div R]

theorem inBox_two {l : List Nat} {m n : Nat} : InBox l [m, n] ↔ ∃ i j, l = [i, j] ∧ i < m ∧ j < n := by
  constructor
  · intro h
    match l, h with
    | [i, j], ⟨h1, h2, _⟩ => exact ⟨i, j, rfl, h1, h2⟩
  · rintro ⟨i, j, rfl, hi, hj⟩; exact ⟨hi, hj, trivial⟩

theorem inBox_one {l : List Nat} {m : Nat} : InBox l [m] ↔ ∃ i, l = [i] ∧ i < m := by
  constructor
  · intro h
    match l, h with
    | [i], ⟨h1, _⟩ => exact ⟨i, rfl, h1⟩
  · rintro ⟨i, rfl, hi⟩; exact ⟨hi, trivial⟩

/-- The matrix view of a row-major tensor. -/
def matView (t : Strided R) (p q : List Nat) : Strided R := t.viewAs [numel p, numel q] [numel q, 1]

/-- The elements of the matrix view. -/
def matFun (f : List Nat → R) (p q : List Nat) : List Nat → R := fun ij =>
  f (unflat p (ij.getD 0 0) ++ unflat q (ij.getD 1 0))

/-- The vector view of a row-major tensor. -/
def vecView (t : Strided R) (p : List Nat) : Strided R := t.viewAs [numel p] [1]

omit [Add R] [Mul R] [Zero R] [One R] [BEq R] [Div R]

theorem matView_wf {t : Strided R} (h : t.RowMajor) {p q : List Nat} (hd : t.dims = p ++ q) :
    (matView t p q).WF where
  len := rfl
  bound := by
    intro idx hi
    obtain ⟨i, j, rfl, hi, hj⟩ := inBox_two.1 hi
    have h1 := h.fits
    rw [hd, numel_append] at h1
    have h2 := mul_add_lt hi hj
    simp only [matView, Strided.viewAs, dot]
    omega
  inj := by
    intro a b ha hb e
    obtain ⟨i, j, rfl, hi, hj⟩ := inBox_two.1 ha
    obtain ⟨i', j', rfl, hi', hj'⟩ := inBox_two.1 hb
    simp only [matView, Strided.viewAs, dot] at e
    obtain ⟨h1, h2⟩ := colPos_inj hj hj' (Nat.le_refl _) (by omega : j + i * numel q = j' + i' * numel q)
    rw [h1, h2]

theorem vecView_wf {t : Strided R} (h : t.RowMajor) : (vecView t t.dims).WF where
  len := rfl
  bound := by
    intro idx hi
    obtain ⟨i, rfl, hi'⟩ := inBox_one.1 hi; clear hi; rename' hi' => hi
    have h1 := h.fits
    simp only [vecView, Strided.viewAs, dot]
    omega
  inj := by
    intro a b ha hb e
    obtain ⟨i, rfl, hi⟩ := inBox_one.1 ha
    obtain ⟨i', rfl, hi'⟩ := inBox_one.1 hb
    simp only [vecView, Strided.viewAs, dot] at e
    rw [show i = i' by omega]

theorem rowMajor_unflat_append {p q : List Nat} {i j : Nat} (hi : i < numel p) (hj : j < numel q) :
    rowMajor (unflat p i ++ unflat q j) (p ++ q) = i * numel q + j := by
  rw [rowMajor_append (unflat_inBox hi).length, rowMajor_unflat hi, rowMajor_unflat hj]

theorem matView_represents {t : Strided R} (h : t.RowMajor) {p q : List Nat} (hd : t.dims = p ++ q)
    {f : List Nat → R} (hf : t.Represents f) : (matView t p q).Represents (matFun f p q) := by
  rw [represents_iff (matView_wf h hd)]
  intro idx hi
  obtain ⟨i, j, rfl, hi, hj⟩ := inBox_two.1 hi
  have hb : InBox (unflat p i ++ unflat q j) t.dims := by
    rw [hd]; exact inBox_append (unflat_inBox hi) (unflat_inBox hj)
  have := rowMajor_get h hf hb
  rw [hd, rowMajor_unflat_append hi hj] at this
  simpa [matView, Strided.viewAs, dot, matFun] using this

theorem vecView_represents {t : Strided R} (h : t.RowMajor) {f : List Nat → R} (hf : t.Represents f) :
    (vecView t t.dims).Represents fun i => f (unflat t.dims (i.getD 0 0)) := by
  rw [represents_iff (vecView_wf h)]
  intro idx hi
  obtain ⟨i, rfl, hi'⟩ := inBox_one.1 hi; clear hi; rename' hi' => hi
  have := rowMajor_get h hf (unflat_inBox hi)
  rw [rowMajor_unflat hi] at this
  simpa [vecView, Strided.viewAs, dot] using this

/-- Writing through the matrix view, seen on the tensor. -/
theorem of_matView {t : Strided R} (h : t.RowMajor) {p q : List Nat} (hd : t.dims = p ++ q)
    {r : Strided R} (fr : (matView t p q).Frame r) {v : Nat → Nat → R}
    (hv : ∀ i j, i < numel p → j < numel q → r.read [(i : Int), (j : Int)] = .ok (v i j)) :
    t.Frame { t with data := r.data } ∧ ∀ i j, InBox i p → InBox j q →
      ({ t with data := r.data } : Strided R).read (toIdx (i ++ j))
        = .ok (v (rowMajor i p) (rowMajor j q)) := by
  have hr : r.Represents fun ij => v (ij.getD 0 0) (ij.getD 1 0) := by
    intro idx hi
    rw [fr.dims] at hi
    obtain ⟨i, j, rfl, hi, hj⟩ := inBox_two.1 hi
    exact hv i j hi hj
  have hlen : r.data.length = t.data.length := fr.length
  have fr' : t.Frame { t with data := r.data } := by
    refine ⟨rfl, rfl, rfl, hlen, ?_⟩
    intro x hx
    apply fr.outside
    intro idx hi e
    obtain ⟨i, j, rfl, hi, hj⟩ := inBox_two.1 hi
    have hb : InBox (unflat p i ++ unflat q j) t.dims := by
      rw [hd]; exact inBox_append (unflat_inBox hi) (unflat_inBox hj)
    apply hx _ hb
    rw [h.strides, dot_strides_eq hb.length, hd, rowMajor_unflat_append hi hj, e]
    simp [matView, Strided.viewAs, dot]
  refine ⟨fr', ?_⟩
  intro i j hi hj
  have hb : InBox (i ++ j) t.dims := by rw [hd]; exact inBox_append hi hj
  have key := represents_get hr (j := [rowMajor i p, rowMajor j q]) (by
    rw [fr.dims]; exact inBox_two.2 ⟨_, _, rfl, rowMajor_lt hi, rowMajor_lt hj⟩)
  rw [fr.off, fr.strides] at key
  have hbound : t.off + dot (i ++ j) t.strides < r.data.length := by
    rw [hlen]; exact h.wf.bound _ hb
  rw [read_eq (t := { t with data := r.data }) (pyIndices_toIdx hb) hbound]
  congr 1
  have ea : t.off + dot (i ++ j) t.strides = (matView t p q).off
      + dot [rowMajor i p, rowMajor j q] (matView t p q).strides := by
    rw [h.strides, dot_strides_eq hb.length, hd, rowMajor_append hi.length]
    simp [matView, Strided.viewAs, dot]
  rw [← ea, List.getElem?_eq_getElem hbound] at key
  simpa using key

/-- Writing through the vector view, seen on the tensor. -/
theorem of_vecView {t : Strided R} (h : t.RowMajor) {r : Strided R} (fr : (vecView t t.dims).Frame r)
    {v : Nat → R} (hv : ∀ i, i < numel t.dims → r.read [(i : Int)] = .ok (v i)) :
    t.Frame { t with data := r.data } ∧ ∀ i, InBox i t.dims →
      ({ t with data := r.data } : Strided R).read (toIdx i) = .ok (v (rowMajor i t.dims)) := by
  have hr : r.Represents fun i => v (i.getD 0 0) := by
    intro idx hi
    rw [fr.dims] at hi
    obtain ⟨i, rfl, hi'⟩ := inBox_one.1 hi; clear hi; rename' hi' => hi
    exact hv i hi
  have hlen : r.data.length = t.data.length := fr.length
  have fr' : t.Frame { t with data := r.data } := by
    refine ⟨rfl, rfl, rfl, hlen, ?_⟩
    intro x hx
    apply fr.outside
    intro idx hi e
    obtain ⟨i, rfl, hi'⟩ := inBox_one.1 hi; clear hi; rename' hi' => hi
    have hb := unflat_inBox hi
    apply hx _ hb
    rw [h.strides, dot_strides_eq hb.length, rowMajor_unflat hi, e]
    simp [vecView, Strided.viewAs, dot]
  refine ⟨fr', ?_⟩
  intro i hb
  have key := represents_get hr (j := [rowMajor i t.dims]) (by
    rw [fr.dims]; exact inBox_one.2 ⟨_, rfl, rowMajor_lt hb⟩)
  rw [fr.off, fr.strides] at key
  have hbound : t.off + dot i t.strides < r.data.length := by
    rw [hlen]; exact h.wf.bound _ hb
  rw [read_eq (t := { t with data := r.data }) (pyIndices_toIdx hb) hbound]
  congr 1
  have ea : t.off + dot i t.strides = (vecView t t.dims).off
      + dot [rowMajor i t.dims] (vecView t t.dims).strides := by
    rw [h.strides, dot_strides_eq hb.length]
    simp [vecView, Strided.viewAs, dot]
  rw [← ea, List.getElem?_eq_getElem hbound] at key
  simpa using key

end

/-! ### Positions and strides of a row-major tensor -/

variable {L : Type} [DecidableEq L]

theorem dim_idxOf {X : Strided R} {δ : L → Nat} {xs : List L} (hd : X.dims = xs.map δ) {l : L} (hl : l ∈ xs) :
    X.dim (xs.idxOf l) = δ l := by
  have h := List.idxOf_lt_length_iff.2 hl
  unfold Strided.dim
  rw [hd, List.getD_eq_getElem?_getD, List.getElem?_map, List.getElem?_eq_getElem h]
  simp

theorem productDims_eq {X : Strided R} {δ : L → Nat} {xs ys : List L} (hd : X.dims = xs.map δ)
    (hs : ∀ y ∈ ys, y ∈ xs) : productDims (ys.map fun l => (l, xs.idxOf l)) X = numel (ys.map δ) := by
  unfold productDims
  induction ys with
  | nil => rfl
  | cons y ys ih =>
    simp only [List.map_cons, List.foldr_cons, numel_cons]
    rw [dim_idxOf hd (hs y (by simp)), ih fun z hz => hs z (by simp [hz])]

theorem strides_getD (d : List Nat) (k : Nat) (hk : k < d.length) :
    (dimsToStrides d).2.getD k 0 = numel (d.drop (k + 1)) := by
  induction d generalizing k with
  | nil => simp at hk
  | cons a d ih =>
    rw [dimsToStrides_snd_cons]
    cases k with
    | zero => simp
    | succ k =>
      simp only [List.getD_cons_succ, List.drop_succ_cons]
      exact ih k (by simpa using hk)

theorem idxOf_block {p ys q : List L} (hn : (p ++ ys ++ q).Nodup) {k : Nat} (hk : k < ys.length) :
    (p ++ ys ++ q).idxOf ys[k] = p.length + k := by
  have h1 : p.length + k < (p ++ ys ++ q).length := by simp; omega
  have e : ys[k] = (p ++ ys ++ q)[p.length + k] := by
    rw [List.getElem_append_left (by simp; omega), List.getElem_append_right (by omega)]
    simp
  rw [e, hn.idxOf_getElem _ h1]

theorem lastStride_eq {X : Strided R} {δ : L → Nat} {p ys q : List L}
    (hd : X.dims = (p ++ ys ++ q).map δ) (hst : X.strides = (dimsToStrides X.dims).2)
    (hn : (p ++ ys ++ q).Nodup) (hy : ys ≠ []) :
    lastStride (ys.map fun l => (l, (p ++ ys ++ q).idxOf l)) X = numel (q.map δ) := by
  have hpos : 0 < ys.length := List.length_pos_iff.2 hy
  unfold lastStride
  rw [List.getLast?_map, List.getLast?_eq_some_getLast hy]
  simp only [Option.map_some]
  rw [List.getLast_eq_getElem, idxOf_block hn (by omega)]
  unfold Strided.stride
  rw [hst, hd, strides_getD _ _ (by simp; omega), ← List.map_drop]
  congr 2
  rw [show p.length + (ys.length - 1) + 1 = (p ++ ys).length by simp; omega, List.drop_left]

theorem firstPos_eq {p ys q : List L} (hn : (p ++ ys ++ q).Nodup) (hy : ys ≠ []) :
    firstPos (ys.map fun l => (l, (p ++ ys ++ q).idxOf l)) = p.length := by
  cases ys with
  | nil => exact (hy rfl).elim
  | cons y ys =>
    have := idxOf_block hn (k := 0) (by simp)
    simpa [firstPos] using this

end Einsums
