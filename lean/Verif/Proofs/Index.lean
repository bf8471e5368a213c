import Mathlib.Tactic.Ring
import Mathlib.Algebra.BigOperators.Group.List.Basic
import Verif.Spec.Index
import Verif.Model.IndexUtils
/-
Lemmas about boxes, row-major positions and the index conversions.
-/
namespace Einsums
open Spec Model

theorem Spec.InBox.length {is ds : List Nat} (h : InBox is ds) : is.length = ds.length := by
  induction is generalizing ds with
  | nil => cases ds with
    | nil => rfl
    | cons _ _ => exact h.elim
  | cons i is ih => cases ds with
    | nil => exact h.elim
    | cons d ds => simp [ih h.2]

@[simp] theorem InBox_nil : InBox [] [] := trivial
@[simp] theorem InBox_cons {i d : Nat} {is ds : List Nat} :
    InBox (i :: is) (d :: ds) ↔ i < d ∧ InBox is ds := Iff.rfl
@[simp] theorem InBox_nil_cons {d : Nat} {ds : List Nat} : ¬ InBox [] (d :: ds) := id
@[simp] theorem InBox_cons_nil {d : Nat} {ds : List Nat} : ¬ InBox (d :: ds) [] := id

theorem InBox_nil_right {is : List Nat} : InBox is [] ↔ is = [] := by cases is <;> simp
theorem InBox_nil_left {ds : List Nat} : InBox [] ds ↔ ds = [] := by cases ds <;> simp

theorem InBox_cons_right {is : List Nat} {d : Nat} {ds : List Nat} :
    InBox is (d :: ds) ↔ ∃ i is', is = i :: is' ∧ i < d ∧ InBox is' ds := by
  cases is with
  | nil => simp
  | cons j js =>
    simp only [InBox_cons, List.cons.injEq]
    constructor
    · rintro ⟨a, b⟩; exact ⟨j, js, ⟨rfl, rfl⟩, a, b⟩
    · rintro ⟨i, is', ⟨rfl, rfl⟩, a, b⟩; exact ⟨a, b⟩

theorem InBox_iff_getElem {is ds : List Nat} :
    InBox is ds ↔ is.length = ds.length ∧ ∀ k (h1 : k < is.length) (h2 : k < ds.length), is[k] < ds[k] := by
  induction is generalizing ds with
  | nil => cases ds <;> simp
  | cons i is ih => cases ds with
    | nil => simp
    | cons d ds =>
      rw [InBox_cons, ih]
      constructor
      · rintro ⟨h1, h2, h3⟩
        refine ⟨by simp [h2], ?_⟩
        intro k hk1 hk2
        cases k with
        | zero => simpa
        | succ k => simpa using h3 k (by simpa using hk1) (by simpa using hk2)
      · rintro ⟨h1, h2⟩
        refine ⟨h2 0 (by simp) (by simp), by simpa using h1, ?_⟩
        intro k hk1 hk2
        exact h2 (k+1) (by simpa using hk1) (by simpa using hk2)

@[simp] theorem numel_nil : numel [] = 1 := rfl
@[simp] theorem numel_cons (d : Nat) (ds : List Nat) : numel (d :: ds) = d * numel ds := rfl

theorem numel_append (a b : List Nat) : numel (a ++ b) = numel a * numel b := by
  induction a with
  | nil => simp
  | cons d a ih => simp [ih, Nat.mul_assoc]

@[simp] theorem rowMajor_nil (ds : List Nat) : rowMajor [] ds = 0 := by cases ds <;> rfl
@[simp] theorem rowMajor_cons (i d : Nat) (is ds : List Nat) :
    rowMajor (i :: is) (d :: ds) = i * numel ds + rowMajor is ds := rfl

theorem rowMajor_lt {is ds : List Nat} (h : InBox is ds) : rowMajor is ds < numel ds := by
  induction is generalizing ds with
  | nil => cases ds <;> simp_all
  | cons i is ih => cases ds with
    | nil => exact h.elim
    | cons d ds =>
      simp only [rowMajor_cons, numel_cons]
      have h1 := ih h.2
      have h2 : (i + 1) * numel ds ≤ d * numel ds := Nat.mul_le_mul_right _ h.1
      rw [Nat.add_mul, Nat.one_mul] at h2
      omega

theorem rowMajor_append {i j a b : List Nat} (h : i.length = a.length) :
    rowMajor (i ++ j) (a ++ b) = rowMajor i a * numel b + rowMajor j b := by
  induction i generalizing a with
  | nil => cases a <;> simp_all
  | cons x i ih => cases a with
    | nil => simp at h
    | cons d a =>
      simp only [List.cons_append, rowMajor_cons, numel_append]
      rw [ih (by simpa using h), Nat.add_mul, Nat.mul_assoc, Nat.add_assoc]

theorem rowMajor_inj {is js ds : List Nat} (hi : InBox is ds) (hj : InBox js ds)
    (h : rowMajor is ds = rowMajor js ds) : is = js := by
  induction is generalizing js ds with
  | nil => cases ds <;> cases js <;> simp_all
  | cons i is ih => cases ds with
    | nil => exact hi.elim
    | cons d ds => cases js with
      | nil => exact hj.elim
      | cons j js =>
        simp only [rowMajor_cons] at h
        have h1 := rowMajor_lt hi.2
        have h2 := rowMajor_lt hj.2
        have hij : i = j := by
          have hpos : 0 < numel ds := by omega
          have e1 : (i * numel ds + rowMajor is ds) / numel ds = i := by
            rw [Nat.mul_comm, Nat.mul_add_div hpos, Nat.div_eq_of_lt h1, Nat.add_zero]
          have e2 : (j * numel ds + rowMajor js ds) / numel ds = j := by
            rw [Nat.mul_comm, Nat.mul_add_div hpos, Nat.div_eq_of_lt h2, Nat.add_zero]
          rw [← e1, ← e2, h]
        subst hij
        rw [ih hi.2 hj.2 (by omega)]

theorem mem_box {is ds : List Nat} : is ∈ box ds ↔ InBox is ds := by
  induction ds generalizing is with
  | nil => simp [box, InBox_nil_right]
  | cons d ds ih =>
    simp only [box, List.mem_flatMap, List.mem_range, List.mem_map, InBox_cons_right]
    constructor
    · rintro ⟨i, hi, js, hjs, rfl⟩
      exact ⟨i, js, rfl, hi, ih.1 hjs⟩
    · rintro ⟨i, js, rfl, hi, hjs⟩
      exact ⟨i, hi, js, ih.2 hjs, rfl⟩

theorem length_box (ds : List Nat) : (box ds).length = numel ds := by
  induction ds with
  | nil => rfl
  | cons d ds ih =>
    simp only [box, List.length_flatMap, List.length_map, ih, numel_cons]
    induction d with
    | zero => simp
    | succ d ihd => rw [List.range_succ, List.map_append, List.sum_append, ihd]; simp [Nat.add_mul]

/-- The row-major positions of the box, in box order, are `0, 1, 2, ...`. -/
theorem map_rowMajor_box (ds : List Nat) :
    (box ds).map (fun i => rowMajor i ds) = List.range (numel ds) := by
  induction ds with
  | nil => rfl
  | cons d ds ih =>
    simp only [box, List.map_flatMap, List.map_map, Function.comp_def, rowMajor_cons, numel_cons]
    have : ∀ i, (box ds).map (fun x => i * numel ds + rowMajor x ds)
        = (List.range (numel ds)).map (fun k => i * numel ds + k) := by
      intro i; rw [← ih, List.map_map]; rfl
    simp only [this]
    induction d with
    | zero => simp
    | succ d ihd =>
      rw [List.range_succ, List.flatMap_append, ihd, Nat.add_mul, Nat.one_mul, List.range_add]
      simp

theorem nodup_box (ds : List Nat) : (box ds).Nodup := by
  have h : ((box ds).map (fun i => rowMajor i ds)).Nodup := by
    rw [map_rowMajor_box]; exact List.nodup_range
  exact List.Pairwise.of_map _ (by intro a b hab e; exact hab (by rw [e])) h

theorem getElem_box_rowMajor {is ds : List Nat} (h : InBox is ds) :
    (box ds)[rowMajor is ds]? = some is := by
  have hm := mem_box.2 h
  obtain ⟨k, hk, hke⟩ := List.mem_iff_getElem.1 hm
  have h2 : ((box ds).map (fun i => rowMajor i ds))[k]'(by simpa using hk) = k := by
    simp only [map_rowMajor_box, List.getElem_range]
  rw [List.getElem_map, hke] at h2
  rw [h2, List.getElem?_eq_getElem hk, hke]

/-! ### Strides -/

@[simp] theorem dimsToStrides_nil : dimsToStrides [] = (1, []) := rfl
theorem dimsToStrides_cons (d : Nat) (ds : List Nat) :
    dimsToStrides (d :: ds)
      = ((dimsToStrides ds).1 * d, (dimsToStrides ds).1 :: (dimsToStrides ds).2) := rfl

theorem dimsToStrides_fst (ds : List Nat) : (dimsToStrides ds).1 = numel ds := by
  induction ds with
  | nil => rfl
  | cons d ds ih => rw [dimsToStrides_cons, ih, numel_cons, Nat.mul_comm]

theorem dimsToStrides_snd_cons (d : Nat) (ds : List Nat) :
    (dimsToStrides (d :: ds)).2 = numel ds :: (dimsToStrides ds).2 := by
  rw [dimsToStrides_cons, dimsToStrides_fst]

theorem length_dimsToStrides (ds : List Nat) : (dimsToStrides ds).2.length = ds.length := by
  induction ds with
  | nil => rfl
  | cons d ds ih => simp [dimsToStrides_cons, ih]

theorem indicesToSentinel_eq {is ds : List Nat} (h : is.length = ds.length) :
    indicesToSentinel (dimsToStrides ds).2 is = .ok (rowMajor is ds) := by
  induction ds generalizing is with
  | nil => cases is <;> simp_all [indicesToSentinel]
  | cons d ds ih => cases is with
    | nil => simp at h
    | cons i is =>
      rw [dimsToStrides_snd_cons]
      simp [indicesToSentinel, ih (is := is) (by simpa using h)]

theorem sentinelToIndices_rowMajor {is ds : List Nat} (h : InBox is ds) :
    sentinelToIndices (rowMajor is ds) (dimsToStrides ds).2 = is := by
  induction ds generalizing is with
  | nil => rw [InBox_nil_right.1 h]; rfl
  | cons d ds ih =>
    obtain ⟨i, js, rfl, hi, hjs⟩ := InBox_cons_right.1 h
    have hlt := rowMajor_lt hjs
    rw [dimsToStrides_snd_cons]
    have hpos : numel ds ≠ 0 := by omega
    simp only [sentinelToIndices, rowMajor_cons, if_pos hpos]
    rw [Nat.mul_comm, Nat.mul_add_div (by omega), Nat.div_eq_of_lt hlt, Nat.mul_add_mod,
      Nat.mod_eq_of_lt hlt, ih hjs]
    rfl

theorem sentinelToIndices_spec {p : Nat} {ds : List Nat} (h : p < numel ds) :
    InBox (sentinelToIndices p (dimsToStrides ds).2) ds ∧
      rowMajor (sentinelToIndices p (dimsToStrides ds).2) ds = p := by
  induction ds generalizing p with
  | nil => simp_all [sentinelToIndices]
  | cons d ds ih =>
    rw [dimsToStrides_snd_cons]
    simp only [numel_cons] at h
    have hpos : 0 < numel ds := by
      rcases Nat.eq_zero_or_pos (numel ds) with h0 | h0
      · simp [h0] at h
      · exact h0
    have hne : numel ds ≠ 0 := by omega
    simp only [sentinelToIndices, if_pos hne, InBox_cons, rowMajor_cons]
    have := ih (p := p % numel ds) (Nat.mod_lt _ hpos)
    refine ⟨⟨?_, this.1⟩, ?_⟩
    · rw [Nat.div_lt_iff_lt_mul hpos]; exact h
    · rw [this.2, Nat.mul_comm]; exact Nat.div_add_mod _ _

end Einsums
