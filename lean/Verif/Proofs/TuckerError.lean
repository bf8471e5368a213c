import Verif.Proofs.Tucker
import Mathlib.Data.Matrix.Mul
import Mathlib.LinearAlgebra.Matrix.Trace
import Mathlib.Algebra.Order.BigOperators.Group.Finset
import Mathlib.Tactic.Linarith
/-
The error of a truncated Tucker decomposition.
-/
namespace Einsums
open Spec Model Props Matrix

section
variable {S : Type} [CommRing S]

/-! ### Multiplying along all axes one by one -/

/-- Multiplying along the axes one after the other is multiplying along all of them. -/
theorem foldl_modeMul {D : List Nat} (T : List Nat → S) (P : Nat → Nat → Nat → S) (i : Nat) (hi : i ≤ D.length) :
    ∀ j : List Nat, j.length = D.length →
      (List.range i).foldl (fun f m => modeMul m (D.getD m 0) (P m) f) T j = ((box (D.take i)).map fun k =>
        T (k ++ j.drop i) * ((List.range i).map fun m => P m (j.getD m 0) (k.getD m 0)).prod).sum := by
  induction i with
  | zero => intro j _; simp [box]
  | succ i ih =>
    intro j hjl
    have hi' : i < D.length := by omega
    rw [List.range_succ, List.foldl_append]
    simp only [List.foldl_cons, List.foldl_nil]
    unfold modeMul at ih ⊢
    rw [getElem?_getD (List.getElem?_eq_getElem hi'), List.take_succ_eq_append_getElem hi', sum_box_snoc, ← List.range_succ]
    rw [sum_list_comm]
    unfold sumTo
    apply sum_congr_list
    intro c _
    have := ih (by omega) (j.set i c) (by simpa using hjl)
    unfold sumTo at this
    rw [this, ← List.sum_map_mul_right]
    apply sum_congr_list
    intro k hk
    have hkl : k.length = i := by
      rw [(mem_box.1 hk).length, List.length_take]; omega
    have g1 : k ++ (j.set i c).drop i = k ++ [c] ++ j.drop (i + 1) := by
      rw [List.drop_eq_getElem_cons (by simp; omega)]
      simp [List.drop_set]
    have g2 : ((List.range i).map fun m => P m ((j.set i c).getD m 0) (k.getD m 0))
        = (List.range i).map fun m => P m (j.getD m 0) ((k ++ [c]).getD m 0) := by
      apply List.map_congr_left
      intro m hm
      have hm := List.mem_range.1 hm
      rw [List.getD_eq_getElem?_getD (l := k ++ [c]), List.getElem?_append_left (by omega), ← List.getD_eq_getElem?_getD]
      congr 1
      simp only [List.getD_eq_getElem?_getD]
      rw [List.getElem?_set_ne (by omega)]
    have g3 : (k ++ [c]).getD i 0 = c := by
      rw [← hkl, List.getD_eq_getElem?_getD]
      simp
    rw [g1, g2, List.range_succ, List.map_append, List.prod_append]
    simp only [List.map_cons, List.map_nil, List.prod_cons, List.prod_nil, mul_one, g3]
    ring

theorem tuckerElem_foldl {D : List Nat} (T : List Nat → S) (P : Nat → Nat → Nat → S) {j : List Nat} (hj : InBox j D) :
    tuckerElem D T P j = (List.range D.length).foldl (fun f m => modeMul m (D.getD m 0) (P m) f) T j := by
  rw [foldl_modeMul T P D.length (Nat.le_refl _) j hj.length, List.take_length]
  unfold tuckerElem
  apply sum_congr_list
  intro k _
  rw [List.drop_eq_nil_of_le (by rw [hj.length]), List.append_nil]

/-! ### One vector -/

theorem proj_orth {d : Nat} {P : Matrix (Fin d) (Fin d) S} (hs : Pᵀ = P) (hp : P * P = P) (u v : Fin d → S) :
    (u - P *ᵥ u) ⬝ᵥ (P *ᵥ v) = 0 := by
  have : (u - P *ᵥ u) ᵥ* P = 0 := by
    rw [← Matrix.mulVec_transpose, hs, Matrix.mulVec_sub, Matrix.mulVec_mulVec, hp, sub_self]
  rw [Matrix.dotProduct_mulVec, this, zero_dotProduct]

variable [LinearOrder S] [IsStrictOrderedRing S]

theorem dot_self_nonneg {d : Nat} (u : Fin d → S) : 0 ≤ u ⬝ᵥ u :=
  Finset.sum_nonneg fun i _ => mul_self_nonneg (u i)

theorem proj_split {d : Nat} {P : Matrix (Fin d) (Fin d) S} (hs : Pᵀ = P) (hp : P * P = P) (f g : Fin d → S) :
    (f - P *ᵥ g) ⬝ᵥ (f - P *ᵥ g) ≤ (f - P *ᵥ f) ⬝ᵥ (f - P *ᵥ f) + (f - g) ⬝ᵥ (f - g) := by
  have e1 : f - P *ᵥ g = (f - P *ᵥ f) + P *ᵥ (f - g) := by rw [Matrix.mulVec_sub]; abel
  have o1 := proj_orth hs hp f (f - g)
  have o2 := proj_orth hs hp (f - g) (f - g)
  have e2 : (f - g) ⬝ᵥ (f - g) = (P *ᵥ (f - g)) ⬝ᵥ (P *ᵥ (f - g)) +
      ((f - g) - P *ᵥ (f - g)) ⬝ᵥ ((f - g) - P *ᵥ (f - g)) := by
    have : ∀ x y : Fin d → S, (x - y) ⬝ᵥ y = 0 → x ⬝ᵥ x = y ⬝ᵥ y + (x - y) ⬝ᵥ (x - y) := by
      intro x y h
      have hx : x = (x - y) + y := by abel
      have c := dotProduct_comm y (x - y)
      calc x ⬝ᵥ x = ((x - y) + y) ⬝ᵥ ((x - y) + y) := by rw [← hx]
        _ = _ := by rw [add_dotProduct, dotProduct_add, dotProduct_add, c, h]; ring
    exact this _ _ o2
  have n := dot_self_nonneg ((f - g) - P *ᵥ (f - g))
  rw [e1]
  have c := dotProduct_comm (P *ᵥ (f - g)) (f - P *ᵥ f)
  rw [add_dotProduct, dotProduct_add, dotProduct_add, c, o1, e2]
  linarith

/-! ### One axis -/

omit [LinearOrder S] [IsStrictOrderedRing S] in
theorem sum_fibres {D : List Nat} {m : Nat} (hm : m < D.length) (g : List Nat → S) :
    ((box D).map g).sum = ((box (D.eraseIdx m)).map fun j => ∑ a : Fin D[m], g (j.insertIdx m a)).sum := by
  rw [sum_box_insert hm]
  unfold sumTo
  rw [sum_list_comm]
  apply sum_congr_list
  intro j _
  exact sumTo_fin _ _

omit [LinearOrder S] [IsStrictOrderedRing S] in
theorem modeMul_fibre {D : List Nat} {m : Nat} (hm : m < D.length) (C : Nat → Nat → S) (f : List Nat → S) {j : List Nat}
    (hj : InBox j (D.eraseIdx m)) (a : Fin D[m]) :
    modeMul m D[m] C f (j.insertIdx m a) = (mat D[m] D[m] C *ᵥ fun c => f (j.insertIdx m c)) a := by
  have hjl : m ≤ j.length := by
    rw [hj.length, List.length_eraseIdx_of_lt hm]
    omega
  unfold modeMul
  rw [sumTo_fin]
  unfold Matrix.mulVec dotProduct
  apply Finset.sum_congr rfl
  intro c _
  have e1 : (j.insertIdx m a.1).getD m 0 = a := by
    rw [List.getD_eq_getElem?_getD, List.getElem?_insertIdx_self]
    simp [hjl]
  have e2 : (j.insertIdx m a.1).set m c.1 = j.insertIdx m c.1 := by
    rw [← insertIdx_eraseIdx (by rw [List.length_insertIdx]; split <;> omega), List.eraseIdx_insertIdx_self]
  rw [e1, e2, mul_comm]
  rfl

/-- Projecting `g` along one axis: its distance from `f` is bounded by that of `g` and the error of projecting `f`. -/
theorem modeMul_split {D : List Nat} {m : Nat} (hm : m < D.length) {C : Nat → Nat → S} (hs : (mat D[m] D[m] C)ᵀ = mat D[m] D[m] C)
    (hp : mat D[m] D[m] C * mat D[m] D[m] C = mat D[m] D[m] C) (f g : List Nat → S) :
    ((box D).map fun j => (f j - modeMul m D[m] C g j) ^ 2).sum
      ≤ ((box D).map fun j => (f j - modeMul m D[m] C f j) ^ 2).sum + ((box D).map fun j => (f j - g j) ^ 2).sum := by
  rw [sum_fibres hm, sum_fibres hm, sum_fibres hm, ← List.sum_map_add]
  apply List.sum_le_sum
  intro j hj
  have hj := mem_box.1 hj
  have := proj_split hs hp (fun c => f (j.insertIdx m c)) (fun c => g (j.insertIdx m c))
  unfold dotProduct at this
  simp only [Pi.sub_apply, ← modeMul_fibre hm C _ hj, ← pow_two] at this
  exact this

/-- Projecting along every axis: the error is at most the sum of the errors of projecting along each. -/
theorem tuckerElem_error {D : List Nat} (T : List Nat → S) {P : Nat → Nat → Nat → S}
    (hs : ∀ (m : Nat) (hm : m < D.length), (mat D[m] D[m] (P m))ᵀ = mat D[m] D[m] (P m))
    (hp : ∀ (m : Nat) (hm : m < D.length), mat D[m] D[m] (P m) * mat D[m] D[m] (P m) = mat D[m] D[m] (P m)) :
    ((box D).map fun j => (T j - tuckerElem D T P j) ^ 2).sum
      ≤ sumTo D.length fun m => ((box D).map fun j => (T j - modeMul m (D.getD m 0) (P m) T j) ^ 2).sum := by
  have key : ∀ i, i ≤ D.length →
      ((box D).map fun j => (T j - (List.range i).foldl (fun f m => modeMul m (D.getD m 0) (P m) f) T j) ^ 2).sum
      ≤ sumTo i fun m => ((box D).map fun j => (T j - modeMul m (D.getD m 0) (P m) T j) ^ 2).sum := by
    intro i
    induction i with
    | zero => intro _; simp [sumTo]
    | succ i ih =>
      intro hi
      have hi' : i < D.length := by omega
      rw [List.range_succ, List.foldl_append]
      simp only [List.foldl_cons, List.foldl_nil]
      have e : D.getD i 0 = D[i] := getElem?_getD (List.getElem?_eq_getElem hi')
      have := modeMul_split hi' (hs i hi') (hp i hi') T ((List.range i).foldl (fun f m => modeMul m (D.getD m 0) (P m) f) T)
      have ih := ih (by omega)
      have st : sumTo (i + 1) (fun m => ((box D).map fun j => (T j - modeMul m (D.getD m 0) (P m) T j) ^ 2).sum)
          = sumTo i (fun m => ((box D).map fun j => (T j - modeMul m (D.getD m 0) (P m) T j) ^ 2).sum)
            + ((box D).map fun j => (T j - modeMul i D[i] (P i) T j) ^ 2).sum := by
        unfold sumTo
        rw [List.range_succ, List.map_append, List.sum_append]
        rw [List.map_singleton, List.sum_singleton, e]
      rw [st, e]
      linarith
  have := key D.length (Nat.le_refl _)
  refine le_trans (le_of_eq ?_) this
  apply sum_congr_list
  intro j hj
  rw [tuckerElem_foldl T P (mem_box.1 hj)]

/-! ### The singular values -/

omit [LinearOrder S] [IsStrictOrderedRing S] in
/-- The projection on the first `r` columns of an orthogonal matrix. -/
theorem leadingProj_eq {m r : Nat} (U : Nat → Nat → S) (hr : r ≤ m) :
    mat m m (fun a b => sumTo r fun x => U a x * U b x) = mat m m U * Matrix.diagonal (fun x => if x.1 < r then 1 else 0) * (mat m m U)ᵀ := by
  ext a b
  rw [Matrix.mul_apply]
  simp only [Matrix.mul_diagonal, Matrix.transpose_apply, mat]
  rw [sumTo_crop hr]
  apply Finset.sum_congr rfl
  intro x _
  split <;> simp

omit [LinearOrder S] [IsStrictOrderedRing S] in
theorem leadingProj_symm {m r : Nat} (U : Nat → Nat → S) :
    (mat m m (fun a b => sumTo r fun x => U a x * U b x))ᵀ = mat m m (fun a b => sumTo r fun x => U a x * U b x) := by
  ext a b
  simp only [Matrix.transpose_apply, mat, mul_comm]

omit [LinearOrder S] [IsStrictOrderedRing S] in
theorem leadingProj_idem {m r : Nat} {U : Nat → Nat → S} (hr : r ≤ m) (h : (mat m m U)ᵀ * mat m m U = 1) :
    mat m m (fun a b => sumTo r fun x => U a x * U b x) * mat m m (fun a b => sumTo r fun x => U a x * U b x)
      = mat m m (fun a b => sumTo r fun x => U a x * U b x) := by
  rw [leadingProj_eq U hr]
  generalize hE : Matrix.diagonal (fun x : Fin m => if x.1 < r then (1 : S) else 0) = E
  have hEE : E * E = E := by
    rw [← hE, Matrix.diagonal_mul_diagonal]
    congr 1
    funext x
    split <;> simp
  calc mat m m U * E * (mat m m U)ᵀ * (mat m m U * E * (mat m m U)ᵀ)
      = mat m m U * (E * (((mat m m U)ᵀ * mat m m U) * E)) * (mat m m U)ᵀ := by simp only [Matrix.mul_assoc]
    _ = _ := by rw [h, Matrix.one_mul, hEE]

omit [LinearOrder S] [IsStrictOrderedRing S] in
theorem trace_sq {m n : Nat} (M : Matrix (Fin m) (Fin n) S) : ∑ c, ∑ a, M a c ^ 2 = (Mᵀ * M).trace := by
  unfold Matrix.trace
  apply Finset.sum_congr rfl
  intro c _
  rw [Matrix.diag_apply, Matrix.mul_apply]
  apply Finset.sum_congr rfl
  intro a _
  rw [Matrix.transpose_apply, pow_two]

omit [LinearOrder S] [IsStrictOrderedRing S] in
/-- The error of projecting on the first `r` left singular vectors: the sum of the squares of the other singular values. -/
theorem svd_error {m n r : Nat} {A U Vt : Nat → Nat → S} {s : Nat → S} (h : IsSvd m n A s U Vt) (hr : r ≤ m) :
    ∑ c, ∑ a, (mat m n A - mat m m (fun a b => sumTo r fun x => U a x * U b x) * mat m n A) a c ^ 2
      = sumTo (min m n) fun x => if r ≤ x then s x ^ 2 else 0 := by
  let E : Matrix (Fin m) (Fin m) S := Matrix.diagonal fun x => if x.1 < r then 1 else 0
  let Z : Matrix (Fin m) (Fin n) S := diagRect m n fun x => if r ≤ x then s x else 0
  have e1 : diagRect m n s - E * diagRect m n s = Z := by
    ext i j
    rw [Matrix.sub_apply, Matrix.diagonal_mul]
    simp only [diagRect, Z]
    by_cases hi : i.1 < r
    · rw [if_pos hi, if_neg (show ¬ r ≤ i.1 by omega)]
      simp
    · rw [if_neg hi, if_pos (show r ≤ i.1 by omega)]
      simp
  have e2 : mat m n A - mat m m (fun a b => sumTo r fun x => U a x * U b x) * mat m n A = mat m m U * Z * mat n n Vt := by
    rw [leadingProj_eq U hr, ← h.eq, ← e1]
    calc mat m m U * diagRect m n s * mat n n Vt - mat m m U * E * (mat m m U)ᵀ * (mat m m U * diagRect m n s * mat n n Vt)
        = mat m m U * diagRect m n s * mat n n Vt - mat m m U * (E * (((mat m m U)ᵀ * mat m m U) * diagRect m n s)) * mat n n Vt := by
          simp only [Matrix.mul_assoc]
      _ = _ := by rw [h.left, Matrix.one_mul, Matrix.mul_sub, Matrix.sub_mul]
  rw [e2, trace_sq]
  have e3 : (mat m m U * Z * mat n n Vt)ᵀ * (mat m m U * Z * mat n n Vt) = (mat n n Vt)ᵀ * ((Zᵀ * Z) * mat n n Vt) := by
    rw [Matrix.transpose_mul, Matrix.transpose_mul]
    calc (mat n n Vt)ᵀ * (Zᵀ * (mat m m U)ᵀ) * (mat m m U * Z * mat n n Vt)
        = (mat n n Vt)ᵀ * (Zᵀ * (((mat m m U)ᵀ * mat m m U) * Z) * mat n n Vt) := by simp only [Matrix.mul_assoc]
      _ = _ := by rw [h.left, Matrix.one_mul]
  rw [e3, Matrix.trace_mul_comm, Matrix.mul_assoc, h.right, Matrix.mul_one, ← trace_sq]
  have e4 : ∀ c : Fin n, ∑ a : Fin m, Z a c ^ 2 = if c.1 < min m n then (if r ≤ c.1 then s c.1 ^ 2 else 0) else 0 := by
    intro c
    by_cases hc : c.1 < m
    · rw [Finset.sum_eq_single ⟨c.1, hc⟩]
      · rw [if_pos (by have := c.2; omega)]
        simp only [Z, diagRect, if_true]
        split <;> simp
      · intro b _ hb
        have : b.1 ≠ c.1 := fun e => hb (Fin.ext e)
        simp [Z, diagRect, this]
      · intro h; exact absurd (Finset.mem_univ _) h
    · rw [if_neg (by omega)]
      apply Finset.sum_eq_zero
      intro b _
      have : b.1 ≠ c.1 := by have := b.2; omega
      simp [Z, diagRect, this]
  rw [sumTo_crop (m := n) (Nat.min_le_right m n)]
  exact Finset.sum_congr rfl fun c _ => e4 c

omit [LinearOrder S] [IsStrictOrderedRing S] in
/-- The same, for an axis of a tensor. -/
theorem modeMul_svd_error {D : List Nat} {m r : Nat} (hm : m < D.length) (T : List Nat → S) {U Vt : Nat → Nat → S} {s : Nat → S}
    (h : IsSvd D[m] (numel (D.eraseIdx m)) (unfolding D T m) s U Vt) (hr : r ≤ D[m]) :
    ((box D).map fun j => (T j - modeMul m D[m] (fun a b => sumTo r fun x => U a x * U b x) T j) ^ 2).sum
      = sumTo (min D[m] (numel (D.eraseIdx m))) fun x => if r ≤ x then s x ^ 2 else 0 := by
  rw [← svd_error h hr, sum_fibres hm]
  have hl : (box (D.eraseIdx m)).length = numel (D.eraseIdx m) := by
    have := congrArg List.length (map_rowMajor_box (D.eraseIdx m))
    simpa using this
  have key : ∀ g : List Nat → S, ((box (D.eraseIdx m)).map g).sum = ∑ c : Fin (numel (D.eraseIdx m)), g ((box (D.eraseIdx m)).getD c []) := by
    intro g
    rw [← sumTo_fin (numel (D.eraseIdx m)) fun c => g ((box (D.eraseIdx m)).getD c [])]
    unfold sumTo
    congr 1
    apply List.ext_getElem
    · simp [hl]
    · intro i h1 h2
      simp [List.getD_eq_getElem?_getD, show i < (box (D.eraseIdx m)).length by simpa using h1]
  rw [key]
  apply Finset.sum_congr rfl
  intro c _
  apply Finset.sum_congr rfl
  intro a _
  obtain ⟨h1, _⟩ := box_getD c.2
  rw [modeMul_fibre hm _ _ h1 a]
  rfl

end
end Einsums
