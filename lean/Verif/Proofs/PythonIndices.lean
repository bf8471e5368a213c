import Verif.Model.PythonIndices
import Verif.Proofs.Index
/-
The Python iterator over the indices of a tensor.
-/
namespace Einsums
open Spec Model

/-- Strides of the constructor. -/
def pyStrides : List Nat → List Nat
  | [] => []
  | _ :: ds => numel ds :: pyStrides ds

theorem init_fold (dims : List Nat) :
    dims.foldr (fun (d : Nat) (s : List Nat × Nat) => (s.2 :: s.1, s.2 * d)) ([], 1) = (pyStrides dims, numel dims) := by
  induction dims with
  | nil => rfl
  | cons d ds ih => rw [List.foldr_cons, ih]; simp [pyStrides, Nat.mul_comm]

theorem divmod_rowMajor {i dims : List Nat} (h : InBox i dims) :
    divmodLoop (pyStrides dims) (rowMajor i dims) = .ok i := by
  induction dims generalizing i with
  | nil => cases i with
    | nil => rfl
    | cons a i => exact h.elim
  | cons d ds ih => cases i with
    | nil => exact h.elim
    | cons a i =>
      have hlt := rowMajor_lt h.2
      simp only [pyStrides, rowMajor_cons, divmodLoop]
      rw [if_neg (by omega), Nat.mul_comm, Nat.mul_add_mod, Nat.mod_eq_of_lt hlt, ih h.2, Outcome.ok_bind,
        Nat.mul_add_div (by omega), Nat.div_eq_of_lt hlt]
      rfl

theorem divmod_eq {dims : List Nat} {c : Nat} (h : c < numel dims) :
    ∃ i, (box dims)[c]? = some i ∧ divmodLoop (pyStrides dims) c = .ok i := by
  have hl : (box dims).length = numel dims := by
    have := congrArg List.length (map_rowMajor_box dims); simpa using this
  have hc : c < (box dims).length := by omega
  have hi : InBox (box dims)[c] dims := mem_box.1 (List.getElem_mem hc)
  have e : rowMajor (box dims)[c] dims = c := by
    have h2 : ((box dims).map (fun i => rowMajor i dims))[c]'(by simpa using hc) = c := by
      simp only [map_rowMajor_box, List.getElem_range]
    simpa using h2
  refine ⟨(box dims)[c], List.getElem?_eq_getElem hc, ?_⟩
  have := divmod_rowMajor hi
  rwa [e] at this

theorem collect_forward {dims : List Nat} (n c : Nat) (hc : c ≤ numel dims) (hn : numel dims < c + n) :
    TensorIndices.collect n ⟨c, pyStrides dims, false, numel dims⟩ =
      .ok ((box dims).drop c, ⟨numel dims, pyStrides dims, false, numel dims⟩) := by
  have hl : (box dims).length = numel dims := by
    have := congrArg List.length (map_rowMajor_box dims); simpa using this
  induction n generalizing c with
  | zero => omega
  | succ n ih =>
    unfold TensorIndices.collect
    by_cases h : c = numel dims
    · subst h
      have : TensorIndices.next ⟨(numel dims : Nat), pyStrides dims, false, numel dims⟩ = .error "StopIteration" := by
        unfold TensorIndices.next
        rw [if_pos (by simp)]
      rw [this, List.drop_eq_nil_of_le (by omega)]
      rfl
    · obtain ⟨i, h1, h2⟩ := divmod_eq (dims := dims) (c := c) (by omega)
      have : TensorIndices.next ⟨(c : Nat), pyStrides dims, false, numel dims⟩ =
          .ok (i, ⟨((c + 1 : Nat) : Int), pyStrides dims, false, numel dims⟩) := by
        unfold TensorIndices.next
        rw [if_neg (by simp only; omega)]
        simp only [Int.toNat_natCast, h2, Outcome.ok_bind, Bool.false_eq_true, if_false]
        rfl
      rw [this]
      simp only
      rw [ih (c + 1) (by omega) (by omega), Outcome.ok_bind, ← List.getElem_cons_drop (as := box dims) (i := c) (by omega)]
      have : (box dims)[c]'(by omega) = i := by
        rw [List.getElem?_eq_getElem (by omega)] at h1; exact Option.some.inj h1
      rw [this]
      rfl

theorem collect_backward {dims : List Nat} (c n : Nat) (hc : c < numel dims) (hn : c + 1 < n) :
    TensorIndices.collect n ⟨c, pyStrides dims, true, numel dims⟩ =
      .ok (((box dims).take (c + 1)).reverse, ⟨-1, pyStrides dims, true, numel dims⟩) := by
  have hl : (box dims).length = numel dims := by
    have := congrArg List.length (map_rowMajor_box dims); simpa using this
  induction c generalizing n with
  | zero =>
    obtain ⟨n, rfl⟩ : ∃ k, n = k + 2 := ⟨n - 2, by omega⟩
    obtain ⟨i, h1, h2⟩ := divmod_eq (dims := dims) (c := 0) (by omega)
    have e1 : TensorIndices.next ⟨((0 : Nat) : Int), pyStrides dims, true, numel dims⟩ =
        .ok (i, ⟨-1, pyStrides dims, true, numel dims⟩) := by
      unfold TensorIndices.next
      rw [if_neg (by simp only; omega)]
      simp only [Int.toNat_natCast, h2, Outcome.ok_bind]
      rfl
    have e2 : TensorIndices.next ⟨-1, pyStrides dims, true, numel dims⟩ = .error "StopIteration" := by
      unfold TensorIndices.next
      rw [if_pos (by simp)]
    unfold TensorIndices.collect
    rw [e1]
    simp only
    unfold TensorIndices.collect
    rw [e2]
    simp [List.take_one, List.head?_eq_getElem?, h1]
  | succ c ih =>
    obtain ⟨n, rfl⟩ : ∃ k, n = k + 1 := ⟨n - 1, by omega⟩
    obtain ⟨i, h1, h2⟩ := divmod_eq (dims := dims) (c := c + 1) (by omega)
    have e1 : TensorIndices.next ⟨((c + 1 : Nat) : Int), pyStrides dims, true, numel dims⟩ =
        .ok (i, ⟨(c : Int), pyStrides dims, true, numel dims⟩) := by
      unfold TensorIndices.next
      rw [if_neg (by simp only; omega)]
      simp only [Int.toNat_natCast, h2, Outcome.ok_bind, if_true]
      rw [show ((c + 1 : Nat) : Int) - 1 = c by omega]
      rfl
    unfold TensorIndices.collect
    rw [e1]
    simp only
    rw [ih n (by omega) (by omega), Outcome.ok_bind, List.take_add_one (i := c + 1), h1]
    simp

theorem collect_some {dims : List Nat} (k a : Nat) (ha : a + k < numel dims) :
    TensorIndices.collect k ⟨a, pyStrides dims, false, numel dims⟩ =
      .ok (((box dims).drop a).take k, ⟨((a + k : Nat) : Int), pyStrides dims, false, numel dims⟩) := by
  have hl : (box dims).length = numel dims := by
    have := congrArg List.length (map_rowMajor_box dims); simpa using this
  induction k generalizing a with
  | zero => simp [TensorIndices.collect]
  | succ k ih =>
    obtain ⟨i, h1, h2⟩ := divmod_eq (dims := dims) (c := a) (by omega)
    have e1 : TensorIndices.next ⟨(a : Int), pyStrides dims, false, numel dims⟩ =
        .ok (i, ⟨((a + 1 : Nat) : Int), pyStrides dims, false, numel dims⟩) := by
      unfold TensorIndices.next
      rw [if_neg (by simp only; omega)]
      simp only [Int.toNat_natCast, h2, Outcome.ok_bind, Bool.false_eq_true, if_false]
      rfl
    unfold TensorIndices.collect
    rw [e1]
    simp only
    rw [ih (a + 1) (by omega), Outcome.ok_bind, ← List.getElem_cons_drop (as := box dims) (i := a) (by omega)]
    have : (box dims)[a]'(by omega) = i := by
      rw [List.getElem?_eq_getElem (by omega)] at h1; exact Option.some.inj h1
    rw [this, List.take_succ_cons, show a + 1 + k = a + (k + 1) by omega]
    rfl

end Einsums
