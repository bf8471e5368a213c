import Verif.Proofs.PythonIndices
/-
C49 and C73: the Python iterator over the indices of a tensor.
-/
namespace Einsums.Props
open Spec Model

/-- **C49.** For every shape: a loop over `TensorIndices(t)` yields every multi-index of the shape exactly once, in row-major
order, and then stops. -/
theorem C49_indices (dims : List Nat) (n : Nat) (hn : numel dims < n) :
    ∃ t t', TensorIndices.init dims none = .ok t ∧ t.collect n = .ok (box dims, t') ∧ t'.next = .error "StopIteration" := by
  refine ⟨_, ⟨numel dims, pyStrides dims, false, numel dims⟩, rfl, ?_, ?_⟩
  · have := collect_forward (dims := dims) n 0 (by omega) (by omega)
    rw [init_fold]
    simpa using this
  · unfold TensorIndices.next
    rw [if_pos (by simp)]

example : (TensorIndices.init [2, 3] none >>= fun t => t.collect 100) =
    .ok ([[0, 0], [0, 1], [0, 2], [1, 0], [1, 1], [1, 2]], ⟨6, [3, 1], false, 6⟩) := by decide

/-- **C73 (refuted).** `reversed(TensorIndices(t))` yields only the first multi-index of a tensor with several elements, and the
keyword argument `reverse` raises an exception. -/
theorem C73_reversed_refuted (dims : List Nat) (h : 2 ≤ numel dims) (b : Bool) :
    (∃ t, TensorIndices.init dims none = .ok t ∧
      ∀ n, 2 ≤ n → ∃ t', t.reversed.collect n = .ok ([dims.map fun _ => 0], t')) ∧
    TensorIndices.init dims (some b) = .error "AttributeError" := by
  refine ⟨⟨_, rfl, ?_⟩, rfl⟩
  intro n hn
  obtain ⟨n, rfl⟩ : ∃ k, n = k + 2 := ⟨n - 2, by omega⟩
  rw [init_fold]
  have hz : ∀ ds : List Nat, numel ds ≠ 0 → InBox (ds.map fun _ => 0) ds ∧ rowMajor (ds.map fun _ => 0) ds = 0 := by
    intro ds
    induction ds with
    | nil => intro _; exact ⟨trivial, rfl⟩
    | cons d ds ih =>
      intro hne
      rw [numel_cons] at hne
      obtain ⟨h1, h2⟩ := ih (fun e => hne (by rw [e, Nat.mul_zero]))
      refine ⟨⟨Nat.pos_of_ne_zero fun e => hne (by rw [e, Nat.zero_mul]), h1⟩, ?_⟩
      simp only [List.map_cons, rowMajor_cons, h2, Nat.zero_mul]
  obtain ⟨h1, h2⟩ := hz dims (by omega)
  have h3 := divmod_rowMajor h1
  rw [h2] at h3
  have e1 : TensorIndices.next (TensorIndices.reversed ⟨0, pyStrides dims, false, numel dims⟩) =
      .ok (dims.map fun _ => 0, ⟨-1, pyStrides dims, true, numel dims⟩) := by
    unfold TensorIndices.next TensorIndices.reversed
    rw [if_neg (by simp only; omega)]
    simp only [Int.toNat_zero, h3, Outcome.ok_bind]
    rfl
  have e2 : TensorIndices.next ⟨-1, pyStrides dims, true, numel dims⟩ = .error "StopIteration" := by
    unfold TensorIndices.next
    rw [if_pos (by simp)]
  refine ⟨⟨-1, pyStrides dims, true, numel dims⟩, ?_⟩
  unfold TensorIndices.collect
  rw [e1]
  simp only
  unfold TensorIndices.collect
  rw [e2]
  rfl

/-- **C73 (partial).** `reversed(it)`, where `it` has yielded `c` of the multi-indices and not all: it yields the multi-index
number `c` and those before it, in reverse row-major order, and then stops. -/
theorem C73_reversed_partial (dims : List Nat) (c n : Nat) (hc : c < numel dims) (hn : c + 1 < n) :
    ∃ t t' t'', TensorIndices.init dims none = .ok t ∧ t.collect c = .ok ((box dims).take c, t') ∧
      t'.reversed.collect n = .ok (((box dims).take (c + 1)).reverse, t'') ∧ t''.next = .error "StopIteration" := by
  refine ⟨_, ⟨c, pyStrides dims, false, numel dims⟩, _, rfl, ?_, collect_backward c n hc hn, ?_⟩
  · rw [init_fold]
    have := collect_some (dims := dims) c 0 (by omega)
    simpa only [List.drop_zero, Nat.zero_add, Nat.cast_zero] using this
  · unfold TensorIndices.next
    rw [if_pos (by simp)]

example : (TensorIndices.init [2, 3] none >>= fun t => t.collect 2 >>= fun r => r.2.reversed.collect 100) =
    .ok ([[0, 2], [0, 1], [0, 0]], ⟨-1, [3, 1], true, 6⟩) := by decide

end Einsums.Props
