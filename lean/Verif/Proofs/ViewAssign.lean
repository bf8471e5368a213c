import Verif.Model.ViewAssign
import Verif.Proofs.TensorAlgebra
/-
Assignments to views: the loops.
-/
namespace Einsums
open Spec Model

variable {α : Type}

/-- Two views that share storage behave as two that do not, as long as no written element is read at a later index. -/
theorem viewAssign_shared {dst src : Strided α} {f : List Nat → α} :
    ∀ {sched : List (List Nat)}, sched.Nodup → dst.WF →
      (∀ i ∈ sched, InBox i dst.dims) →
      (∀ i ∈ sched, InBox i src.dims ∧ src.off + dot i src.strides < dst.data.length) →
      (∀ i ∈ sched, dst.data[src.off + dot i src.strides]? = some (f i)) →
      (∀ i ∈ sched, ∀ j ∈ sched, i ≠ j →
        dst.off + dot i dst.strides ≠ src.off + dot j src.strides) →
      dst.viewAssign true src sched =
        sched.foldlM (fun d i => d.write (toIdx i) (f i)) dst := by
  intro sched
  induction sched generalizing dst with
  | nil => intros; rfl
  | cons i rest ih =>
    intro hn w hd hs hv ha
    have hi := hs i (by simp)
    have rd : (src.seen true dst).read (toIdx i) = .ok (f i) := by
      have e : (src.seen true dst) = { src with data := dst.data } := rfl
      rw [e, read_eq (t := { src with data := dst.data }) (pyIndices_toIdx hi.1) hi.2]
      have := hv i (by simp)
      rw [List.getElem?_eq_getElem hi.2] at this
      simpa using this
    have wr := write_eq (pyIndices_toIdx (hd i (by simp))) (w.bound i (hd i (by simp))) (f i)
    have step := ih (dst := { dst with data := dst.data.set (dst.off + dot i dst.strides) (f i) })
      (List.nodup_cons.1 hn).2 ⟨w.len, by simpa using w.bound, w.inj⟩
      (fun j hj => hd j (by simp [hj])) (fun j hj => by simpa using hs j (by simp [hj]))
      (fun j hj => by
        have hne : i ≠ j := fun h => (List.nodup_cons.1 hn).1 (h ▸ hj)
        simp only
        rw [List.getElem?_set_ne (ha i (by simp) j (by simp [hj]) hne)]
        exact hv j (by simp [hj]))
      (fun a h1 b h2 => ha a (by simp [h1]) b (by simp [h2]))
    unfold Strided.viewAssign at step ⊢
    rw [List.foldlM_cons, List.foldlM_cons, rd]
    change (dst.write (toIdx i) (f i) >>= _) = _
    rw [wr]
    exact step

theorem foldlM_write {dst : Strided α} {f g : List Nat → α} (w : dst.WF) (hf : dst.Represents f)
    {sched : List (List Nat)} (hs : sched.Perm (box dst.dims)) :
    ∃ d, sched.foldlM (fun d i => d.write (toIdx i) (g i)) dst = .ok d ∧ dst.Frame d ∧ d.Represents g :=
  updateAll w hf hs (fun i _ => g i) _ (fun _ _ _ _ _ _ => rfl)

theorem represents_exists {t : Strided α} (w : t.WF) (g : List Nat → α) : ∃ f, t.Represents f := by
  refine ⟨fun j => (t.data[t.off + dot j t.strides]?).getD (g j), (represents_iff w).2 ?_⟩
  intro j hj
  rw [List.getElem?_eq_getElem (w.bound j hj)]; rfl

/-- The running counter of a loop over the indices in row-major order is the row-major position. -/
theorem zipIdx_box (ds : List Nat) : (box ds).zipIdx = (box ds).map fun i => (i, rowMajor i ds) := by
  apply List.ext_getElem (by simp)
  intro n h1 h2
  simp only [List.getElem_zipIdx, List.getElem_map]
  have hlen : n < ((box ds).map fun i => rowMajor i ds).length := by simpa using h1
  have e : ((box ds).map fun i => rowMajor i ds)[n] = n := by
    simp only [map_rowMajor_box, List.getElem_range]
  simp only [List.getElem_map] at e
  rw [e]; simp

end Einsums
