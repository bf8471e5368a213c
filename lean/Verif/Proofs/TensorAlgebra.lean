import Verif.Model.TensorAlgebra
import Verif.Proofs.DotPath
import Verif.Spec.Operand
import Mathlib.Data.List.Perm.Basic
/-
Element-wise loops in any order, axpby, HPTT's contract, sort, unfold.
-/
namespace Einsums
open Spec Model

variable {R : Type}

/-- A loop that updates every element once, in any order. -/
theorem updateAll {C : Strided R} {f : List Nat → R} (w : C.WF) (hf : C.Represents f)
    {sched : List (List Nat)} (hs : sched.Perm (box C.dims)) (g : List Nat → R → R)
    (step : Strided R → List Nat → Outcome (Strided R))
    (hstep : ∀ (C' : Strided R) i f', InBox i C.dims → C'.dims = C.dims → C'.Represents f' →
      step C' i = C'.write (toIdx i) (g i (f' i))) :
    ∃ C', sched.foldlM step C = .ok C' ∧ C.Frame C' ∧ C'.Represents fun i => g i (f i) := by
  obtain ⟨C', h1, fr, r⟩ := foldlM_update sched (hs.nodup_iff.2 (nodup_box _))
    (fun i hi => mem_box.1 (hs.mem_iff.1 hi)) w hf g step
    (fun C' i f' hi => hstep C' i f' (mem_box.1 (hs.mem_iff.1 hi)))
  refine ⟨C', h1, fr, ?_⟩
  intro i hi
  rw [r i hi]
  simp only
  rw [if_pos (hs.mem_iff.2 (mem_box.2 (by rw [← fr.dims]; exact hi)))]

theorem setAll_represents {t : Strided R} (h : t.IsTensor) (v : R) :
    t.Frame (t.setAll v) ∧ (t.setAll v).Represents fun _ => v := by
  have hz : (t.setAll v).IsTensor := ⟨h.off, h.strides, by simp [Strided.setAll, h.length]⟩
  refine ⟨⟨rfl, rfl, rfl, by simp [Strided.setAll], ?_⟩, ?_⟩
  · intro p hp
    by_cases hl : p < t.data.length
    · exfalso
      have hl' := hl
      rw [h.length] at hl
      apply hp (unflat t.dims p) (unflat_inBox hl)
      rw [h.off, h.strides, dot_strides_eq (unflat_inBox hl).length, rowMajor_unflat hl, Nat.zero_add]
    · rw [List.getElem?_eq_none (l := t.data) (by omega),
        List.getElem?_eq_none (by simp only [Strided.setAll, List.length_replicate]; omega)]
  · rw [hz.represents_iff]
    apply List.ext_getElem
    · rw [List.length_map, length_box, hz.length]
    · intro n h1 h2; simp [Strided.setAll]

theorem readAll_eq {i : List Nat} {ts : List (Strided R)} {fs : List (List Nat → R)}
    (h : List.Forall₂ (fun t f => t.Represents f ∧ InBox i t.dims) ts fs) :
    readAll i ts = .ok (fs.map fun f => f i) := by
  induction h with
  | nil => rfl
  | cons h _ ih => simp [readAll, h.1 i h.2, ih]

theorem dim0_stride0 {t : Strided R} (h : t.RowMajor) (h0 : t.dims ≠ []) : t.dim 0 * t.stride 0 = numel t.dims := by
  unfold Strided.dim Strided.stride
  rw [h.strides]
  match hd : t.dims with
  | [] => exact (h0 hd).elim
  | d :: ds => rw [dimsToStrides_snd_cons]; simp

section lawfree
variable [Add R] [Mul R]

/-- `axpy` on row-major tensors of one shape. -/
theorem axpy_rowMajor {X Y : Strided R} (hX : X.RowMajor) (hY : Y.RowMajor) (hd : X.dims = Y.dims) (h0 : Y.dims ≠ [])
    {fX fY : List Nat → R} (rX : X.Represents fX) (rY : Y.Represents fY) (a : R) :
    ∃ Y', axpy a X Y = .ok Y' ∧ Y.Frame Y' ∧ Y'.Represents fun i => fY i + a * fX i := by
  have hn := dim0_stride0 hX (hd ▸ h0)
  have gX : ∀ i, i < numel Y.dims → X.data[X.off + i * 1]? = some (fX (unflat Y.dims i)) := by
    intro i hi
    have := rowMajor_get hX rX (i := unflat Y.dims i) (by rw [hd]; exact unflat_inBox hi)
    rw [hd, rowMajor_unflat hi] at this
    rw [Nat.mul_one]; exact this
  obtain ⟨m, h1, h2, h3, h4⟩ := memLoop (List.range (numel Y.dims)) (fun i => Y.off + i * 1)
    (fun i old => do
      let u ← memGet X.data (X.off + i * 1)
      return old + a * u) (fun i old => old + a * fX (unflat Y.dims i)) Y.data
    (List.nodup_range.map fun x y e => by simpa using e)
    (by
      intro b hb
      have := hY.fits
      have := List.mem_range.1 hb
      simp; omega)
    (by
      intro b hb old _
      simp only [memGet, gX b (List.mem_range.1 hb)]; rfl)
  have hs : axpy a X Y = .ok { Y with data := m } := by
    unfold axpy blasAxpy
    rw [hn, hd]
    rw [h1]; rfl
  obtain ⟨fr, r⟩ := frame_of_mem hY.wf h2 (f' := fun i => fY i + a * fX i)
    (by
      intro j hj
      rw [hY.strides, dot_strides_eq hj.length]
      have := h3 (rowMajor j Y.dims) (List.mem_range.2 (rowMajor_lt hj))
      simp only [Nat.mul_one] at this
      rw [this, rowMajor_get hY rY hj, unflat_rowMajor hj]; rfl)
    (by
      intro p hp
      apply h4
      intro hm
      obtain ⟨k, hk, rfl⟩ := List.mem_map.1 hm
      have hk := List.mem_range.1 hk
      apply hp (unflat Y.dims k) (unflat_inBox hk)
      rw [hY.strides, dot_strides_eq (unflat_inBox hk).length, rowMajor_unflat hk]
      simp)
  exact ⟨_, hs, fr, r⟩

/-- `axpby` on row-major tensors of one shape. -/
theorem axpby_rowMajor {X Y : Strided R} (hX : X.RowMajor) (hY : Y.RowMajor) (hd : X.dims = Y.dims) (h0 : Y.dims ≠ [])
    {fX fY : List Nat → R} (rX : X.Represents fX) (rY : Y.Represents fY) (a b : R) :
    ∃ Y', axpby a X b Y = .ok Y' ∧ Y.Frame Y' ∧ Y'.Represents fun i => b * fY i + a * fX i := by
  obtain ⟨Y1, s1, fr1, r1⟩ := scale_rowMajor hY h0 rY b
  obtain ⟨Y2, s2, fr2, r2⟩ := axpy_rowMajor hX (fr1.rowMajor hY) (hd.trans fr1.dims.symm) (fr1.dims ▸ h0) rX r1 a
  refine ⟨Y2, ?_, fr1.trans fr2, r2⟩
  unfold scale at s1
  unfold axpby vendorAxpby
  rw [dim0_stride0 hY h0] at s1
  rw [dim0_stride0 hX (hd ▸ h0), hd]
  cases hb : blasScal (numel Y.dims) b Y.data Y.off 1 with
  | error e => rw [hb] at s1; simp at s1
  | ub e => rw [hb] at s1; simp at s1
  | ok d =>
    rw [hb] at s1
    simp only [Outcome.ok_bind, Outcome.ok.injEq] at s1
    subst s1
    simp only [Outcome.ok_bind]
    unfold axpy at s2
    rw [dim0_stride0 hX (hd ▸ h0), hd] at s2
    exact s2

end lawfree

section labels
variable {L : Type} [DecidableEq L]

theorem find_perm {Al Cl : List L} (hA : Al.Nodup) (hp : Cl.Perm Al) :
    findTypeWithPosition Cl Al = Cl.map fun l => (l, Al.idxOf l) := by
  rw [find_nodup hA, List.filter_eq_self.2 (fun l hl => by simpa using hp.mem_iff.1 hl)]

/-- HPTT's index map is the relabelling. -/
theorem hptt_index {Al Cl : List L} (hA : Al.Nodup) (hp : Cl.Perm Al) (ρ : L → Nat) :
    (List.range Al.length).map (fun p => (Cl.map ρ).getD ((Cl.map fun l => Al.idxOf l).idxOf p) 0) = Al.map ρ := by
  apply List.ext_getElem (by simp)
  intro p h1 h2
  have hl : p < Al.length := by simpa using h1
  simp only [List.getElem_map, List.getElem_range]
  have hm : Al[p] ∈ Cl := hp.mem_iff.2 (List.getElem_mem hl)
  have e1 : Al.idxOf Al[p] = p := hA.idxOf_getElem p hl
  have e2 : (Cl.map fun l => Al.idxOf l).idxOf p = Cl.idxOf Al[p] := by
    have key : ∀ (xs : List L), (∀ x ∈ xs, x ∈ Al) → (xs.map fun l => Al.idxOf l).idxOf p = xs.idxOf Al[p] := by
      intro xs
      induction xs with
      | nil => simp
      | cons x xs ih =>
        intro hx
        have hxA := hx x (by simp)
        have ih := ih fun y hy => hx y (by simp [hy])
        rw [List.map_cons, List.idxOf_cons, List.idxOf_cons, ih]
        congr 1
        by_cases e : x = Al[p]
        · subst e; simp [e1]
        · have : Al.idxOf x ≠ p := by
            intro e'
            apply e
            have := List.getElem_idxOf (List.idxOf_lt_length_iff.2 hxA)
            simp only [e'] at this
            exact this.symm
          simp [e, this]
    exact key Cl fun x hx => hp.mem_iff.1 hx
  rw [e2]
  have hlt := List.idxOf_lt_length_iff.2 hm
  rw [List.getD_eq_getElem?_getD, List.getElem?_map, List.getElem?_eq_getElem hlt, List.getElem_idxOf]
  rfl

theorem hptt_sizes {Al Cl : List L} (hp : Cl.Perm Al) (δ : L → Nat) :
    (Cl.map fun l => Al.idxOf l).map (fun p => (Al.map δ).getD p 0) = Cl.map δ := by
  rw [List.map_map]
  apply List.map_congr_left
  intro l hl
  have hm := hp.mem_iff.1 hl
  have hlt := List.idxOf_lt_length_iff.2 hm
  simp only [Function.comp]
  rw [List.getD_eq_getElem?_getD, List.getElem?_map, List.getElem?_eq_getElem hlt, List.getElem_idxOf]
  rfl

end labels

/-! ### unfold -/

theorem filter_ne_range (n m : Nat) (h : m < n) : (List.range n).filter (· ≠ m) = (List.range n).eraseIdx m := by
  have h1 := List.Nodup.erase_eq_filter (List.nodup_range (n := n)) m
  have hm : m < (List.range n).length := by simpa
  have h2 := List.Nodup.erase_getElem (List.nodup_range (n := n)) m hm
  rw [List.getElem_range] at h2
  rw [← h2, h1]
  apply List.filter_congr
  intro x _
  by_cases e : x = m <;> simp [e]

theorem map_getD_range (l : List Nat) : (List.range l.length).map (fun p => l.getD p 0) = l := by
  apply List.ext_getElem (by simp)
  intro p h1 h2
  simp [List.getD_eq_getElem?_getD, h2]

theorem eraseIdx_eq (l : List Nat) (m : Nat) (h : m < l.length) :
    ((List.range l.length).filter (· ≠ m)).map (fun p => l.getD p 0) = l.eraseIdx m := by
  rw [filter_ne_range _ _ h, ← List.eraseIdx_map, map_getD_range]

theorem foldl_mul_map (f : Nat → Nat) (l : List Nat) (a : Nat) :
    l.foldl (fun acc i => acc * f i) a = a * numel (l.map f) := by
  induction l generalizing a with
  | nil => simp
  | cons x l ih => simp [ih, Nat.mul_assoc]

end Einsums
