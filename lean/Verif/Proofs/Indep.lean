import Verif.Proofs.DotPath
/-
With a zero factor on `C`, the products do not depend on the old contents of `C`.  No algebraic laws.
-/
namespace Einsums
open Spec Model

variable {R : Type}

/-- A loop whose new values do not depend on the old ones. -/
theorem memLoop_indep {β : Type} (l : List β) (p : β → Nat) (g : β → R → Outcome R)
    (hg : ∀ b ∈ l, ∀ x y, g b x = g b y) {m1 m2 m1' : List R} (hl : m2.length = m1.length)
    (h1 : l.foldlM (fun mem b => memUpd mem (p b) (g b)) m1 = .ok m1') :
    ∃ m2', l.foldlM (fun mem b => memUpd mem (p b) (g b)) m2 = .ok m2' ∧ m2'.length = m1'.length ∧
      m1'.length = m1.length ∧
      ∀ q, (q ∈ l.map p ∨ m1[q]? = m2[q]?) → m1'[q]? = m2'[q]? := by
  induction l generalizing m1 m2 with
  | nil =>
    simp only [List.foldlM_nil, Outcome.pure_eq, Outcome.ok.injEq] at h1
    subst h1
    exact ⟨m2, rfl, hl, rfl, fun q hq => by simpa using hq⟩
  | cons b l ih =>
    rw [List.foldlM_cons] at h1 ⊢
    unfold memUpd at h1 ⊢
    by_cases hp : p b < m1.length
    · rw [List.getElem?_eq_getElem hp] at h1
      rw [List.getElem?_eq_getElem (by rw [hl]; exact hp)]
      simp only at h1 ⊢
      cases hv : g b m1[p b] with
      | error m => rw [hv] at h1; simp at h1
      | ub m => rw [hv] at h1; simp at h1
      | ok v =>
        rw [hv] at h1
        rw [hg b (by simp) _ m1[p b], hv]
        simp only [Outcome.ok_bind] at h1 ⊢
        obtain ⟨m2', a1, a2, a3, a4⟩ := ih (m1 := m1.set (p b) v) (m2 := m2.set (p b) v)
          (fun b' hb' => hg b' (by simp [hb'])) (by simp [hl]) h1
        refine ⟨m2', a1, a2, by simpa using a3, ?_⟩
        intro q hq
        apply a4
        by_cases hqp : p b = q
        · right
          rw [List.getElem?_set, List.getElem?_set, if_pos hqp, if_pos hqp, hl]
        · rw [List.getElem?_set, List.getElem?_set, if_neg hqp, if_neg hqp]
          rcases hq with hq | hq
          · simp only [List.map_cons, List.mem_cons] at hq
            rcases hq with hq | hq
            · exact (hqp hq.symm).elim
            · exact .inl hq
          · exact .inr hq
    · rw [List.getElem?_eq_none (by omega)] at h1
      simp at h1

/-- Two tensors with the same shape and equal contents at an address read the same there. -/
theorem read_congr {t u : Strided R} (ho : u.off = t.off) (hd : u.dims = t.dims) (hs : u.strides = t.strides)
    (hl : u.data.length = t.data.length) {j : List Nat} (hj : InBox j t.dims)
    (hb : t.off + dot j t.strides < t.data.length)
    (he : u.data[t.off + dot j t.strides]? = t.data[t.off + dot j t.strides]?) :
    u.read (toIdx j) = t.read (toIdx j) := by
  have hb' : u.off + dot j u.strides < u.data.length := by rw [ho, hs, hl]; exact hb
  rw [read_eq (pyIndices_toIdx hj) hb, read_eq (pyIndices_toIdx (by rw [hd]; exact hj)) hb']
  congr 1
  rw [← Option.some_inj, ← List.getElem?_eq_getElem, ← List.getElem?_eq_getElem, ho, hs, he]

variable [Add R] [Mul R] [Zero R] [BEq R]

theorem gemm_indep {ta tb : Bool} {ab cp : R} {A B C1 C1' : Strided R} {m n ldc : Nat} {d2 : List R}
    (h0 : (cp == 0) = true) (dC : C1.dims = [m, n]) (sC : C1.strides = [ldc, 1])
    (hk : (if ta then A.dim 0 else A.dim 1) ≠ 0) (hl : d2.length = C1.data.length)
    (h1 : gemm ta tb ab A B cp C1 = .ok C1') :
    ∃ C2', gemm ta tb ab A B cp { C1 with data := d2 } = .ok C2' ∧ C2'.data.length = C1'.data.length ∧
      C1'.data.length = C1.data.length ∧
      ∀ i j, i < m → j < n → C1'.data[C1.off + i * ldc + j]? = C2'.data[C1.off + i * ldc + j]? := by
  have e0 : C1.dim 0 = m ∧ C1.dim 1 = n ∧ C1.stride 0 = ldc := by
    simp [Strided.dim, Strided.stride, dC, sC]
  have e1 : ({ C1 with data := d2 } : Strided R).dim 0 = m ∧ ({ C1 with data := d2 } : Strided R).dim 1 = n ∧
      ({ C1 with data := d2 } : Strided R).stride 0 = ldc := by
    simp [Strided.dim, Strided.stride, dC, sC]
  unfold gemm vendorGemm at h1 ⊢
  simp only [e0.1, e0.2.1, e0.2.2] at h1
  simp only [e1.1, e1.2.1, e1.2.2]
  by_cases hz : m = 0 ∨ n = 0
  · have hz' : m = 0 ∨ n = 0 ∨ (if ta then A.dim 0 else A.dim 1) = 0 := by tauto
    rw [if_pos hz'] at h1 ⊢
    simp only [Outcome.ok_bind, Outcome.ok.injEq] at h1 ⊢
    subst h1
    refine ⟨_, rfl, hl, rfl, ?_⟩
    intro i j hi hj; omega
  · have hz' : ¬(m = 0 ∨ n = 0 ∨ (if ta then A.dim 0 else A.dim 1) = 0) := by tauto
    rw [if_neg hz'] at h1 ⊢
    unfold fortranGemm at h1 ⊢
    by_cases hc : B.stride 0 < max 1 (if tb then (if ta then A.dim 0 else A.dim 1) else n) ∨
        A.stride 0 < max 1 (if ta then m else (if ta then A.dim 0 else A.dim 1)) ∨ ldc < max 1 n
    · rw [if_pos hc] at h1; simp at h1
    · rw [if_neg hc] at h1 ⊢
      simp only [h0, if_true] at h1 ⊢
      cases hr : (colPairs n m).foldlM (fun mem ij => memUpd mem (C1.off + ij.1 + ij.2 * ldc) fun _ => do
          let t ← sumLoop (fun l => do
            let x ← colElem B.data B.off (B.stride 0) tb ij.1 l
            let y ← colElem A.data A.off (A.stride 0) ta l ij.2
            return x * y) (List.range (if ta then A.dim 0 else A.dim 1)) 0
          return ab * t) C1.data with
      | error e => rw [hr] at h1; simp at h1
      | ub e => rw [hr] at h1; simp at h1
      | ok d1 =>
        rw [hr] at h1
        simp only [Outcome.ok_bind, Outcome.ok.injEq] at h1
        subst h1
        obtain ⟨d2', a1, a2, a3, a4⟩ := memLoop_indep (colPairs n m) (fun ij => C1.off + ij.1 + ij.2 * ldc) _
          (by intros; rfl) hl hr
        rw [a1]
        refine ⟨_, rfl, a2, a3, ?_⟩
        intro i j hi hj
        apply a4
        left
        exact List.mem_map.2 ⟨(j, i), mem_colPairs.2 ⟨hj, hi⟩, by simp only; omega⟩

theorem gemv_indep {ta : Bool} {ab cp : R} {A z y1 y1' : Strided R} {k incy : Nat} {d2 : List R}
    (h0 : (cp == 0) = true) (dA0 : A.dim 0 ≠ 0) (dA1 : A.dim 1 ≠ 0)
    (hk : k = if ta then A.dim 1 else A.dim 0) (sy : y1.strides = [incy])
    (hl : d2.length = y1.data.length) (h1 : gemv ta ab A z cp y1 = .ok y1') :
    ∃ y2', gemv ta ab A z cp { y1 with data := d2 } = .ok y2' ∧ y2'.data.length = y1'.data.length ∧
      y1'.data.length = y1.data.length ∧
      ∀ i, i < k → y1'.data[y1.off + i * incy]? = y2'.data[y1.off + i * incy]? := by
  have e0 : y1.stride 0 = incy := by simp [Strided.stride, sy]
  have e1 : ({ y1 with data := d2 } : Strided R).stride 0 = incy := by simp [Strided.stride, sy]
  unfold gemv vendorGemv at h1 ⊢
  simp only [e0] at h1
  simp only [e1]
  rw [if_neg (by tauto)] at h1 ⊢
  unfold fortranGemv at h1 ⊢
  by_cases hc : A.stride 0 < max 1 (A.dim 1) ∨ z.stride 0 = 0 ∨ incy = 0
  · rw [if_pos hc] at h1; simp at h1
  · rw [if_neg hc] at h1 ⊢
    simp only [h0, if_true] at h1 ⊢
    cases hr : (List.range (if (!ta) = true then A.dim 0 else A.dim 1)).foldlM
        (fun mem i => memUpd mem (y1.off + i * incy) fun _ => do
        let t ← sumLoop (fun l => do
          let u ← colElem A.data A.off (A.stride 0) (!ta) i l
          let v ← memGet z.data (z.off + l * z.stride 0)
          return u * v) (List.range (if (!ta) = true then A.dim 1 else A.dim 0)) 0
        return ab * t) y1.data with
    | error e => rw [hr] at h1; simp at h1
    | ub e => rw [hr] at h1; simp at h1
    | ok d1 =>
      rw [hr] at h1
      simp only [Outcome.ok_bind, Outcome.ok.injEq] at h1
      subst h1
      obtain ⟨d2', a1, a2, a3, a4⟩ := memLoop_indep _ (fun i => y1.off + i * incy) _ (by intros; rfl) hl hr
      rw [a1]
      refine ⟨_, rfl, a2, a3, ?_⟩
      intro i hi
      apply a4
      left
      refine List.mem_map.2 ⟨i, List.mem_range.2 ?_, rfl⟩
      rw [hk] at hi
      cases ta <;> simpa using hi

end Einsums
