import Verif.Proofs.OuterPath
/-
The dot-product and element-wise branches of einsum.
-/
namespace Einsums
open Spec Model

variable {R : Type}

/-- A loop that updates each listed element once, from its old value. -/
theorem foldlM_update {C : Strided R} {f : List Nat → R} (l : List (List Nat)) (hn : l.Nodup)
    (hb : ∀ i ∈ l, InBox i C.dims) (w : C.WF) (hf : C.Represents f) (g : List Nat → R → R)
    (step : Strided R → List Nat → Outcome (Strided R))
    (hs : ∀ (C' : Strided R) i f', i ∈ l → C'.dims = C.dims → C'.Represents f' →
      step C' i = C'.write (toIdx i) (g i (f' i))) :
    ∃ C', l.foldlM step C = .ok C' ∧ C.Frame C' ∧
      C'.Represents fun i => if i ∈ l then g i (f i) else f i := by
  induction l generalizing C f with
  | nil => exact ⟨C, rfl, Strided.Frame.refl _, by simpa using hf⟩
  | cons i l ih =>
    rw [List.nodup_cons] at hn
    obtain ⟨C1, h1, fr1, r1⟩ := write_represents w hf (hb i (by simp)) (g i (f i))
    obtain ⟨C2, h2, fr2, r2⟩ := ih hn.2 (C := C1) (f := fun j => if j = i then g i (f i) else f j)
      (by intro j hj; rw [fr1.dims]; exact hb j (by simp [hj])) (fr1.wf w) r1
      (by
        intro C' j f' hj hd hr
        exact hs C' j f' (by simp [hj]) (hd.trans fr1.dims) hr)
    refine ⟨C2, ?_, fr1.trans fr2, ?_⟩
    · rw [List.foldlM_cons, hs C i f (by simp) rfl hf, h1]; exact h2
    · intro j hj
      rw [r2 j hj]
      congr 1
      by_cases hji : j = i
      · subst hji; simp [hn.1]
      · simp [hji]

section
variable [CommSemiring R] [BEq R] [LawfulBEq R]

omit [BEq R] [LawfulBEq R] in
theorem dotVec_eq {A B : Strided R} {fA fB : List Nat → R} {n : Nat} (dA : A.dims = [n]) (dB : B.dims = [n])
    (lA : A.strides.length = 1) (lB : B.strides.length = 1)
    (hA : A.Represents fA) (hB : B.Represents fB) :
    dotVec A B = .ok ((box [n]).map fun i => fA i * fB i).sum := by
  obtain ⟨sa, ea⟩ := List.length_eq_one_iff.1 lA
  obtain ⟨sb, eb⟩ := List.length_eq_one_iff.1 lB
  unfold dotVec
  have e1 : A.dim 0 = n := by simp [Strided.dim, dA]
  have e2 : B.dim 0 = n := by simp [Strided.dim, dB]
  have e3 : A.stride 0 = sa := by simp [Strided.stride, ea]
  have e4 : B.stride 0 = sb := by simp [Strided.stride, eb]
  rw [e1, e2, if_neg (by simp), e3, e4]
  unfold blasDot
  rw [sumLoop_eq fun i => fA [i] * fB [i]]
  · rw [foldl_add_sum, zero_add]
    congr 2
    simp [box, ← List.map_eq_flatMap]
  · intro i hi
    have hi := List.mem_range.1 hi
    have g1 := represents_get hA (j := [i]) (by rw [dA]; exact ⟨hi, trivial⟩)
    have g2 := represents_get hB (j := [i]) (by rw [dB]; exact ⟨hi, trivial⟩)
    simp only [ea, eb, dot, Nat.add_zero] at g1 g2
    simp [memGet, g1, g2]

omit [BEq R] [LawfulBEq R] in
/-- `linear_algebra::dot` of two tensors of the same shape. -/
theorem dotOp_eq [BEq R] {A B : Operand R} {fA fB : List Nat → R} (hd : B.t.dims = A.t.dims) (h0 : A.t.dims ≠ [])
    (wA : A.t.WF) (wB : B.t.WF) (uA : A.full = true → A.t.RowMajor) (uB : B.full = true → B.t.RowMajor)
    (hA : A.t.Represents fA) (hB : B.t.Represents fB) :
    dotOp A B = .ok ((box A.t.dims).map fun i => fA i * fB i).sum := by
  unfold dotOp
  by_cases h1 : A.t.dims.length = 1
  · rw [if_pos h1]
    obtain ⟨n, hn⟩ := List.length_eq_one_iff.1 h1
    rw [hn]
    exact dotVec_eq hn (hd.trans hn) (by rw [wA.len, h1]) (by rw [wB.len, hd, h1]) hA hB
  · rw [if_neg h1]
    by_cases h2 : (A.full && B.full) = true
    · rw [if_pos h2]
      simp only [Bool.and_eq_true] at h2
      have rA := uA h2.1
      have rB := uB h2.2
      unfold dotFull
      rw [if_neg (by simp [hd]), foldl_mul_numel, Nat.one_mul]
      have vA := vecView_represents rA hA
      have vB := vecView_represents rB hB
      rw [hd] at vB
      have := dotVec_eq (A := vecView A.t A.t.dims) (B := vecView B.t A.t.dims) rfl rfl rfl rfl vA vB
      simp only [vecView, Strided.viewAs] at this
      rw [this]
      congr 1
      rw [← sumTo_unflat A.t.dims fun i => fA i * fB i]
      simp [sumTo, box, ← List.map_eq_flatMap]
      rfl
    · rw [if_neg h2]
      unfold dotStrided
      have hN : (dimsToStrides A.t.dims).2.headD 0 * A.t.dims.headD 0 = numel A.t.dims := by
        match hdd : A.t.dims with
        | [] => exact (h0 hdd).elim
        | d :: ds => rw [dimsToStrides_snd_cons]; simp [Nat.mul_comm]
      simp only [hN]
      rw [sumLoop_eq fun s => fA (unflat A.t.dims s) * fB (unflat A.t.dims s)]
      · rw [foldl_add_sum, zero_add]
        congr 1
        exact sumTo_unflat A.t.dims fun i => fA i * fB i
      · intro s hs
        have hs := unflat_inBox (List.mem_range.1 hs)
        have g1 := hA _ hs
        have g2 := hB _ (by rw [hd]; exact hs)
        unfold unflat at g1 g2
        simp [g1, g2, unflat]

/-- `direct_product` into a `Tensor`. -/
theorem directProduct_eq {A B C : Strided R} {fA fB fC : List Nat → R} (alpha beta : R)
    (dA : C.dims = A.dims) (dB : C.dims = B.dims) (tC : C.IsTensor)
    (hA : A.Represents fA) (hB : B.Represents fB) (hC : C.Represents fC) :
    ∃ C', directProduct alpha A B beta C = .ok C' ∧ C.Frame C' ∧
      C'.Represents fun i => beta * fC i + alpha * (fA i * fB i) := by
  unfold directProduct
  rw [if_neg (by simp [← dA, ← dB])]
  obtain ⟨C0, e0, fr0, g, r0, hg⟩ : ∃ C0, (if beta == 0 then C.zero else C) = C0 ∧ C.Frame C0 ∧
      ∃ g, C0.Represents g ∧ ∀ i, beta * g i = beta * fC i := by
    by_cases h : (beta == 0) = true
    · have hz : C.zero.IsTensor := ⟨tC.off, tC.strides, by simp [Strided.zero, tC.length]⟩
      refine ⟨C.zero, by rw [if_pos h], ⟨rfl, rfl, rfl, by simp [Strided.zero], ?_⟩, fun _ => 0, ?_, ?_⟩
      · intro p hp
        by_cases hl : p < C.data.length
        · exfalso
          have hl' := hl
          rw [tC.length] at hl
          apply hp (unflat C.dims p) (unflat_inBox hl)
          rw [tC.off, tC.strides, dot_strides_eq (unflat_inBox hl).length, rowMajor_unflat hl, Nat.zero_add]
        · rw [List.getElem?_eq_none (l := C.data) (by omega),
            List.getElem?_eq_none (by simp only [Strided.zero, List.length_map]; omega)]
      · rw [hz.represents_iff]
        apply List.ext_getElem
        · rw [List.length_map, length_box, hz.length]
        · intro n h1 h2; simp [Strided.zero]
      · intro i; rw [eq_of_beq h]; simp
    · exact ⟨C, by rw [if_neg h], Strided.Frame.refl _, fC, hC, fun _ => rfl⟩
  simp only [e0]
  obtain ⟨C', h1, fr, r⟩ := foldlM_update (cartesian C0.dims) (by rw [cartesian_eq_box]; exact nodup_box _)
    (by intro i hi; rw [cartesian_eq_box] at hi; exact mem_box.1 hi) (fr0.wf tC.wf) r0
    (fun i old => beta * old + alpha * (fA i * fB i))
    (fun C i => do
      let old ← C.read (toIdx i)
      let a ← A.read (toIdx i)
      let b ← B.read (toIdx i)
      C.write (toIdx i) (beta * old + alpha * (a * b)))
    (by
      intro C' i f' hi hd hr
      rw [cartesian_eq_box] at hi
      have hi := mem_box.1 hi
      simp only [hr i (by rw [hd]; exact hi), hA i (by rw [← dA, ← fr0.dims]; exact hi),
        hB i (by rw [← dB, ← fr0.dims]; exact hi), Outcome.ok_bind])
  refine ⟨C', h1, fr0.trans fr, ?_⟩
  intro i hi
  rw [r i hi]
  simp only
  rw [if_pos (by rw [cartesian_eq_box]; exact mem_box.2 (by rw [← fr.dims]; exact hi)), hg]

end
end Einsums
