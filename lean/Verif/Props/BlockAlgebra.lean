import Verif.Proofs.BlockAlgebra
import Verif.Props.Block
import Verif.Props.TileAlgebra
/-
Property theorems C93 to C95: `einsum` on block tensors.
-/
namespace Einsums.Props
open Einsums Spec Model

variable {L : Type} [DecidableEq L] {R : Type} [CommSemiring R] [BEq R] [LawfulBEq R]

omit [DecidableEq L] [CommSemiring R] [BEq R] [LawfulBEq R] in
theorem block_allDims {T : Block R} {Xl : List L} {bs : Blocks R} (h : T.Models Xl.length bs) :
    T.allDims = Xl.map fun _ => bs.sizes.sum := by
  unfold Block.allDims
  rw [h.rank, h.dim, List.map_const']

omit [CommSemiring R] [BEq R] [LawfulBEq R] in
theorem block_noAbort {A B C : Block R} {Al Bl Cl : List L} {as bs cs : Blocks R} (hA : A.Models Al.length as)
    (hB : B.Models Bl.length bs) (hC : C.Models Cl.length cs) (sA : as.sizes.sum = cs.sizes.sum)
    (sB : bs.sizes.sum = cs.sizes.sum) : runtimeAbort Al Bl Cl A.allDims B.allDims C.allDims = false := by
  unfold runtimeAbort
  rw [block_allDims hA, block_allDims hB, block_allDims hC, sA, sB, no_clash_of_map, no_clash_of_map, no_clash_of_map]; rfl

omit [CommSemiring R] [BEq R] [LawfulBEq R] in
theorem not_outer {og : Bool} {Al Bl Cl : List L} (share : ∃ l, l ∈ Al ∧ l ∈ Bl) : choosePath og Al Bl Cl ≠ .outer := by
  obtain ⟨l, h1, h2⟩ := share
  have h : (intersect Al Bl).length ≠ 0 := by
    have : l ∈ intersect Al Bl := by simp [intersect, h1, h2]
    exact Nat.pos_iff_ne_zero.1 (List.length_pos_of_mem this)
  have : isOuterProduct Al Bl Cl = false := by simp [isOuterProduct, h]
  unfold choosePath
  rw [this]
  simp only [Bool.false_eq_true, if_false]
  repeat' split
  all_goals simp

section
variable [Div R]

/-- **C93 (proved part).** `einsum` on three block tensors with the same blocks, two of whose operands share a label: whatever
the order of the parallel loop over the blocks, with or without the run-time check, every element of `C` – inside a block and
between the blocks – satisfies `C(ρ) := cp*C(ρ) + ab*Σ A*B`, the sum over all values of the contracted labels, and the
blocks of `C` keep their sizes.  Blocks of size 0 are allowed.  The label conditions are those of `C15_einsum`.
Missing: operands without a common label, for which no overload exists. -/
theorem C93_block_partial (Al Bl Cl ls : List L) (og check : Bool) (A B C : Block R) (as bs cs : Blocks R) (cp ab : R)
    (hAn : Al.Nodup) (hC0 : Cl ≠ []) (hA : A.Models Al.length as) (hB : B.Models Bl.length bs)
    (hC : C.Models Cl.length cs) (sA : as.sizes = cs.sizes) (sB : bs.sizes = cs.sizes)
    (coverA : ∀ l ∈ Al, l ∈ Cl ∨ l ∈ Bl) (coverB : ∀ l ∈ Bl, l ∈ Cl ∨ l ∈ Al) (coverC : ∀ l ∈ Cl, l ∈ Al ∨ l ∈ Bl)
    (share : ∃ l, l ∈ Al ∧ l ∈ Bl)
    (noTriple : choosePath og Al Bl Cl = .gemm → ∀ l ∈ Cl, ¬(l ∈ Al ∧ l ∈ Bl))
    (hls : Contracted Al Bl Cl ls) (sched : List Nat) (hs : sched.Perm (List.range cs.length)) :
    ∃ C' cs', einsumBlock og check cp Cl C ab Al A Bl B sched = .ok C' ∧ C'.Models Cl.length cs' ∧ cs'.sizes = cs.sizes ∧
      ∀ ρ, InRange (fun _ => cs.sizes.sum) Cl ρ → cs'.elem (Cl.map ρ)
        = cp * cs.elem (Cl.map ρ) + ab * contraction (fun _ => cs.sizes.sum) ls Al Bl as.elem bs.elem ρ := by
  have hA0 : Al ≠ [] := by obtain ⟨l, h, _⟩ := share; exact List.ne_nil_of_mem h
  have hB0 : Bl ≠ [] := by obtain ⟨l, _, h⟩ := share; exact List.ne_nil_of_mem h
  unfold einsumBlock
  rw [if_neg (by rw [labelsOk_of_cover coverA coverB]; simp), block_noAbort hA hB hC (by rw [sA]) (by rw [sB]), if_neg (by simp)]
  by_cases he : isElementWise Al Bl Cl = true
  · rw [if_pos he]
    simp only [isElementWise, Bool.and_eq_true, decide_eq_true_eq] at he
    obtain ⟨⟨h1, h2⟩, _⟩ := he
    have e1 : Al = Cl := h1.symm
    have e2 : Al = Bl := h1.symm.trans h2
    subst e1
    subst e2
    obtain ⟨C', cs', g1, g2, g3, g4⟩ := C58_direct Al.length (List.length_pos_iff.2 hA0) ab cp A B C as bs cs hA hB hC sA sB sched hs
    refine ⟨C', cs', g1, g2, g3, ?_⟩
    intro ρ hρ
    rw [g4 _ (by rw [← List.map_const']; exact inBox_map hρ)]
    have : ls = [] := by
      apply List.eq_nil_iff_forall_not_mem.2
      intro l hl
      have := (hls.2 l).1 hl
      exact this.2.2 this.1
    subst this
    rfl
  · rw [if_neg he]
    exact blockEinsum_ok hA hB hC sA sB hAn hA0 hB0 hC0 coverA coverB coverC share noTriple
      (fun h => absurd h (not_outer share)) hls hs

omit [LawfulBEq R] in
/-- **C93 (rejection).** When the blocks of the three tensors differ the call throws, unless the pattern is the element-wise
product: nothing is computed from mismatched blocks. -/
theorem C93_throws (Al Bl Cl : List L) (og check : Bool) (A B C : Block R) (as bs cs : Blocks R) (cp ab : R)
    (hC0 : Cl ≠ []) (hA : A.Models Al.length as) (hB : B.Models Bl.length bs)
    (hC : C.Models Cl.length cs) (hne : ¬ (as.sizes = cs.sizes ∧ bs.sizes = cs.sizes))
    (share : ∃ l, l ∈ Al ∧ l ∈ Bl) (he : isElementWise Al Bl Cl = false) (sched : List Nat) :
    ∃ m, einsumBlock og check cp Cl C ab Al A Bl B sched = .error m := by
  have rA : 0 < Al.length := by obtain ⟨l, h, _⟩ := share; exact List.length_pos_of_mem h
  have rB : 0 < Bl.length := by obtain ⟨l, _, h⟩ := share; exact List.length_pos_of_mem h
  have rC : 0 < Cl.length := List.length_pos_iff.2 hC0
  have key : ∃ m, blocksDiffer3 A B C = .error m := by
    unfold blocksDiffer3
    split
    · exact ⟨_, rfl⟩
    · rename_i hl
      rw [hA.length, hB.length, hC.length] at hl
      rw [if_pos]
      · exact ⟨_, rfl⟩
      by_contra hc
      simp only [Bool.not_eq_true, List.any_eq_false] at hc
      have val : ∀ i, (h : i < as.length) → ∃ (hb : i < bs.length) (hcc : i < cs.length), as[i].1 = bs[i].1 ∧ as[i].1 = cs[i].1 := by
        intro i h
        refine ⟨by omega, by omega, ?_⟩
        obtain ⟨a, a1, _, a3⟩ := hA.at (List.getElem?_eq_getElem h)
        obtain ⟨b, b1, _, b3⟩ := hB.at (List.getElem?_eq_getElem (show i < bs.length by omega))
        obtain ⟨c, c1, _, c3⟩ := hC.at (List.getElem?_eq_getElem (show i < cs.length by omega))
        have := hc (a, b, c) (by
          apply List.mem_iff_getElem?.2
          refine ⟨i, ?_⟩
          rw [List.getElem?_zip_eq_some]
          refine ⟨a1, ?_⟩
          rw [List.getElem?_zip_eq_some]
          exact ⟨b1, c1⟩)
        simp only [a3.dim rA, b3.dim rB, c3.dim rC] at this
        simpa using this
      apply hne
      constructor
      · unfold Blocks.sizes
        apply List.ext_getElem (by simp; omega)
        intro i h1 h2
        simp only [List.getElem_map]
        exact (val i (by simpa using h1)).2.2.2
      · unfold Blocks.sizes
        apply List.ext_getElem (by simp; omega)
        intro i h1 h2
        simp only [List.getElem_map]
        obtain ⟨_, _, h3, h4⟩ := val i (by simp at h1; omega)
        exact h3.symm.trans h4
  unfold einsumBlock
  rw [he]
  split
  · exact ⟨_, rfl⟩
  · split
    · exact ⟨_, rfl⟩
    · rw [if_neg (by simp)]
      unfold blockEinsum
      split
      · exact ⟨_, rfl⟩
      · obtain ⟨m, h⟩ := key
        exact ⟨m, by rw [h]; rfl⟩

end

/-! ### C94: a scalar result -/

omit [LawfulBEq R] [BEq R] in
theorem scalar_labels {Al Bl : List L} (coverA : ∀ l ∈ Al, l ∈ Bl) (coverB : ∀ l ∈ Bl, l ∈ Al) :
    labelsOk ([] : List L) (linkUnique Al Bl []) Al Bl = true := by
  simp only [labelsOk, linkUnique, List.all_eq_true, List.mem_append, Bool.or_eq_true, decide_eq_true_eq,
    mem_unique, mem_links]
  intro l hl; right
  rcases hl with hl | hl
  · exact ⟨hl, coverA l hl, by simp⟩
  · exact ⟨coverB l hl, hl, by simp⟩

omit [CommSemiring R] [BEq R] [LawfulBEq R] in
theorem scalar_noAbort {Al Bl : List L} {δ : L → Nat} {dA dB : List Nat} (hA : dA = Al.map δ) (hB : dB = Bl.map δ) :
    runtimeAbort Al Bl ([] : List L) dA dB [] = false := by
  have e1 : ∀ (Xl : List L) (X : List Nat), dimsClash Xl X ([] : List L) [] = false := by intro Xl X; simp [dimsClash]
  unfold runtimeAbort
  rw [hA, hB, no_clash_of_map, e1, e1]; rfl

omit [LawfulBEq R] in
/-- **C94 (the dot product).** Two block tensors with the same list of labels, blocks of any sizes with the same total:
the result is `cp*c + ab*Σ A*B`, whatever the order of the loops. -/
theorem C94_dot (Al : List L) (check : Bool) (A B : Block R) (as bs : Blocks R) (cp c ab : R)
    (hAn : Al.Nodup) (hA0 : Al ≠ []) (hA : A.Models Al.length as) (hB : B.Models Al.length bs)
    (hd : as.sizes.sum = bs.sizes.sum) (sA sB sched : List Nat) (hsA : sA.Perm (List.range as.length))
    (hsB : sB.Perm (List.range bs.length)) (hs : sched.Perm (List.range as.length)) :
    einsumBlockScalar check cp c ab Al A Al B sA sB sched
      = .ok (cp * c + ab * contraction (fun _ => as.sizes.sum) Al Al Al as.elem bs.elem fun _ => 0) := by
  have e1 := block_allDims hA
  have e2 := block_allDims hB
  rw [← hd] at e2
  unfold einsumBlockScalar
  rw [if_neg (by rw [scalar_labels (fun _ h => h) (fun _ h => h)]; simp), scalar_noAbort e1 e2, if_neg (by simp),
    if_pos (by simp [isDotProduct, noHadamard_iff, hAn]),
    C57_dot Al.length (List.length_pos_iff.2 hA0) A B as bs hA hB hd sA sB sched hsA hsB hs, Outcome.ok_bind, mul_comm c cp]
  congr 3
  unfold contraction
  rw [sumOver_eq _ Al hAn, ← List.map_const']
  congr 1
  apply List.map_congr_left
  intro i hi
  rw [map_bindEnv hAn (by have := (mem_box.1 hi).length; simpa using this)]

/-- **C94 (other patterns: what is computed).** For every other pattern the scaled `c` is counted twice. -/
theorem C94_value (Al Bl ls : List L) (check : Bool) (A B : Block R) (as bs : Blocks R) (cp c ab : R)
    (hAn : Al.Nodup) (hA0 : Al ≠ []) (hA : A.Models Al.length as) (hB : B.Models Bl.length bs) (hsz : bs.sizes = as.sizes)
    (coverA : ∀ l ∈ Al, l ∈ Bl) (coverB : ∀ l ∈ Bl, l ∈ Al) (hls : Contracted Al Bl [] ls) (hne : Al ≠ Bl)
    (sA sB sched : List Nat) (hs : sched.Perm (List.range as.length)) :
    einsumBlockScalar check cp c ab Al A Bl B sA sB sched
      = .ok (cp * c + (cp * c + ab * contraction (fun _ => as.sizes.sum) ls Al Bl as.elem bs.elem fun _ => 0)) := by
  have e1 := block_allDims hA
  have e2 := block_allDims hB
  rw [hsz] at e2
  unfold einsumBlockScalar
  rw [if_neg (by rw [scalar_labels coverA coverB]; simp), scalar_noAbort e1 e2, if_neg (by simp),
    if_neg (by simp [isDotProduct, hne]), blockEinsumScalar_ok hA hB hsz hAn hA0 coverA coverB hls hs]

/-- **C94 (proved part).** The result is `cp*c + ab*Σ A*B` over all values of the labels, whatever the order of the reduction.
Missing: patterns other than the dot product when `cp*c` is not 0, see `C94_value` and `C94_refuted`. -/
theorem C94_scalar_partial (Al Bl ls : List L) (check : Bool) (A B : Block R) (as bs : Blocks R) (cp c ab : R)
    (hAn : Al.Nodup) (hA0 : Al ≠ []) (hA : A.Models Al.length as) (hB : B.Models Bl.length bs) (hsz : bs.sizes = as.sizes)
    (coverA : ∀ l ∈ Al, l ∈ Bl) (coverB : ∀ l ∈ Bl, l ∈ Al) (hls : Contracted Al Bl [] ls)
    (hz : Al = Bl ∨ cp * c = 0) (sA sB sched : List Nat) (hsA : sA.Perm (List.range as.length))
    (hsB : sB.Perm (List.range bs.length)) (hs : sched.Perm (List.range as.length)) :
    einsumBlockScalar check cp c ab Al A Bl B sA sB sched
      = .ok (cp * c + ab * contraction (fun _ => as.sizes.sum) ls Al Bl as.elem bs.elem fun _ => 0) := by
  by_cases e : Al = Bl
  · subst e
    rw [C94_dot Al check A B as bs cp c ab hAn hA0 hA hB (by rw [hsz]) sA sB sched hsA hsB hs]
    congr 3
    unfold contraction
    exact sumOver_perm _ ((List.perm_ext_iff_of_nodup hAn hls.1).2 fun l => by rw [hls.2 l]; simp) hAn _ _
  · rw [C94_value Al Bl ls check A B as bs cp c ab hAn hA0 hA hB hsz coverA coverB hls e sA sB sched hs, hz.resolve_left e, zero_add]

/-! ### C95: a vector and a block tensor -/

/-- **C95 (proved part).** `einsum` of a vector and a block tensor that has the vector's label, in either order, into a block
tensor with the same blocks: every element satisfies `C(ρ) := cp*C(ρ) + ab*Σ V*B`, whatever the order of the loop.  The
vector may be a view with any strides.
Missing: a vector whose label is not one of the block tensor's, see `C95_outer_refuted`; the pattern `C(i) = V(i)*B(i)`,
for which there is no overload. -/
theorem C95_vector_partial [Div R] (x : L) (Bl Cl ls : List L) (og check first : Bool) (V : Strided R) (B C : Block R)
    (bs cs : Blocks R) (fV : List Nat → R) (cp ab : R) (wV : V.WF) (hV : V.Represents fV) (dV : V.dims = [bs.sizes.sum])
    (hB : B.Models Bl.length bs) (hC : C.Models Cl.length cs) (sB : bs.sizes = cs.sizes) (hBn : first = false → Bl.Nodup)
    (hx : x ∈ Bl) (hC0 : Cl ≠ []) (coverB : ∀ l ∈ Bl, l = x ∨ l ∈ Cl) (coverC : ∀ l ∈ Cl, l ∈ Bl)
    (hne : ¬ (Bl = [x] ∧ Cl = [x]))
    (hls : Contracted [x] Bl Cl ls) (sched : List Nat) (hs : sched.Perm (List.range cs.length)) :
    ∃ C' cs', einsumVecBlock og check first cp Cl C ab x V Bl B sched = .ok C' ∧ C'.Models Cl.length cs' ∧
      cs'.sizes = cs.sizes ∧
      ∀ ρ, InRange (fun _ => cs.sizes.sum) Cl ρ → cs'.elem (Cl.map ρ)
        = cp * cs.elem (Cl.map ρ) + ab * contraction (fun _ => cs.sizes.sum) ls [x] Bl fV bs.elem ρ := by
  have e1 : V.dims = [x].map fun _ => cs.sizes.sum := by rw [dV, sB]; rfl
  have e2 := block_allDims hB
  rw [sB] at e2
  have e3 := block_allDims hC
  have c1 : ∀ l ∈ [x], l ∈ Cl ∨ l ∈ Bl := by simp [hx]
  have c2 : ∀ l ∈ Bl, l ∈ Cl ∨ l ∈ [x] := fun l hl => by rcases coverB l hl with h | h <;> simp [h]
  have ng : choosePath og (if first then [x] else Bl) (if first then Bl else [x]) Cl ≠ .gemm := by
    unfold choosePath
    cases first <;> simp <;> (repeat' split) <;> simp_all
  have main := vecBlockEinsum_ok (og := og) (check := check) (first := first) (cp := cp) (ab := ab) hV wV dV hB hC sB hBn hx hC0 coverB
    coverC (fun h => absurd h ng) (fun h => absurd h (not_outer (by cases first <;> exact ⟨x, by simp [hx]⟩))) hls hs
  have nr : runtimeAbort (if first then [x] else Bl) (if first then Bl else [x]) Cl (if first then V.dims else B.allDims)
      (if first then B.allDims else V.dims) C.allDims = false := by
    unfold runtimeAbort
    cases first <;> (simp only [if_true, Bool.false_eq_true, if_false]; rw [e1, e2, e3, no_clash_of_map, no_clash_of_map,
      no_clash_of_map]; rfl)
  have lo : labelsOk (unique Cl) (linkUnique (if first then [x] else Bl) (if first then Bl else [x]) Cl)
      (if first then [x] else Bl) (if first then Bl else [x]) = true := by
    cases first
    · exact labelsOk_of_cover c2 c1
    · exact labelsOk_of_cover c1 c2
  have ne : isElementWise (if first then [x] else Bl) (if first then Bl else [x]) Cl = false := by
    rw [Bool.eq_false_iff]
    intro h
    simp only [isElementWise, Bool.and_eq_true, decide_eq_true_eq] at h
    obtain ⟨⟨h1, h2⟩, _⟩ := h
    apply hne
    cases first
    · exact ⟨h1.symm.trans h2, h2⟩
    · exact ⟨h2.symm.trans h1, h1⟩
  unfold einsumVecBlock
  simp only
  rw [if_neg (by rw [lo]; simp), nr, if_neg (by simp), if_neg (by rw [ne]; simp)]
  exact main

/-- **C95 (scalar result: what is computed).** `c = cp*c + ab*Σ_i V(i) B(i,…,i)`, the vector first: the scaled `c` is counted
twice. -/
theorem C95_scalar_value (x : L) (Bl : List L) (check : Bool) (V : Strided R) (B : Block R) (bs : Blocks R) (fV : List Nat → R)
    (cp c ab : R) (wV : V.WF) (hV : V.Represents fV) (dV : V.dims = [bs.sizes.sum]) (hB : B.Models Bl.length bs)
    (hx : x ∈ Bl) (coverB : ∀ l ∈ Bl, l = x) (hne : Bl ≠ [x]) (sched : List Nat) (hs : sched.Perm (List.range bs.length)) :
    einsumVecBlockScalar check true cp c ab x V Bl B sched
      = .ok (cp * c + (cp * c + ab * contraction (fun _ => bs.sizes.sum) [x] [x] Bl fV bs.elem fun _ => 0)) := by
  have e1 : V.dims = [x].map fun _ => bs.sizes.sum := by rw [dV]; rfl
  have e2 := block_allDims hB
  unfold einsumVecBlockScalar
  simp only [if_true]
  rw [if_neg (by rw [scalar_labels (by simp [hx]) (by simpa using coverB)]; simp), scalar_noAbort e1 e2, if_neg (by simp),
    if_neg (by simp [isDotProduct, Ne.symm hne]), vecBlockEinsumScalar_ok hV wV dV hB hx coverB hs]

/-- **C95 (scalar result, proved part).** Missing: `cp*c ≠ 0`, see `C95_scalar_value` and `C95_scalar_refuted`; the block tensor
first. -/
theorem C95_scalar_partial (x : L) (Bl : List L) (check : Bool) (V : Strided R) (B : Block R) (bs : Blocks R) (fV : List Nat → R)
    (cp c ab : R) (wV : V.WF) (hV : V.Represents fV) (dV : V.dims = [bs.sizes.sum]) (hB : B.Models Bl.length bs)
    (hx : x ∈ Bl) (coverB : ∀ l ∈ Bl, l = x) (hne : Bl ≠ [x]) (hz : cp * c = 0) (sched : List Nat)
    (hs : sched.Perm (List.range bs.length)) :
    einsumVecBlockScalar check true cp c ab x V Bl B sched
      = .ok (cp * c + ab * contraction (fun _ => bs.sizes.sum) [x] [x] Bl fV bs.elem fun _ => 0) := by
  rw [C95_scalar_value x Bl check V B bs fV cp c ab wV hV dV hB hx coverB hne sched hs, hz, zero_add]

/-! ### Cases that meet the hypotheses, and what fails outside them -/

/-- `C(i,j) = 3 C(i,j) + 2 A(i,k) B(k,j)` with blocks of sizes 2, 0 and 1. -/
example : ∃ A B C : Block Int, ∃ sched : List Nat, A.Models 2 gemmBlocks ∧ B.Models 2 gemmBlocks ∧ C.Models 2 gemmBlocks ∧
    gemmBlocks.sizes = [2, 0, 1] ∧ sched.Perm (List.range gemmBlocks.length) ∧ Contracted [0, 1] [1, 2] [0, 2] [1] ∧
    ∃ C', einsumBlock false true 3 [0, 2] C 2 [0, 1] A [1, 2] B sched = .ok C' ∧
      C'.toDense [0, 1, 2] = .ok ⟨[17, 39, 0, 26, 56, 0, 0, 0, 27], 0, [3, 3], [3, 1]⟩ :=
  ⟨_, _, _, [2, 0, 1], blockOf'_ok 2 (by decide) _, blockOf'_ok 2 (by decide) _, blockOf'_ok 2 (by decide) _, by decide, by decide,
    ⟨by decide, by intro l; simp; omega⟩, _, rfl, by decide⟩

/-- Blocks 2+1 and 1+2. -/
example : ∃ A B : Block Int, A.Models 2 [(2, fun _ => 1), (1, fun _ => 1)] ∧ B.Models 2 [(1, fun _ => 1), (2, fun _ => 1)] ∧
    ∃ m, einsumBlock false true 3 [0, 2] A 2 [0, 1] A [1, 2] B [0, 1] = .error m :=
  ⟨_, _, blockOf'_ok 2 (by decide) _, blockOf'_ok 2 (by decide) _, _, rfl⟩

/-- `c = 3 c + 2 A(i,j) A(i,j)`, and `c = 2 A(i,j) A(j,i)`. -/
example : ∃ A : Block Int, A.Models 2 gemmBlocks ∧ Contracted [0, 1] [1, 0] [] [0, 1] ∧
    einsumBlockScalar true 3 10 2 [0, 1] A [0, 1] A [0, 1, 2] [0, 1, 2] [2, 0, 1] = .ok 108 ∧
    einsumBlockScalar true 0 10 2 [0, 1] A [1, 0] A [0, 1, 2] [0, 1, 2] [2, 0, 1] = .ok 76 :=
  ⟨_, blockOf'_ok 2 (by decide) _, ⟨by decide, by intro l; simp; omega⟩, by decide, by decide⟩

/-- **C94 (refuted).** `einsum(1, {}, &c, 1, {i, j}, A, {j, i}, B)` with one 1×1 block: 10 + 2*3 is returned as 26. -/
theorem C94_refuted : ∃ A B : Block Int, A.Models 2 [(1, fun _ => 2)] ∧ B.Models 2 [(1, fun _ => 3)] ∧
    einsumBlockScalar true 1 10 1 [0, 1] A [1, 0] B [0] [0] [0] = .ok 26 :=
  ⟨_, _, blockOf'_ok 2 (by decide) _, blockOf'_ok 2 (by decide) _, by decide⟩

/-- `C(j) = 3 C(j) + 2 V(i) B(i,j)` and `C(i,j) = 3 C(i,j) + 2 B(i,j) V(j)`, the vector a view with stride 2. -/
example : ∃ V : Strided Int, ∃ B C1 C2 : Block Int, V.WF ∧ V.dims = [3] ∧ B.Models 2 gemmBlocks ∧
    C1.Models 1 [(2, fun _ => 1), (0, fun _ => 1), (1, fun _ => 1)] ∧ C2.Models 2 gemmBlocks ∧
    Contracted [0] [0, 1] [1] [0] ∧ Contracted [1] [0, 1] [0, 1] [] ∧
    (∃ C', einsumVecBlock false true true 3 [1] C1 2 0 V [0, 1] B [2, 0, 1] = .ok C' ∧
      C'.toDense [0, 1, 2] = .ok ⟨[13, 25, 33], 0, [3], [1]⟩) ∧
    ∃ C', einsumVecBlock false true false 3 [0, 1] C2 2 1 V [0, 1] B [2, 0, 1] = .ok C' ∧
      C'.toDense [0, 1, 2] = .ok ⟨[5, 21, 0, 10, 28, 0, 0, 0, 39], 0, [3, 3], [3, 1]⟩ :=
  ⟨⟨[1, 9, 2, 9, 5], 0, [3], [2]⟩, _, blockOf' 1 [(2, fun _ => 1), (0, fun _ => 1), (1, fun _ => 1)], _,
    ⟨rfl, by intro i hi; match i, hi with | [k], hi => simp [dot] at hi ⊢; omega,
      by intro i j hi hj h; match i, j, hi, hj with | [a], [b], _, _ => simp [dot] at h ⊢; omega⟩, rfl, blockOf'_ok 2 (by decide) _,
    blockOf'_ok 1 (by decide) _, blockOf'_ok 2 (by decide) _, ⟨by decide, by intro l; simp; omega⟩,
    ⟨by decide, by intro l; simp; omega⟩, ⟨_, rfl, by decide⟩, _, rfl, by decide⟩

/-- **C95 (refuted for other labels).** `C(i,j,k) = V(i) B(j,k)` with two 1×1 blocks: `C(1,0,0)` is `V(1)*B(0,0) = 10`, but it
is between the blocks of `C` and stays 0.  The call neither throws nor is it rejected by the run-time check. -/
theorem C95_outer_refuted : ∃ V : Strided Int, ∃ B C C' : Block Int, V.IsTensor ∧ V.dims = [2] ∧
    V.read [1] = .ok 5 ∧ B.Models 2 [(1, fun _ => 2), (1, fun _ => 3)] ∧ C.Models 3 [(1, fun _ => 0), (1, fun _ => 0)] ∧
    einsumVecBlock false true true 0 [0, 1, 2] C 1 0 V [1, 2] B [0, 1] = .ok C' ∧
    C'.toDense [0, 1] = .ok ⟨[8, 0, 0, 0, 0, 0, 0, 15], 0, [2, 2, 2], [4, 2, 1]⟩ :=
  ⟨tensorOf [2] fun i => if i = [1] then 5 else 4, _, _, _, (tensorOf_ok _ _).1, rfl, by decide, blockOf'_ok 2 (by decide) _,
    blockOf'_ok 3 (by decide) _, rfl, by decide⟩

/-- **C95 (scalar result, refuted).** `einsum(1, {}, &c, 1, {i}, V, {i, i}, B)` with one 1×1 block: 10 + 2*3 is returned as 26. -/
theorem C95_scalar_refuted : ∃ V : Strided Int, ∃ B : Block Int, V.IsTensor ∧ V.dims = [1] ∧ V.read [0] = .ok 2 ∧
    B.Models 2 [(1, fun _ => 3)] ∧ einsumVecBlockScalar true true 1 10 1 0 V [0, 0] B [0] = .ok 26 :=
  ⟨tensorOf [1] fun _ => 2, _, (tensorOf_ok _ _).1, rfl, by decide, blockOf'_ok 2 (by decide) _, by decide⟩

end Einsums.Props
