import Verif.Proofs.MixedAlgebra
import Verif.Props.BlockAlgebra
/-
Property theorems C96 and C97: `einsum` on block tensors and tiled tensors together.
-/
namespace Einsums.Props
open Einsums Spec Model

variable {L : Type} [DecidableEq L] {R : Type} [CommSemiring R] [BEq R] [LawfulBEq R]

omit [BEq R] [LawfulBEq R] in
theorem mixed_noAbort {P : L → List Nat} {A B C : GridTensor R} {Al Bl Cl : List L} {fA fB fC : List Nat → R}
    (eA : A.Elements Al P fA) (eB : B.Elements Bl P fB) (eC : C.Elements Cl P fC) :
    runtimeAbort Al Bl Cl A.dims B.dims C.dims = false := by
  unfold runtimeAbort
  rw [dims_elements eA, dims_elements eB, dims_elements eC, no_clash_of_map, no_clash_of_map, no_clash_of_map]; rfl

section
variable [Div R]

/-- **C96 (the elements that `C` stores).** `einsum` on block and tiled tensors together, `A`, `B` or both of them block tensors
if `C` is one, the intervals of each label the same in all of them, and not the element-wise product: whatever the order of the
parallel loop, with or without the run-time check, every element that `C` stores – for a tiled tensor every element, for a block
tensor those inside a block – satisfies `C(ρ) := cp*C(ρ) + ab*Σ A*B`, the sum over all values of the contracted labels. -/
theorem C96_stored (P : L → List Nat) (Al Bl Cl ls : List L) (og check : Bool) (A B C : GridTensor R)
    (fA fB fC : List Nat → R) (cp ab : R) (hAn : Al.Nodup) (hA0 : Al ≠ []) (hB0 : Bl ≠ []) (hC0 : Cl ≠ [])
    (eA : A.Elements Al P fA) (eB : B.Elements Bl P fB) (eC : C.Elements Cl P fC)
    (kind : C.isBlock = true → (A.isBlock || B.isBlock) = true)
    (coverA : ∀ l ∈ Al, l ∈ Cl ∨ l ∈ Bl) (coverB : ∀ l ∈ Bl, l ∈ Cl ∨ l ∈ Al) (coverC : ∀ l ∈ Cl, l ∈ Al ∨ l ∈ Bl)
    (noTriple : choosePath og Al Bl Cl = .gemm → ∀ l ∈ Cl, ¬(l ∈ Al ∧ l ∈ Bl))
    (order : choosePath og Al Bl Cl = .outer → Cl = Al ++ Bl ∨ Cl = Bl ++ Al)
    (hls : Contracted Al Bl Cl ls) (he : ¬ (Al = Cl ∧ Bl = Cl)) (sched : List Nat)
    (hs : sched.Perm (List.range (mixedCount Cl C Al A Bl B))) :
    ∃ C' f', einsumMixed og check cp Cl C ab Al A Bl B sched = .ok C' ∧ C'.isBlock = C.isBlock ∧ C'.Elements Cl P f' ∧
      ∀ ρ, InRange (fun l => (P l).sum) Cl ρ → (C.isBlock = true → ∃ b, ∀ l ∈ Cl, InInterval (P l) b (ρ l)) →
        f' (Cl.map ρ) = cp * fC (Cl.map ρ) + ab * contraction (fun l => (P l).sum) ls Al Bl fA fB ρ := by
  unfold einsumMixed
  rw [if_neg (by rw [labelsOk_of_cover coverA coverB]; simp), mixed_noAbort eA eB eC, if_neg (by simp), if_neg]
  · exact mixedEinsum_ok eA eB eC kind hAn hA0 hB0 hC0 coverA coverB coverC noTriple order hls hs
  · intro h
    simp only [isElementWise, Bool.and_eq_true, decide_eq_true_eq] at h
    exact he ⟨h.1.1.symm, h.1.2.symm⟩

/-- **C96 (proved part).** Every element of `C`, stored or not, when `C` is a tiled tensor, or when all labels of `C` are labels of
one operand that is a block tensor (then the exact result has no elements between the blocks either).
Missing: a block tensor `C` whose labels come from both operands, one of them tiled, or both operands tiled. -/
theorem C96_mixed_partial (P : L → List Nat) (Al Bl Cl ls : List L) (og check : Bool) (A B C : GridTensor R)
    (fA fB fC : List Nat → R) (cp ab : R) (hAn : Al.Nodup) (hA0 : Al ≠ []) (hB0 : Bl ≠ []) (hC0 : Cl ≠ [])
    (eA : A.Elements Al P fA) (eB : B.Elements Bl P fB) (eC : C.Elements Cl P fC)
    (kind : C.isBlock = true → A.isBlock = true ∧ (∀ l ∈ Cl, l ∈ Al) ∨ B.isBlock = true ∧ (∀ l ∈ Cl, l ∈ Bl))
    (coverA : ∀ l ∈ Al, l ∈ Cl ∨ l ∈ Bl) (coverB : ∀ l ∈ Bl, l ∈ Cl ∨ l ∈ Al) (coverC : ∀ l ∈ Cl, l ∈ Al ∨ l ∈ Bl)
    (noTriple : choosePath og Al Bl Cl = .gemm → ∀ l ∈ Cl, ¬(l ∈ Al ∧ l ∈ Bl))
    (order : choosePath og Al Bl Cl = .outer → Cl = Al ++ Bl ∨ Cl = Bl ++ Al)
    (hls : Contracted Al Bl Cl ls) (he : ¬ (Al = Cl ∧ Bl = Cl)) (sched : List Nat)
    (hs : sched.Perm (List.range (mixedCount Cl C Al A Bl B))) :
    ∃ C' f', einsumMixed og check cp Cl C ab Al A Bl B sched = .ok C' ∧ C'.isBlock = C.isBlock ∧ C'.Elements Cl P f' ∧
      ∀ ρ, InRange (fun l => (P l).sum) Cl ρ →
        f' (Cl.map ρ) = cp * fC (Cl.map ρ) + ab * contraction (fun l => (P l).sum) ls Al Bl fA fB ρ := by
  obtain ⟨C', f', h1, h2, h3, h4⟩ := C96_stored P Al Bl Cl ls og check A B C fA fB fC cp ab hAn hA0 hB0 hC0 eA eB eC
    (fun h => by rcases kind h with ⟨h, _⟩ | ⟨h, _⟩ <;> simp [h]) coverA coverB coverC noTriple order hls he sched hs
  refine ⟨C', f', h1, h2, h3, ?_⟩
  intro ρ hρ
  by_cases hst : C.isBlock = true → ∃ b, ∀ l ∈ Cl, InInterval (P l) b (ρ l)
  · exact h4 ρ hρ hst
  have hb : C.isBlock = true := by
    by_contra hc
    exact hst fun h => absurd h hc
  have hno : ∀ b, ¬ ∀ l ∈ Cl, InInterval (P l) b (ρ l) := fun b h => hst fun _ => ⟨b, h⟩
  -- a block tensor is zero at a position that is in no block
  have zero : ∀ {X : GridTensor R} {Xl : List L} {f : List Nat → R} {σ : L → Nat}, X.Elements Xl P f → X.isBlock = true →
      (∀ l ∈ Xl, σ l < (P l).sum) → (∀ l ∈ Cl, l ∈ Xl ∧ σ l = ρ l) → f (Xl.map σ) = 0 := by
    intro X Xl f σ e hX hσ hcl
    cases X with
    | tiled T => simp [GridTensor.isBlock] at hX
    | block T =>
      obtain ⟨bs, hm, hP, hf⟩ := e
      rw [hf _ (by
        rw [← List.map_const']
        exact inBox_map fun l hl => by have := hσ l hl; rwa [hP l hl] at this)]
      by_contra hne
      obtain ⟨b, hbb⟩ := elem_ne hne
      refine hno b fun l hl => ?_
      obtain ⟨hx, e⟩ := hcl l hl
      rw [hP l hx, ← e]
      exact hbb _ (List.mem_map_of_mem hx)
  have same : ∀ l ∈ Cl, l ∈ Cl ∧ ρ l = ρ l := fun l hl => ⟨hl, rfl⟩
  rw [zero h3 (h2.trans hb) hρ same, zero eC hb hρ same]
  have : contraction (fun l => (P l).sum) ls Al Bl fA fB ρ = 0 := by
    unfold contraction
    rw [sumOver_congr (G := fun _ => 0)]
    · rw [sumOver_eq _ ls hls.1]
      exact List.sum_eq_zero fun x hx => by obtain ⟨_, _, rfl⟩ := List.mem_map.1 hx; rfl
    · intro σ hσ1 hσ2
      have hC : ∀ l ∈ Cl, σ l = ρ l := fun l hl => hσ1 l fun h => ((hls.2 l).1 h).2.2 hl
      have rng : ∀ l, l ∈ Cl ∨ l ∈ ls → σ l < (P l).sum := by
        rintro l (h | h)
        · rw [hC l h]; exact hρ l h
        · exact hσ2 l h
      rcases kind hb with ⟨k, hsub⟩ | ⟨k, hsub⟩
      · rw [zero eA k (fun l hl => rng l ?_) fun l hl => ⟨hsub l hl, hC l hl⟩, zero_mul]
        by_cases c : l ∈ Cl
        · exact .inl c
        · exact .inr ((hls.2 l).2 ⟨hl, (coverA l hl).resolve_left c, c⟩)
      · rw [zero eB k (fun l hl => rng l ?_) fun l hl => ⟨hsub l hl, hC l hl⟩, mul_zero]
        by_cases c : l ∈ Cl
        · exact .inl c
        · exact .inr ((hls.2 l).2 ⟨(coverB l hl).resolve_left c, hl, c⟩)
  rw [this]
  simp

/-- **C97 (proved part).** The element-wise product of vectors, one of the operands a block tensor: whatever the order of the
loop, every element satisfies `C(i) := cp*C(i) + ab*A(i)*B(i)`, provided `cp` is 1 or the tiled operand, if there is one, has all
of its tiles.
Missing: tensors of rank two and more, and missing tiles with another `cp`. -/
theorem C97_vector_partial (l : L) (P : L → List Nat) (og check : Bool) (A B C : GridTensor R) (fA fB fC : List Nat → R) (cp ab : R)
    (eA : A.Elements [l] P fA) (eB : B.Elements [l] P fB) (eC : C.Elements [l] P fC)
    (kind : A.isBlock = true ∨ B.isBlock = true)
    (full : cp = 1 ∨ ∀ T : Tiled R, A = .tiled T ∨ B = .tiled T → ∀ k, InBox k (gridDims T.sizes) → T.hasTile (toIdx k) = true)
    (sched : List Nat) (hs : sched.Perm (List.range (mixedDirectCount A B))) :
    ∃ C' f', einsumMixed og check cp [l] C ab [l] A [l] B sched = .ok C' ∧ C'.isBlock = C.isBlock ∧ C'.Elements [l] P f' ∧
      ∀ x, x < (P l).sum → f' [x] = cp * fC [x] + ab * (fA [x] * fB [x]) := by
  classical
  have hk : (A.isBlock || B.isBlock) = true := by rcases kind with h | h <;> simp [h]
  have hc : mixedDirectCount A B = (P l).length := by
    have one : ∀ {T : Block R} {f : List Nat → R}, (GridTensor.block T).Elements [l] P f → T.blocks.length = (P l).length := by
      rintro T f ⟨bs, hm, hP, _⟩
      rw [hm.length, hP l (by simp)]
      simp [Blocks.sizes]
    cases A with
    | block A => exact one eA
    | tiled A =>
      cases B with
      | block B => exact one eB
      | tiled B => simp [GridTensor.isBlock] at hk
  rw [hc] at hs
  unfold einsumMixed
  rw [if_neg (by rw [labelsOk_of_cover (by simp) (by simp)]; simp), mixed_noAbort eA eB eC, if_neg (by simp),
    if_pos (by simp [isElementWise, noHadamard_iff])]
  obtain ⟨C', f', h1, h2, h3, h4⟩ := direct_loop (alpha := ab) (beta := cp) eA eB hk full sched
    (hs.nodup_iff.2 List.nodup_range) (fun i hi => List.mem_range.1 (hs.mem_iff.1 hi)) C fC eC
  refine ⟨C', f', ?_, h2, h3, ?_⟩
  · rw [← h1]
    unfold mixedDirect
    cases A with
    | block A => rfl
    | tiled A =>
      cases B with
      | block B => rfl
      | tiled B => simp [GridTensor.isBlock] at hk
  · intro x hx
    rw [h4 x hx, if_pos]
    obtain ⟨b, h2⟩ := interval_exists hx
    exact ⟨b, hs.mem_iff.2 (List.mem_range.2 (interval_lt h2)), h2⟩

end

/-! ### Examples -/

/-- Labels 0 and 1 have intervals of 2, 0 and 1 elements, label 2 has two of one element. -/
def mixedPartition (l : Nat) : List Nat := if l < 2 then [2, 0, 1] else [1, 1]

theorem block_elements (Xl : List Nat) (h : Xl ≠ []) (hl : ∀ l ∈ Xl, l < 2) (bs : Blocks Int) (hs : bs.sizes = [2, 0, 1]) :
    (GridTensor.block (blockOf' Xl.length bs)).Elements Xl mixedPartition bs.elem :=
  ⟨bs, blockOf'_ok _ (List.length_pos_iff.2 h) _, fun l hm => by rw [hs, mixedPartition, if_pos (hl l hm)], fun _ _ => rfl⟩

theorem tiled_elements (Xl : List Nat) (h : Xl ≠ []) (ops : List (TiledOp Int))
    (hv : ∀ op ∈ ops, op.Valid (gridDims (Xl.map mixedPartition))) :
    ∃ f, (GridTensor.tiled (tiledOf (Xl.map mixedPartition) ops)).Elements Xl mixedPartition f := by
  obtain ⟨h1, h2, h3⟩ := tiledOf_ok (Xl.map mixedPartition) (by simpa using h) ops hv
  exact ⟨_, h1, h2, h3⟩

/-- `C(i,k) = 3 C(i,k) + 2 A(i,j) B(j,k)`, `A` a block tensor, `B` and `C` tiled, with a missing tile. -/
example : ∃ (A : Block Int) (B C C' : Tiled Int) (fA fB fC : List Nat → Int) (sched : List Nat),
    (GridTensor.block A).Elements [0, 1] mixedPartition fA ∧ (GridTensor.tiled B).Elements [1, 2] mixedPartition fB ∧
    (GridTensor.tiled C).Elements [0, 2] mixedPartition fC ∧ Contracted [0, 1] [1, 2] [0, 2] [1] ∧
    sched.Perm (List.range (mixedCount [0, 2] (.tiled C) [0, 1] (.block A) [1, 2] (.tiled B))) ∧
    einsumMixed false true 3 [0, 2] (.tiled C) 2 [0, 1] (.block A) [1, 2] (.tiled B) sched = .ok (.tiled C') ∧
    C'.get [1, 1] = .ok 41 ∧ C'.get [0, 1] = .ok 10 ∧ C'.get [2, 0] = .ok 6 := by
  obtain ⟨fB, hB⟩ := tiled_elements [1, 2] (by simp) [.set [0, 1] 5, .set [2, 0] 1] (by simp [TiledOp.Valid])
  obtain ⟨fC, hC⟩ := tiled_elements [0, 2] (by simp) [.set [1, 1] 7] (by simp [TiledOp.Valid])
  exact ⟨_, _, _, _, _, _, _, (List.range 18).reverse, block_elements [0, 1] (by simp) (by simp) gemmBlocks (by decide), hB, hC,
    ⟨by decide, by intro l; simp; omega⟩, List.reverse_perm _, rfl, by decide, by decide, by decide⟩

/-- `C(i,j) = 3 C(i,j) + 2 A(i,j) B(j)`, `A` and `C` block tensors, `B` tiled. -/
example : ∃ (A C C' : Block Int) (B : Tiled Int) (fA fB fC : List Nat → Int) (sched : List Nat),
    (GridTensor.block A).Elements [0, 1] mixedPartition fA ∧ (GridTensor.tiled B).Elements [1] mixedPartition fB ∧
    (GridTensor.block C).Elements [0, 1] mixedPartition fC ∧ Contracted [0, 1] [1] [0, 1] [] ∧
    sched.Perm (List.range (mixedCount [0, 1] (.block C) [0, 1] (.block A) [1] (.tiled B))) ∧
    einsumMixed false true 3 [0, 1] (.block C) 2 [0, 1] (.block A) [1] (.tiled B) sched = .ok (.block C') ∧
    C'.toDense [0, 1, 2] = .ok ⟨[3, 39, 0, 6, 52, 0, 0, 0, 9], 0, [3, 3], [3, 1]⟩ := by
  obtain ⟨fB, hB⟩ := tiled_elements [1] (by simp) [.set [1] 5] (by simp [TiledOp.Valid])
  exact ⟨_, _, _, _, _, _, _, (List.range 9).reverse, block_elements [0, 1] (by simp) (by simp) gemmBlocks (by decide), hB,
    block_elements [0, 1] (by simp) (by simp) gemmBlocks (by decide),
    ⟨by decide, by intro l; simp; omega⟩, List.reverse_perm _, rfl, by decide⟩

/-- `C(i) = 1 C(i) + 2 A(i) B(i)`, `A` and `C` block vectors, `B` tiled with a missing tile. -/
example : ∃ (A C C' : Block Int) (B : Tiled Int) (fA fB fC : List Nat → Int),
    (GridTensor.block A).Elements [0] mixedPartition fA ∧ (GridTensor.tiled B).Elements [0] mixedPartition fB ∧
    (GridTensor.block C).Elements [0] mixedPartition fC ∧
    einsumMixed false true 1 [0] (.block C) 2 [0] (.block A) [0] (.tiled B) [1, 2, 0] = .ok (.block C') ∧
    C'.toDense [0, 1, 2] = .ok ⟨[1, 22, 3], 0, [3], [1]⟩ := by
  obtain ⟨fB, hB⟩ := tiled_elements [0] (by simp) [.set [1] 5] (by simp [TiledOp.Valid])
  exact ⟨_, _, _, _, _, _, _, block_elements [0] (by simp) (by simp) gemmBlocks (by decide), hB,
    block_elements [0] (by simp) (by simp) gemmBlocks (by decide), rfl, by decide⟩

/-- **C96 (refuted for tiled operands and a block result).** `C(i,k) = A(i,j) B(j,k)` with 1×1 matrices, `A` and `B` tiled, `C` a
block tensor: the branch that computes anything is not compiled, and `C(0,0)` is 0 instead of 6. -/
theorem C96_block_refuted : ∃ A B : Tiled Int, ∃ C C' : Block Int, A.WF ∧ B.WF ∧ A.sizes = [[1], [1]] ∧ B.sizes = [[1], [1]] ∧
    A.get [0, 0] = .ok 2 ∧ B.get [0, 0] = .ok 3 ∧ C.Models 2 [(1, fun _ => 7)] ∧
    einsumMixed false true 0 [0, 2] (.block C) 1 [0, 1] (.tiled A) [1, 2] (.tiled B)
      (List.range (mixedCount [0, 2] (.block C) [0, 1] (.tiled A) [1, 2] (.tiled B))) = .ok (.block C') ∧
    C'.toDense [0] = .ok ⟨[0], 0, [1, 1], [1, 1]⟩ :=
  ⟨tiledOf [[1], [1]] [.set [0, 0] 2], tiledOf [[1], [1]] [.set [0, 0] 3], blockOf' 2 [(1, fun _ => 7)], _,
    (tiledOf_ok _ (by simp) _ (by simp [TiledOp.Valid])).1, (tiledOf_ok _ (by simp) _ (by simp [TiledOp.Valid])).1,
    by decide, by decide, by decide, by decide, blockOf'_ok 2 (by decide) _, rfl, by decide⟩

/-- **C96 (refuted for elements between the blocks).** `C(i,k) = A(i,j) B(j,k)`, `A` and `C` block tensors with two 1×1 blocks,
`B` tiled with `B(0,1) = 3`: `C(0,1)` is `A(0,0)*B(0,1) = 6`, but the call leaves it 0 and does not throw. -/
theorem C96_offblock_refuted : ∃ A C C' : Block Int, ∃ B : Tiled Int, A.Models 2 [(1, fun _ => 2), (1, fun _ => 2)] ∧
    C.Models 2 [(1, fun _ => 0), (1, fun _ => 0)] ∧ B.WF ∧ B.sizes = [[1, 1], [1, 1]] ∧ B.get [0, 1] = .ok 3 ∧
    einsumMixed false true 0 [0, 2] (.block C) 1 [0, 1] (.block A) [1, 2] (.tiled B)
      (List.range (mixedCount [0, 2] (.block C) [0, 1] (.block A) [1, 2] (.tiled B))) = .ok (.block C') ∧
    C'.toDense [0, 1] = .ok ⟨[0, 0, 0, 0], 0, [2, 2], [2, 1]⟩ :=
  ⟨blockOf' 2 [(1, fun _ => 2), (1, fun _ => 2)], blockOf' 2 [(1, fun _ => 0), (1, fun _ => 0)], _,
    tiledOf [[1, 1], [1, 1]] [.set [0, 1] 3], blockOf'_ok 2 (by decide) _, blockOf'_ok 2 (by decide) _,
    (tiledOf_ok _ (by simp) _ (by simp [TiledOp.Valid])).1, by decide, by decide, rfl, by decide⟩

/-- **C97 (refuted for matrices).** `C(i,j) = A(i,j) B(i,j)`, `A` a block tensor with two 1×1 blocks, `B` and `C` tiled in the
same way: block 1 of `A` is multiplied with tile (1,0) of `B`, and the product is stored in tile (1,0) of `C`: `C(1,1)` is 0
instead of 2*5 = 10, and `C(1,0)` is 2*3 = 6 instead of 0. -/
theorem C97_matrix_refuted : ∃ A : Block Int, ∃ B C C' : Tiled Int, A.Models 2 [(1, fun _ => 2), (1, fun _ => 2)] ∧ B.WF ∧ C.WF ∧
    B.sizes = [[1, 1], [1, 1]] ∧ C.sizes = [[1, 1], [1, 1]] ∧ B.get [1, 0] = .ok 3 ∧ B.get [1, 1] = .ok 5 ∧
    einsumMixed false true 0 [0, 1] (.tiled C) 1 [0, 1] (.block A) [0, 1] (.tiled B) [0, 1] = .ok (.tiled C') ∧
    C'.get [1, 1] = .ok 0 ∧ C'.get [1, 0] = .ok 6 :=
  ⟨blockOf' 2 [(1, fun _ => 2), (1, fun _ => 2)], tiledOf [[1, 1], [1, 1]] [.set [1, 0] 3, .set [1, 1] 5],
    tiledOf [[1, 1], [1, 1]] [], _, blockOf'_ok 2 (by decide) _, (tiledOf_ok _ (by simp) _ (by simp [TiledOp.Valid])).1,
    (tiledOf_ok _ (by simp) _ (by simp)).1, by decide, by decide, by decide, by decide, rfl, by decide, by decide⟩

/-- **C97 (refuted for missing tiles).** `C(i) = 2 C(i) + A(i) B(i)`, `A` tiled without a tile: `C(0)` stays 7. -/
theorem C97_missing_refuted : ∃ A C C' : Tiled Int, ∃ B : Block Int, A.WF ∧ C.WF ∧ A.sizes = [[1]] ∧ C.sizes = [[1]] ∧
    B.Models 1 [(1, fun _ => 2)] ∧ A.get [0] = .ok 0 ∧ C.get [0] = .ok 7 ∧
    einsumMixed false true 2 [0] (.tiled C) 1 [0] (.tiled A) [0] (.block B) [0] = .ok (.tiled C') ∧ C'.get [0] = .ok 7 :=
  ⟨tiledOf [[1]] [], tiledOf [[1]] [.set [0] 7], _, blockOf' 1 [(1, fun _ => 2)], (tiledOf_ok _ (by simp) _ (by simp)).1,
    (tiledOf_ok _ (by simp) _ (by simp [TiledOp.Valid])).1, by decide, by decide, blockOf'_ok 1 (by decide) _, by decide, by decide,
    rfl, by decide⟩

end Einsums.Props
