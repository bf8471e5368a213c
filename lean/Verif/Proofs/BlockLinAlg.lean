import Verif.Proofs.BlockDense
import Verif.Model.BlockLinAlg
/-
Linear algebra on block tensors.
-/
namespace Einsums
open Spec Model

variable {R : Type}

/-! ### Elements of updated block lists -/

/-- Update every block by a function of its number and its elements. -/
def mapBlocks (bs : Blocks R) (G : Nat → (List Nat → R) → List Nat → R) : Blocks R :=
  bs.mapIdx fun b p => (p.1, G b p.2)

theorem mapBlocks_length (bs : Blocks R) (G) : (mapBlocks bs G).length = bs.length := by simp [mapBlocks]

theorem mapBlocks_sizes (bs : Blocks R) (G) : (mapBlocks bs G).sizes = bs.sizes := by
  unfold mapBlocks Blocks.sizes
  apply List.ext_getElem?
  intro i
  simp only [List.getElem?_map, List.getElem?_mapIdx]
  cases bs[i]? <;> rfl

theorem mapBlocks_getElem (bs : Blocks R) (G) (b : Nat) (h : b < bs.length) :
    (mapBlocks bs G)[b]'(by rw [mapBlocks_length]; exact h) = (bs[b].1, G b bs[b].2) := by
  simp [mapBlocks]

/-- The element of the whole tensor, by the block that contains it. -/
theorem elem_cases [Zero R] (bs : Blocks R) {r : Nat} (hr : 0 < r) {j : List Nat}
    (hj : InBox j (List.replicate r bs.sizes.sum)) :
    (∃ (b : Nat) (_ : b < bs.length) (l : List Nat), InBox l (List.replicate r (bs.sizes.getD b 0)) ∧
      j = l.map (tileStart bs.sizes b + ·) ∧ ∀ cs : Blocks R, cs.sizes = bs.sizes → ∀ hc : b < cs.length, cs.elem j = cs[b].2 l) ∨
    ((∀ b, ¬ InBlock bs.sizes b j) ∧ ∀ cs : Blocks R, cs.sizes = bs.sizes → cs.elem j = 0) := by
  have hl := (inBox_replicate.1 hj).1
  by_cases c : ∃ b, InBlock bs.sizes b j
  · obtain ⟨b, hb⟩ := c
    left
    cases j with
    | nil => simp at hl; omega
    | cons x j =>
      have hlt := interval_lt (hb x (by simp))
      have hbl : b < bs.length := by simpa [Blocks.sizes] using hlt
      have e : (x :: j) = ((x :: j).map (· - tileStart bs.sizes b)).map (tileStart bs.sizes b + ·) := by
        rw [List.map_map]
        conv_lhs => rw [← List.map_id (x :: j)]
        apply List.map_congr_left
        intro y hy
        have := (hb y hy).1
        simp only [Function.comp, id]
        omega
      refine ⟨b, hbl, (x :: j).map (· - tileStart bs.sizes b), local_inBox hl hb, e, ?_⟩
      intro cs hcs hc
      have hin := local_inBox hl hb
      generalize (x :: j).map (· - tileStart bs.sizes b) = l at e hin
      rw [e, ← hcs]
      apply elem_shift hr hc
      rw [hcs]
      exact hin
  · right
    simp only [not_exists] at c
    refine ⟨c, ?_⟩
    intro cs hcs
    unfold Blocks.elem
    cases e : cs.find j with
    | none => rfl
    | some b =>
      have := (find_some e).2
      rw [hcs] at this
      exact absurd this (c b)

/-- Elementwise updates of the blocks are elementwise on the whole tensor. -/
theorem elem_mapBlocks [Zero R] {bs as : Blocks R} (hs : as.sizes = bs.sizes) {r : Nat} (hr : 0 < r) (op : R → R → R)
    (h0 : op 0 0 = 0) {j : List Nat} (hj : InBox j (List.replicate r bs.sizes.sum)) :
    (mapBlocks bs fun b f l => op (f l) ((as.getD b (0, fun _ => 0)).2 l)).elem j = op (bs.elem j) (as.elem j) := by
  have hlen : as.length = bs.length := by simpa [Blocks.sizes] using congrArg List.length hs
  rcases elem_cases bs hr hj with ⟨b, hb, l, _, _, h⟩ | ⟨_, h⟩
  · rw [h _ (mapBlocks_sizes _ _) (by rw [mapBlocks_length]; exact hb), h _ rfl hb, h _ hs (by omega), mapBlocks_getElem _ _ _ hb]
    simp [List.getD_eq_getElem?_getD, List.getElem?_eq_getElem (show b < as.length by omega)]
  · rw [h _ (mapBlocks_sizes _ _), h _ rfl, h _ hs, h0]

theorem elem_mapBlocks3 [Zero R] {bs as cs : Blocks R} (hs : as.sizes = bs.sizes) (hs' : cs.sizes = bs.sizes) {r : Nat} (hr : 0 < r)
    (op : R → R → R → R) (h0 : op 0 0 0 = 0) {j : List Nat} (hj : InBox j (List.replicate r bs.sizes.sum)) :
    (mapBlocks bs fun b f l => op (f l) ((as.getD b (0, fun _ => 0)).2 l) ((cs.getD b (0, fun _ => 0)).2 l)).elem j
      = op (bs.elem j) (as.elem j) (cs.elem j) := by
  have hlen : as.length = bs.length := by simpa [Blocks.sizes] using congrArg List.length hs
  have hlen' : cs.length = bs.length := by simpa [Blocks.sizes] using congrArg List.length hs'
  rcases elem_cases bs hr hj with ⟨b, hb, l, _, _, h⟩ | ⟨_, h⟩
  · rw [h _ (mapBlocks_sizes _ _) (by rw [mapBlocks_length]; exact hb), h _ rfl hb, h _ hs (by omega), h _ hs' (by omega),
      mapBlocks_getElem _ _ _ hb]
    simp [List.getD_eq_getElem?_getD, List.getElem?_eq_getElem (show b < as.length by omega),
      List.getElem?_eq_getElem (show b < cs.length by omega)]
  · rw [h _ (mapBlocks_sizes _ _), h _ rfl, h _ hs, h _ hs', h0]

/-! ### The loop -/

theorem blocks_set_self {U : Block R} {i : Nat} {t : Strided R} (h : U.blocks[i]? = some t) : U.blocks.set i t = U.blocks := by
  apply List.ext_getElem?
  intro k
  rw [List.getElem?_set]
  split
  · rename_i e
    subst e
    split
    · exact h.symm
    · rename_i c
      rw [List.getElem?_eq_none (by omega)]
  · rfl

theorem blockStep_ok {A U : Block R} {r : Nat} (hr : 0 < r) {as cur : Blocks R} (hA : A.Models r as) (hU : U.Models r cur) {i : Nat}
    {p c : Nat × (List Nat → R)} (ha : as[i]? = some p) (hc : cur[i]? = some c) (hpc : p.1 = c.1) {g : List Nat → R}
    {f : Nat → Strided R → Strided R → Outcome (Strided R)}
    (hf : ∀ a t, HoldsBlock r a p → HoldsBlock r t c → p.1 ≠ 0 → ∃ t', f i a t = .ok t' ∧ HoldsBlock r t' (c.1, g)) :
    ∃ U', blockStep A f U i = .ok U' ∧ U'.Models r (cur.set i (c.1, g)) := by
  obtain ⟨a, _, a2, a3⟩ := hA.at ha
  obtain ⟨t, t1, t2, t3⟩ := hU.at hc
  unfold blockStep
  rw [a2, Outcome.ok_bind]
  split
  · rename_i h0
    refine ⟨U, rfl, ?_⟩
    have h0' : t.dim 0 = 0 := by rw [t3.dim hr, ← hpc, ← a3.dim hr]; exact h0
    have := hU.setBlock (n := c.1) (f := c.2) hc (t3.empty hr h0' g)
    rw [blocks_set_self t1] at this
    exact this
  · rename_i h0
    obtain ⟨t', h1, h2⟩ := hf a t a3 t3 (by rw [← a3.dim hr]; exact h0)
    rw [t2, Outcome.ok_bind, h1, Outcome.ok_bind]
    exact ⟨_, rfl, hU.setBlock (n := c.1) (f := c.2) hc h2⟩

/-- The loop over the blocks, in any order. -/
theorem blockSteps_ok {A C : Block R} {r : Nat} (hr : 0 < r) {as cs : Blocks R} (hA : A.Models r as) (hC : C.Models r cs)
    (hs : as.sizes = cs.sizes) {G : Nat → (List Nat → R) → List Nat → R}
    {f : Nat → Strided R → Strided R → Outcome (Strided R)}
    (hf : ∀ i p c a t, as[i]? = some p → cs[i]? = some c → p.1 = c.1 → HoldsBlock r a p → HoldsBlock r t c → p.1 ≠ 0 →
      ∃ t', f i a t = .ok t' ∧ HoldsBlock r t' (c.1, G i c.2))
    {sched : List Nat} (hp : sched.Perm (List.range cs.length)) :
    ∃ C', sched.foldlM (blockStep A f) C = .ok C' ∧ C'.Models r (mapBlocks cs G) := by
  have hlen : as.length = cs.length := by simpa [Blocks.sizes] using congrArg List.length hs
  apply blockLoop hC (mapBlocks_length _ _) _ hp
  intro U cur i hi hU hc
  rw [mapBlocks_getElem _ _ _ hi]
  have e1 := List.getElem?_eq_getElem hi
  have e2 := List.getElem?_eq_getElem (show i < as.length by omega)
  have hpc : as[i].1 = cs[i].1 := by rw [← getD_sizes e1, ← getD_sizes e2, hs]
  exact blockStep_ok hr hA hU e2 hc hpc fun a t h1 h2 h3 => hf i _ _ a t e2 e1 hpc h1 h2 h3

section
variable [CommSemiring R] [BEq R] [LawfulBEq R]

omit [CommSemiring R] [BEq R] [LawfulBEq R] in
theorem HoldsBlock.ne {r : Nat} (hr : 0 < r) {t : Strided R} {p : Nat × (List Nat → R)} (h : HoldsBlock r t p) : t.dims ≠ [] := by
  rw [h.2.1]; simp; omega

omit [CommSemiring R] [BEq R] [LawfulBEq R] in
theorem HoldsBlock.rowMajor {r : Nat} {t : Strided R} {p : Nat × (List Nat → R)} (h : HoldsBlock r t p) : t.RowMajor :=
  ⟨h.1.strides, by rw [h.1.off, h.1.length]; omega⟩

omit [CommSemiring R] [BEq R] [LawfulBEq R] in
theorem HoldsBlock.change {r : Nat} {t t' : Strided R} {p : Nat × (List Nat → R)} (h : HoldsBlock r t p) {g : List Nat → R}
    (fr : t.Frame t') (hg : t'.Represents g) : HoldsBlock r t' (p.1, g) :=
  ⟨fr.isTensor h.1, fr.dims.trans h.2.1, hg⟩

omit [BEq R] [LawfulBEq R] in
theorem blockAxpby_ok (alpha beta : R) {X Y : Block R} {r : Nat} (hr : 0 < r) {xs ys : Blocks R} (hX : X.Models r xs)
    (hY : Y.Models r ys) (hs : xs.sizes = ys.sizes) {sched : List Nat} (hp : sched.Perm (List.range ys.length)) :
    ∃ Y', blockAxpby alpha X beta Y sched = .ok Y' ∧
      Y'.Models r (mapBlocks ys fun b f l => beta * f l + alpha * (xs.getD b (0, fun _ => 0)).2 l) := by
  have hlen : xs.length = ys.length := by simpa [Blocks.sizes] using congrArg List.length hs
  unfold blockAxpby
  rw [if_neg (by simp [hX.length, hY.length, hlen]), if_neg (by simp [hX.ranges, hY.ranges, hs, hlen])]
  refine blockSteps_ok hr hX hY hs ?_ hp
  intro i p c a t h1 h2 h3 h4 h5 _
  obtain ⟨t', g1, g2, g3⟩ := axpby_rowMajor h4.rowMajor h5.rowMajor (by rw [h4.2.1, h5.2.1, h3]) (h5.ne hr) h4.2.2 h5.2.2 alpha beta
  refine ⟨t', g1, h5.change g2 ?_⟩
  simpa [List.getD_eq_getElem?_getD, h1] using g3

omit [BEq R] [LawfulBEq R] in
theorem blockAxpy_ok (alpha : R) {X Y : Block R} {r : Nat} (hr : 0 < r) {xs ys : Blocks R} (hX : X.Models r xs)
    (hY : Y.Models r ys) (hs : xs.sizes = ys.sizes) {sched : List Nat} (hp : sched.Perm (List.range ys.length)) :
    ∃ Y', blockAxpy alpha X Y sched = .ok Y' ∧
      Y'.Models r (mapBlocks ys fun b f l => f l + alpha * (xs.getD b (0, fun _ => 0)).2 l) := by
  have hlen : xs.length = ys.length := by simpa [Blocks.sizes] using congrArg List.length hs
  unfold blockAxpy
  rw [if_neg (by simp [hX.length, hY.length, hlen]), if_neg (by simp [hX.ranges, hY.ranges, hs, hlen])]
  refine blockSteps_ok hr hX hY hs ?_ hp
  intro i p c a t h1 h2 h3 h4 h5 _
  obtain ⟨t', g1, g2, g3⟩ := axpy_rowMajor h4.rowMajor h5.rowMajor (by rw [h4.2.1, h5.2.1, h3]) (h5.ne hr) h4.2.2 h5.2.2 alpha
  refine ⟨t', g1, h5.change g2 ?_⟩
  simpa [List.getD_eq_getElem?_getD, h1] using g3

theorem blockDirect_ok (alpha beta : R) {A B C : Block R} {r : Nat} (hr : 0 < r) {as bs cs : Blocks R} (hA : A.Models r as)
    (hB : B.Models r bs) (hC : C.Models r cs) (hs : as.sizes = cs.sizes) (hs' : bs.sizes = cs.sizes) {sched : List Nat}
    (hp : sched.Perm (List.range cs.length)) :
    ∃ C', blockDirect alpha A B beta C sched = .ok C' ∧
      C'.Models r (mapBlocks cs fun b f l =>
        beta * f l + alpha * ((as.getD b (0, fun _ => 0)).2 l * (bs.getD b (0, fun _ => 0)).2 l)) := by
  have hlen : bs.length = cs.length := by simpa [Blocks.sizes] using congrArg List.length hs'
  unfold blockDirect
  refine blockSteps_ok hr hA hC hs ?_ hp
  intro i p c a t h1 h2 h3 h4 h5 _
  have hib : i < bs.length := by
    by_contra hc
    rw [List.getElem?_eq_none (by omega)] at h2
    simp at h2
  obtain ⟨b, _, b2, b3⟩ := hB.at (List.getElem?_eq_getElem hib)
  have hsz : bs[i].1 = c.1 := by rw [← getD_sizes h2, ← getD_sizes (List.getElem?_eq_getElem hib), hs']
  obtain ⟨t', g1, g2, g3⟩ := directProduct_eq alpha beta (by rw [h4.2.1, h5.2.1, h3]) (by rw [b3.2.1, h5.2.1, hsz]) h5.1
    h4.2.2 b3.2.2 h5.2.2
  rw [b2, Outcome.ok_bind]
  refine ⟨t', g1, h5.change g2 ?_⟩
  simpa [List.getD_eq_getElem?_getD, h1, List.getElem?_eq_getElem hib] using g3

omit [BEq R] [LawfulBEq R] in
theorem blockScale_ok (alpha : R) {A : Block R} {r : Nat} (hr : 0 < r) {as : Blocks R} (hA : A.Models r as) {sched : List Nat}
    (hp : sched.Perm (List.range as.length)) :
    ∃ A', blockScale alpha A sched = .ok A' ∧ A'.Models r (mapBlocks as fun _ f l => alpha * f l) := by
  unfold blockScale
  apply blockLoop hA (mapBlocks_length _ _) _ hp
  intro U cur i hi hU hc
  rw [mapBlocks_getElem _ _ _ hi]
  refine blockStep_ok hr hU hU hc hc rfl ?_
  intro a t _ h2 _
  obtain ⟨t', g1, g2, g3⟩ := scale_rowMajor h2.rowMajor (h2.ne hr) h2.2.2 alpha
  exact ⟨t', g1, h2.change g2 g3⟩

theorem blockGemm_ok (ta tb : Bool) (alpha beta : R) {A B C : Block R} {as bs cs : Blocks R} (hA : A.Models 2 as)
    (hB : B.Models 2 bs) (hC : C.Models 2 cs) (hs : as.sizes = cs.sizes) (hs' : bs.sizes = cs.sizes) {sched : List Nat}
    (hp : sched.Perm (List.range cs.length)) :
    ∃ C', blockGemm ta tb alpha A B beta C sched = .ok C' ∧
      C'.Models 2 (mapBlocks cs fun b f l =>
        beta * f l + alpha * sumTo (cs.sizes.getD b 0) fun k =>
          opElem ta (as.getD b (0, fun _ => 0)).2 (l.getD 0 0) k * opElem tb (bs.getD b (0, fun _ => 0)).2 k (l.getD 1 0)) := by
  have hlen : bs.length = cs.length := by simpa [Blocks.sizes] using congrArg List.length hs'
  have hlen' : as.length = cs.length := by simpa [Blocks.sizes] using congrArg List.length hs
  unfold blockGemm
  rw [if_neg (by simp [hA.length, hB.length, hC.length, hlen, hlen'])]
  refine blockSteps_ok (by omega) hA hC hs ?_ hp
  intro i p c a t h1 h2 h3 h4 h5 h6
  have hib : i < bs.length := by
    by_contra hc
    rw [List.getElem?_eq_none (by omega)] at h2
    simp at h2
  obtain ⟨b, _, b2, b3⟩ := hB.at (List.getElem?_eq_getElem hib)
  have hsz : bs[i].1 = c.1 := by rw [← getD_sizes h2, ← getD_sizes (List.getElem?_eq_getElem hib), hs']
  have da : a.dims = [c.1, c.1] := by rw [h4.2.1, h3]; rfl
  have db : b.dims = [c.1, c.1] := by rw [b3.2.1, hsz]; rfl
  have dc : t.dims = [c.1, c.1] := h5.2.1
  rw [b2, Outcome.ok_bind]
  obtain ⟨t', g1, g2, g3⟩ := Props.C25_gemm_partial ta tb c.1 c.1 c.1 alpha beta a b t c.1 c.1 c.1 _ _ _
    (by cases ta <;> exact da) (by cases tb <;> exact db) dc (matrix_strides h4.1 da) (matrix_strides b3.1 db)
    (matrix_strides h5.1 dc) (by split <;> omega) (by split <;> omega) le_rfl h4.2.2 b3.2.2 h5.1.wf h5.2.2 (by omega)
  refine ⟨t', g1, h5.change g2 ?_⟩
  intro l hl
  rw [g2.dims, dc] at hl
  obtain ⟨x, y, rfl, hx, hy⟩ := Props.inBox2_cases hl
  rw [show toIdx [x, y] = [(x : Int), (y : Int)] from rfl, g3 x y hx hy]
  simp [List.getD_eq_getElem?_getD, h1, List.getElem?_eq_getElem hib]
  rw [show cs.sizes[i]?.getD 0 = c.1 from by rw [← List.getD_eq_getElem?_getD, getD_sizes h2]]

end

end Einsums
