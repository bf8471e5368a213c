import Verif.Proofs.BlockDot
import Verif.Props.TiledLinAlg
/-
Block tensors (C34, C35, C56–C58).
-/
namespace Einsums.Props
open Spec Model

variable {R : Type}

/-! ### C34: the tensor is the list of its blocks -/

/-- **C34 (histories).** After any sequence of calls within their contract — pushing and inserting blocks, writing
elements through the tensor or through a block, evaluating elements, `set_all`, compound assignment with a scalar —
starting from any block tensor, the object holds exactly the blocks the calls describe. -/
theorem C34_history [Zero R] (r : Nat) (hr : 0 < r) (T : Block R) (bs : Blocks R) (h : T.Models r bs)
    (ops : List (BlockOp R)) (bs' : Blocks R) (hs : specBlock r ops bs = some bs') :
    ∃ T', runBlock ops T = .ok T' ∧ T'.Models r bs' := run_models hr ops h hs

/-- **C34 (constructors).** A tensor without blocks, and a tensor with the given block sizes whose elements are
whatever the fresh memory holds. -/
theorem C34_construct [Zero R] (z : Nat → Nat → R) (r : Nat) (hr : 0 < r) (sizes : List Nat) :
    (Block.empty r : Block R).Models r [] ∧
    ∃ bs : Blocks R, (Block.mk' z r sizes).Models r bs ∧ bs.sizes = sizes := by
  have key : ∀ n, ∃ f, (Strided.mk' (z n) (List.replicate r n)).Represents f := fun n =>
    (C04_constructed (z n) (List.replicate r n) (by simp; omega)).2
  choose f hf using key
  refine ⟨⟨rfl, .nil, rfl, rfl, rfl⟩, sizes.map fun n => (n, f n), ?_, by simp [Blocks.sizes, Function.comp_def]⟩
  refine updateDims_models hr rfl ?_
  simp only
  rw [List.forall₂_map_left_iff, List.forall₂_map_right_iff, List.forall₂_same]
  intro n _
  have hne : List.replicate r n ≠ [] := by simp; omega
  exact ⟨isTensor_mk' _ hne, rfl, hf n⟩

/-- **C34 (copy).** Copy construction reproduces the blocks. -/
theorem C34_copy [Zero R] (r : Nat) (hr : 0 < r) (T : Block R) (bs : Blocks R) (h : T.Models r bs) :
    T.copy.Models r bs := by
  unfold Block.copy
  refine updateDims_models hr (by exact h.rank) ?_
  exact h.blocks

/-- **C34 (assignment).** After `T = O` the destination holds the blocks of the source, whatever it held before, in
whatever order the loop runs. -/
theorem C34_assign (z : Nat → R) (r : Nat) (hr : 0 < r) (T O : Block R) (ts os : Blocks R) (h : T.Models r ts)
    (hO : O.Models r os) (sched : List Nat) (hp : sched.Perm (List.range os.length)) :
    ∃ T', T.assign z O sched = .ok T' ∧ T'.Models r os := blockAssign_ok z hr h hO hp

/-- **C34 (reads).** With Python-style indices in range, reading gives the element of the block that contains all the
indices, and zero if they lie in different blocks; the tensor keeps its blocks. -/
theorem C34_read [Zero R] (r : Nat) (hr : 0 < r) (T : Block R) (bs : Blocks R) (h : T.Models r bs) (idx : List Int)
    (j : List Nat) (hi : pyIndices (List.replicate r bs.sizes.sum) idx = some j) :
    ∃ T', T.getMut idx = .ok (T', bs.elem j) ∧ T'.Models r bs := getMut_in hr h hi

/-- **C34 (reads out of range).** The call throws if the first index is out of range.  If only a later one is, it
returns zero like any position outside the blocks. -/
theorem C34_read_out [Zero R] (r : Nat) (T : Block R) (bs : Blocks R) (h : T.Models r bs) (i : Int) (is : List Int)
    (hl : (i :: is).length = r) (hi : pyIndices (List.replicate r bs.sizes.sum) (i :: is) = none) :
    if pyIndex bs.sizes.sum i = none then T.getMut (i :: is) = .error "out_of_range"
    else ∃ T', T.getMut (i :: is) = .ok (T', 0) ∧ T'.Models r bs := getMut_out h hl hi

/-- **C34 (one block).** The ranges partition the axis: every index below the dimension lies in exactly one interval,
`block_of` finds it, and throws for other indices. -/
theorem C34_block_of (r : Nat) (T : Block R) (bs : Blocks R) (h : T.Models r bs) (x : Nat) :
    (if x < bs.sizes.sum then ∃ b, T.blockOf x = .ok b ∧ InInterval bs.sizes b x
      else T.blockOf x = .error "Index out of range!") ∧
    ∀ b c, InInterval bs.sizes b x → InInterval bs.sizes c x → b = c :=
  ⟨blockOf_ok h x, fun _ _ h1 h2 => interval_unique h1 h2⟩

/-- **C34 (dense form).** Conversion to a dense tensor, with the blocks copied in any order. -/
theorem C34_dense [Zero R] (r : Nat) (hr : 0 < r) (T : Block R) (bs : Blocks R) (h : T.Models r bs) (sched : List Nat)
    (hp : sched.Perm (List.range bs.length)) :
    ∃ D, T.toDense sched = .ok D ∧ D.IsTensor ∧ D.dims = List.replicate r bs.sizes.sum ∧ D.Represents bs.elem :=
  blockDense_ok hr h hp

/-- **C34 (compound assignment).** `T OP= O` for block tensors with the same block sizes, in any order of the blocks. -/
theorem C34_compound (op : R → R → R) (r : Nat) (hr : 0 < r) (T O : Block R) (bs os : Blocks R) (h : T.Models r bs)
    (hO : O.Models r os) (hs : bs.sizes = os.sizes) (sched : List Nat) (hp : sched.Perm (List.range bs.length)) :
    ∃ T', T.compoundBlock op O sched = .ok T' ∧
      T'.Models r (List.zipWith (fun p q => (p.1, fun i => op (p.2 i) (q.2 i))) bs os) :=
  compoundBlock_ok op hr h hO hs hp

/-- **C34 (compound assignment refuses).** Different numbers of blocks. -/
theorem C34_compound_throws (op : R → R → R) (r : Nat) (T O : Block R) (bs os : Blocks R) (h : T.Models r bs)
    (hO : O.Models r os) (hs : bs.length ≠ os.length) (sched : List Nat) : (T.compoundBlock op O sched).isError = true := by
  unfold Block.compoundBlock
  rw [if_pos (by rw [h.length, hO.length]; exact hs)]; rfl

/-- **C34 (address of an element).** With indices in range, `data(...)` is the null pointer when the indices lie in
different blocks, and otherwise points at the element in the storage of its block. -/
theorem C34_data [Zero R] (r : Nat) (hr : 0 < r) (T : Block R) (bs : Blocks R) (h : T.Models r bs) (idx : List Int)
    (j : List Nat) (hi : pyIndices (List.replicate r bs.sizes.sum) idx = some j) :
    (∀ b, InBlock bs.sizes b j → ∃ (o : Nat) (t : Strided R), T.dataAt idx = .ok (some (b, (o : Int))) ∧
      T.blocks[b]? = some t ∧ t.data[o]? = some (bs.elem j)) ∧
    ((∀ b, ¬ InBlock bs.sizes b j) → T.dataAt idx = .ok none) := by
  have hj : j ≠ [] := by
    intro e
    have := pyIndices_len_ne hi
    rw [e] at this
    simp at this
    omega
  have k := dataAt_ok hr h hi
  refine ⟨fun b hb => ?_, fun hn => ?_⟩
  · rw [find_eq hj hb] at k
    exact k
  · cases e : bs.find j with
    | none => rw [e] at k; exact k
    | some b => exact absurd (find_some e).2 (hn b)

/-- **C34 (const reads, partial).** On a const tensor, with indices in range inside one block.  Missing: indices in
different blocks, for which the property wants zero. -/
theorem C34_const_read_partial [Zero R] (r : Nat) (hr : 0 < r) (T : Block R) (bs : Blocks R) (h : T.Models r bs)
    (idx : List Int) (j : List Nat) (hi : pyIndices (List.replicate r bs.sizes.sum) idx = some j) (b : Nat)
    (hb : InBlock bs.sizes b j) : T.getConst idx = .ok (bs.elem j) := by
  refine getConst_in hr h hi ?_
  have hj : j ≠ [] := by
    intro e
    have := pyIndices_len_ne hi
    rw [e] at this
    simp at this
    omega
  rw [find_eq hj hb]
  rfl

/-- **C34 (const reads, refuted).** Reading an off-block element of a const tensor returns a reference to a temporary
that no longer exists. -/
theorem C34_const_read_refuted [Zero R] (r : Nat) (hr : 0 < r) (T : Block R) (bs : Blocks R) (h : T.Models r bs)
    (idx : List Int) (j : List Nat) (hi : pyIndices (List.replicate r bs.sizes.sum) idx = some j)
    (hj : ∀ b, ¬ InBlock bs.sizes b j) : (T.getConst idx).isUb = true := by
  unfold Block.getConst
  rw [locate_ok hr h hi]
  cases e : bs.find j with
  | none => rfl
  | some b => exact absurd (find_some e).2 (hj b)

/-- A history: two blocks pushed, one inserted before them, a write inside a block, a write outside the blocks. -/
def blockHistory : List (BlockOp Int) :=
  [.push [2, 2] fun i => i.sum, .push [1, 1] fun _ => 7, .push [1, 2] fun _ => 8, .insert 0 [1, 1] fun _ => 9,
   .set [1, -2] 5, .set [0, 3] 6, .set [9, 0] 6, .setInBlock 2 [0, -1] 4, .scalar (· * ·) 2]

example : ∃ bs T, specBlock 2 blockHistory [] = some bs ∧ runBlock blockHistory (Block.empty 2) = .ok T ∧
    bs.sizes = [1, 2, 1] ∧ T.getMut [1, 2] = .ok (T, 10) ∧ bs.elem [1, 2] = 10 ∧ bs.elem [0, 3] = 0 ∧ bs.elem [3, 3] = 8 ∧
    T.blockOf 2 = .ok 1 ∧ T.toDense [2, 0, 1] =
      .ok ⟨[18, 0, 0, 0, 0, 0, 10, 0, 0, 2, 4, 0, 0, 0, 0, 8], 0, [4, 4], [4, 1]⟩ :=
  ⟨_, _, rfl, rfl, by decide, by decide, by decide, by decide, by decide, by decide, by decide⟩

/-- A source with more blocks than the destination, in another order of the loop. -/
example : ∃ T, (Block.mk' (fun _ _ => 0) 2 [3] : Block Int).assign (fun _ => 0) (Block.mk' (fun _ _ => 0) 2 [1, 2]) [1, 0] = .ok T ∧ T.dims = [1, 2] ∧ T.dim = 3 ∧
    T.blocks.length = 2 := ⟨_, rfl, by decide, by decide, by decide⟩

/-! ### C35: gemm -/

section
variable [CommSemiring R] [BEq R] [LawfulBEq R]

/-- **C35 (gemm).** For block matrices with the same block sizes (zero sizes allowed) and any order of the blocks, the
result has those block sizes and, on the dense form, is `beta*C + alpha*op(A)*op(B)`. -/
theorem C35_gemm (ta tb : Bool) (alpha beta : R) (A B C : Block R) (as bs cs : Blocks R) (hA : A.Models 2 as)
    (hB : B.Models 2 bs) (hC : C.Models 2 cs) (hs : as.sizes = cs.sizes) (hs' : bs.sizes = cs.sizes) (sched : List Nat)
    (hp : sched.Perm (List.range cs.length)) :
    ∃ C' cs', blockGemm ta tb alpha A B beta C sched = .ok C' ∧ C'.Models 2 cs' ∧ cs'.sizes = cs.sizes ∧
      ∀ i j, i < cs.sizes.sum → j < cs.sizes.sum → cs'.elem [i, j] = beta * cs.elem [i, j] +
        alpha * sumTo cs.sizes.sum fun k => opElem ta as.elem i k * opElem tb bs.elem k j := by
  obtain ⟨C', h1, h2⟩ := blockGemm_ok ta tb alpha beta hA hB hC hs hs' hp
  exact ⟨C', _, h1, h2, mapBlocks_sizes _ _, fun i j hi hj => elem_gemm ta tb alpha beta hs hs' hi hj⟩

omit [LawfulBEq R] in
/-- **C35 (gemm refuses).** Different numbers of blocks. -/
theorem C35_gemm_throws (ta tb : Bool) (alpha beta : R) (A B C : Block R) (as bs cs : Blocks R) (hA : A.Models 2 as)
    (hB : B.Models 2 bs) (hC : C.Models 2 cs) (hs : ¬ (as.length = cs.length ∧ bs.length = cs.length)) (sched : List Nat) :
    (blockGemm ta tb alpha A B beta C sched).isError = true := by
  unfold blockGemm
  rw [if_pos (by rw [hA.length, hB.length, hC.length]; omega)]
  rfl

end

/-- A block tensor with the given blocks. -/
def blockOf' (r : Nat) (bs : Blocks R) [Zero R] : Block R :=
  Block.updateDims { (Block.empty r : Block R) with blocks := bs.map fun p => tensorOf (List.replicate r p.1) p.2 }

theorem blockOf'_ok [Zero R] (r : Nat) (hr : 0 < r) (bs : Blocks R) : (blockOf' r bs).Models r bs := by
  refine updateDims_models hr rfl ?_
  simp only
  rw [List.forall₂_map_left_iff, List.forall₂_same]
  intro p _
  exact ⟨(tensorOf_ok _ _).1, rfl, (tensorOf_ok _ _).2.2⟩

def gemmBlocks : Blocks Int := [(2, fun i => 1 + i.getD 0 0 + 2 * i.getD 1 0), (0, fun _ => 0), (1, fun _ => 3)]

example : (blockOf' 2 gemmBlocks).Models 2 gemmBlocks ∧ gemmBlocks.sizes = [2, 0, 1] ∧
    ∃ C, blockGemm true false 2 (blockOf' 2 gemmBlocks) (blockOf' 2 gemmBlocks) 1 (blockOf' 2 gemmBlocks) [2, 0, 1] = .ok C ∧
      C.toDense [0, 1, 2] = .ok ⟨[11, 25, 0, 24, 54, 0, 0, 0, 21], 0, [3, 3], [3, 1]⟩ :=
  ⟨blockOf'_ok 2 (by decide) _, by decide, _, rfl, by decide⟩

/-! ### C56: scale, axpy, axpby -/

section
variable [CommSemiring R]

/-- **C56 (scale).** -/
theorem C56_scale (r : Nat) (hr : 0 < r) (alpha : R) (A : Block R) (as : Blocks R) (hA : A.Models r as) (sched : List Nat)
    (hp : sched.Perm (List.range as.length)) :
    ∃ A' as', blockScale alpha A sched = .ok A' ∧ A'.Models r as' ∧ as'.sizes = as.sizes ∧
      ∀ j, InBox j (List.replicate r as.sizes.sum) → as'.elem j = alpha * as.elem j := by
  obtain ⟨A', h1, h2⟩ := blockScale_ok alpha hr hA hp
  exact ⟨A', _, h1, h2, mapBlocks_sizes _ _, fun j hj =>
    elem_mapBlocks (bs := as) (as := as) rfl hr (fun x _ => alpha * x) (by simp) hj⟩

/-- **C56 (axpy).** Same block sizes. -/
theorem C56_axpy (r : Nat) (hr : 0 < r) (alpha : R) (X Y : Block R) (xs ys : Blocks R) (hX : X.Models r xs)
    (hY : Y.Models r ys) (hs : xs.sizes = ys.sizes) (sched : List Nat) (hp : sched.Perm (List.range ys.length)) :
    ∃ Y' ys', blockAxpy alpha X Y sched = .ok Y' ∧ Y'.Models r ys' ∧ ys'.sizes = ys.sizes ∧
      ∀ j, InBox j (List.replicate r ys.sizes.sum) → ys'.elem j = ys.elem j + alpha * xs.elem j := by
  obtain ⟨Y', h1, h2⟩ := blockAxpy_ok alpha hr hX hY hs hp
  exact ⟨Y', _, h1, h2, mapBlocks_sizes _ _, fun j hj => elem_mapBlocks hs hr (fun y x => y + alpha * x) (by simp) hj⟩

/-- **C56 (axpby).** Same block sizes. -/
theorem C56_axpby (r : Nat) (hr : 0 < r) (alpha beta : R) (X Y : Block R) (xs ys : Blocks R) (hX : X.Models r xs)
    (hY : Y.Models r ys) (hs : xs.sizes = ys.sizes) (sched : List Nat) (hp : sched.Perm (List.range ys.length)) :
    ∃ Y' ys', blockAxpby alpha X beta Y sched = .ok Y' ∧ Y'.Models r ys' ∧ ys'.sizes = ys.sizes ∧
      ∀ j, InBox j (List.replicate r ys.sizes.sum) → ys'.elem j = beta * ys.elem j + alpha * xs.elem j := by
  obtain ⟨Y', h1, h2⟩ := blockAxpby_ok alpha beta hr hX hY hs hp
  exact ⟨Y', _, h1, h2, mapBlocks_sizes _ _, fun j hj =>
    elem_mapBlocks hs hr (fun y x => beta * y + alpha * x) (by simp) hj⟩

/-- **C56 (axpy and axpby refuse).** Different block sizes. -/
theorem C56_throws (r : Nat) (alpha beta : R) (X Y : Block R) (xs ys : Blocks R) (hX : X.Models r xs)
    (hY : Y.Models r ys) (hs : xs.sizes ≠ ys.sizes) (sched : List Nat) :
    (blockAxpy alpha X Y sched).isError = true ∧ (blockAxpby alpha X beta Y sched).isError = true := by
  have key : xs.length ≠ ys.length ∨ X.ranges ≠ Y.ranges := by
    by_cases c : xs.length = ys.length
    · right
      rw [hX.ranges, hY.ranges]
      intro e
      apply hs
      exact ranges_inj c e
    · exact Or.inl c
  unfold blockAxpy blockAxpby
  rw [hX.length, hY.length]
  by_cases c : xs.length = ys.length
  · have := key.resolve_left (by simpa using c)
    simp [c, this, Outcome.isError]
  · simp [c, Outcome.isError]

/-- **C56 (scale_row).** Scaling a row scales exactly that row of the dense form; an index out of range throws. -/
theorem C56_scale_row (alpha : R) (A : Block R) (as : Blocks R) (hA : A.Models 2 as) (row : Nat) :
    if row < as.sizes.sum then
      ∃ A' as', blockScaleRow row alpha A = .ok A' ∧ A'.Models 2 as' ∧ as'.sizes = as.sizes ∧
        ∀ i j, i < as.sizes.sum → j < as.sizes.sum →
          as'.elem [i, j] = if i = row then alpha * as.elem [i, j] else as.elem [i, j]
    else (blockScaleRow row alpha A).isError = true := by
  split
  · exact blockScaleRow_ok alpha hA (by assumption)
  · rename_i h
    have := blockOf_ok hA row
    rw [if_neg h] at this
    unfold blockScaleRow
    rw [this]
    rfl

end

/-- **C56 (scale_column, refuted).** Scaling column 0 of a 2×2 block scales the whole block, and scaling column 1
writes past the end of the block. -/
theorem C56_scale_column_refuted :
    (blockScaleColumn 0 10 (blockOf' 2 [(2, fun i => 1 + i.getD 0 0)] : Block Int) =
      .ok (blockOf' 2 [(2, fun i => 10 * (1 + i.getD 0 0))])) ∧
    (blockScaleColumn 1 10 (blockOf' 2 [(2, fun i => 1 + i.getD 0 0)] : Block Int)).isUb = true := by decide

example : ∃ Y, blockAxpby 2 (blockOf' 2 gemmBlocks) 3 (blockOf' 2 gemmBlocks) [1, 2, 0] = .ok Y ∧
    Y.toDense [0, 1, 2] = .ok ⟨[5, 15, 0, 10, 20, 0, 0, 0, 15], 0, [3, 3], [3, 1]⟩ ∧
    ∃ Z, blockScaleRow 1 10 (blockOf' 2 gemmBlocks) = .ok Z ∧
    Z.toDense [0, 1, 2] = .ok ⟨[1, 3, 0, 20, 40, 0, 0, 0, 3], 0, [3, 3], [3, 1]⟩ :=
  ⟨_, rfl, by decide, _, rfl, by decide⟩

/-! ### C57: dot -/

section
variable [CommSemiring R] [BEq R]

omit [CommSemiring R] [BEq R] in
theorem tensorOperand_valid {t : Strided R} (h : t.IsTensor) : (tensorOperand t).Valid where
  wf := h.wf
  full := fun _ => ⟨h.strides, by simp only [tensorOperand]; rw [h.off, h.length]; omega⟩
  tensor := fun _ => ⟨rfl, h⟩

/-- **C57 (dot).** For block tensors of one dimension, with the same blocks or not: the sum over all elements of the
dense forms. -/
theorem C57_dot (r : Nat) (hr : 0 < r) (A B : Block R) (as bs : Blocks R) (hA : A.Models r as) (hB : B.Models r bs)
    (hd : as.sizes.sum = bs.sizes.sum) (sA sB sched : List Nat) (hsA : sA.Perm (List.range as.length))
    (hsB : sB.Perm (List.range bs.length)) (hs : sched.Perm (List.range as.length)) :
    blockDot A B sA sB sched = .ok ((box (List.replicate r as.sizes.sum)).map fun j => as.elem j * bs.elem j).sum :=
  blockDotWith_ok (m := fun x y => x * y) (by simp) (fun a b _ _ ha hb e h0 hf hg => by
    have va := tensorOperand_valid ha
    have vb := tensorOperand_valid hb
    exact dotOp_eq (A := tensorOperand a) (B := tensorOperand b) e h0 va.wf vb.wf va.full vb.full hf hg)
    hr hA hB hd hsA hsB hs

omit [BEq R] in
/-- **C57 (true_dot).** -/
theorem C57_true_dot (conj : R → R) (r : Nat) (hr : 0 < r) (A B : Block R) (as bs : Blocks R) (hA : A.Models r as)
    (hB : B.Models r bs) (hd : as.sizes.sum = bs.sizes.sum) (sA sB sched : List Nat) (hsA : sA.Perm (List.range as.length))
    (hsB : sB.Perm (List.range bs.length)) (hs : sched.Perm (List.range as.length)) :
    blockTrueDot conj A B sA sB sched =
      .ok ((box (List.replicate r as.sizes.sum)).map fun j => conj (as.elem j) * bs.elem j).sum :=
  blockDotWith_ok (m := fun x y => conj x * y) (by simp) (fun a b _ _ ha hb e h0 hf hg =>
    C55_true_dot conj (tensorOperand a) (tensorOperand b) _ _ e h0 (tensorOperand_valid ha) (tensorOperand_valid hb) hf hg)
    hr hA hB hd hsA hsB hs

end

/-- Same blocks, and different blocks of the same total dimension. -/
example : blockDot (blockOf' 2 gemmBlocks) (blockOf' 2 gemmBlocks) [0, 1, 2] [0, 1, 2] [2, 1, 0] = .ok 39 ∧
    blockDot (blockOf' 2 gemmBlocks) (blockOf' 2 [(1, fun _ => 1), (2, fun _ => 1)] : Block Int) [0, 1, 2] [1, 0] [2, 1, 0] = .ok 8 := by
  decide

/-! ### C58: direct product -/

/-- **C58.** For block tensors with the same block sizes: `C := beta*C + alpha*A∘B`, element by element. -/
theorem C58_direct [CommSemiring R] [BEq R] [LawfulBEq R] (r : Nat) (hr : 0 < r) (alpha beta : R) (A B C : Block R)
    (as bs cs : Blocks R) (hA : A.Models r as) (hB : B.Models r bs) (hC : C.Models r cs) (hs : as.sizes = cs.sizes)
    (hs' : bs.sizes = cs.sizes) (sched : List Nat) (hp : sched.Perm (List.range cs.length)) :
    ∃ C' cs', blockDirect alpha A B beta C sched = .ok C' ∧ C'.Models r cs' ∧ cs'.sizes = cs.sizes ∧
      ∀ j, InBox j (List.replicate r cs.sizes.sum) → cs'.elem j = beta * cs.elem j + alpha * (as.elem j * bs.elem j) := by
  obtain ⟨C', h1, h2⟩ := blockDirect_ok alpha beta hr hA hB hC hs hs' hp
  exact ⟨C', _, h1, h2, mapBlocks_sizes _ _, fun j hj =>
    elem_mapBlocks3 hs hs' hr (fun c a b => beta * c + alpha * (a * b)) (by simp) hj⟩

example : ∃ C, blockDirect 1 (blockOf' 2 gemmBlocks) (blockOf' 2 gemmBlocks) 0 (blockOf' 2 gemmBlocks) [2, 0, 1] = .ok C ∧
    C.toDense [0, 1, 2] = .ok ⟨[1, 9, 0, 4, 16, 0, 0, 0, 9], 0, [3, 3], [3, 1]⟩ := ⟨_, rfl, by decide⟩

end Einsums.Props
