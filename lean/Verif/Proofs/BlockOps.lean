import Verif.Proofs.Block
/-
Block tensors: calls, loops over the blocks, conversion to a dense tensor.
-/
namespace Einsums
open Spec Model

variable {R : Type}

/-! ### Tensors pushed into a block tensor -/

theorem tensorOf_ok (dims : List Nat) (g : List Nat → R) :
    (tensorOf dims g).IsTensor ∧ (tensorOf dims g).dims = dims ∧ (tensorOf dims g).Represents g := by
  have h : (tensorOf dims g).IsTensor := ⟨rfl, rfl, by simp [tensorOf, length_box]⟩
  exact ⟨h, rfl, h.represents_iff.2 rfl⟩

theorem isSquare_iff {t : Strided R} : isSquare t = true ↔ t.dims = List.replicate t.dims.length (t.dims.headD 0) := by
  unfold isSquare Strided.dim
  have : t.dims.getD 0 0 = t.dims.headD 0 := by cases t.dims <;> rfl
  rw [this, List.all_eq_true, List.eq_replicate_iff]
  simp

/-! ### Whole-tensor updates -/

theorem map_models {T : Block R} {r : Nat} {bs : Blocks R} (h : T.Models r bs) (g : Strided R → Strided R)
    (G : (List Nat → R) → List Nat → R)
    (hg : ∀ t p, HoldsBlock r t p → HoldsBlock r (g t) (p.1, G p.2)) :
    ({ T with blocks := T.blocks.map g } : Block R).Models r (bs.map fun p => (p.1, G p.2)) := by
  have hs : Blocks.sizes (bs.map fun p => (p.1, G p.2)) = bs.sizes := by simp [Blocks.sizes]
  refine ⟨h.rank, ?_, by rw [hs]; exact h.dims, by rw [hs]; exact h.dim, by rw [hs, List.length_map]; exact h.ranges⟩
  simp only
  rw [List.forall₂_map_left_iff, List.forall₂_map_right_iff]
  exact h.blocks.imp fun t p hp => hg t p hp

theorem setAll_models {T : Block R} {r : Nat} {bs : Blocks R} (h : T.Models r bs) (v : R) :
    (T.setAll v).Models r (bs.map fun p => (p.1, fun _ => v)) :=
  map_models h _ (fun _ _ => v) fun t _ hp => by
    obtain ⟨fr, hr⟩ := setAll_represents hp.1 v
    exact ⟨fr.isTensor hp.1, fr.dims.trans hp.2.1, hr⟩

theorem compoundScalar_range (op : R → R → R) (t : Strided R) (v : R) :
    t.compoundScalar op v (List.range t.data.length) = { t with data := t.data.map fun x => op x v } := by
  have := modifyAll_full (fun _ x => op x v) (List.range t.data.length) t.data (List.Perm.refl _)
  unfold Strided.compoundScalar
  rw [modifyAll] at this
  rw [this]
  congr 1
  apply List.ext_getElem?
  simp

theorem HoldsBlock.empty {r : Nat} (hr : 0 < r) {t : Strided R} {p : Nat × (List Nat → R)} (h : HoldsBlock r t p)
    (h0 : t.dim 0 = 0) (g : List Nat → R) : HoldsBlock r t (p.1, g) := by
  refine ⟨h.1, h.2.1, ?_⟩
  intro i hi
  rw [h.dim hr] at h0
  rw [h.2.1, h0] at hi
  cases r with
  | zero => omega
  | succ r => cases i with
    | nil => exact hi.elim
    | cons x i => exact absurd hi.1 (by omega)

theorem scalar_models {T : Block R} {r : Nat} (hr : 0 < r) {bs : Blocks R} (h : T.Models r bs) (op : R → R → R) (v : R) :
    (T.compoundScalar op v).Models r (bs.map fun p => (p.1, fun i => op (p.2 i) v)) :=
  map_models h _ (fun f i => op (f i) v) fun t p hp => by
    split
    · exact hp.empty hr (by assumption) _
    · rw [compoundScalar_range]
      obtain ⟨h1, h2⟩ := map_data_represents hp.1 hp.2.2 fun x => op x v
      exact ⟨h1, hp.2.1, h2⟩

theorem zeroVal_models {T : Block R} {r : Nat} {bs : Blocks R} (h : T.Models r bs) (v : R) :
    ({ T with zeroVal := v } : Block R).Models r bs := ⟨h.rank, h.blocks, h.dims, h.dim, h.ranges⟩

/-! ### Element access -/

theorem pyIndices_len_ne {d r : Nat} {idx : List Int} {j : List Nat} (h : pyIndices (List.replicate r d) idx = some j) :
    j.length = r := by
  have h1 := (pyIndices_inBox h).length
  simpa using h1

theorem getMut_in [Zero R] {T : Block R} {r : Nat} (hr : 0 < r) {bs : Blocks R} (h : T.Models r bs) {idx : List Int}
    {j : List Nat} (hi : pyIndices (List.replicate r bs.sizes.sum) idx = some j) :
    ∃ T', T.getMut idx = .ok (T', bs.elem j) ∧ T'.Models r bs := by
  unfold Block.getMut Blocks.elem
  rw [locate_ok hr h hi]
  cases e : bs.find j with
  | none => exact ⟨_, rfl, zeroVal_models h 0⟩
  | some b =>
    obtain ⟨h1, h2⟩ := find_some e
    obtain ⟨t, _, h4, h5⟩ := h.at (List.getElem?_eq_getElem h1)
    refine ⟨T, ?_, h⟩
    simp only [h4, Outcome.ok_bind]
    have hb := local_inBox (pyIndices_len_ne hi) h2
    rw [getD_sizes (List.getElem?_eq_getElem h1)] at hb
    rw [h5.2.2 _ (by rw [h5.2.1]; exact hb)]
    simp [List.getD_eq_getElem?_getD, List.getElem?_eq_getElem h1]

theorem getMut_out [Zero R] {T : Block R} {r : Nat} {bs : Blocks R} (h : T.Models r bs) {i : Int} {is : List Int}
    (hl : (i :: is).length = r) (hi : pyIndices (List.replicate r bs.sizes.sum) (i :: is) = none) :
    if pyIndex bs.sizes.sum i = none then T.getMut (i :: is) = .error "out_of_range"
    else ∃ T', T.getMut (i :: is) = .ok (T', 0) ∧ T'.Models r bs := by
  unfold Block.getMut
  rw [locate_out h hl hi]
  split
  · rfl
  · exact ⟨_, rfl, zeroVal_models h 0⟩

/-- Write an element of one block. -/
theorem write_block {T : Block R} {r : Nat} {bs : Blocks R} (h : T.Models r bs) {b : Nat} (hb : b < bs.length)
    {idx : List Int} {l : List Nat} (hl : pyIndices (List.replicate r (bs.sizes.getD b 0)) idx = some l) (v : R) :
    ∃ T', T.setInBlock b idx v = .ok T' ∧ T'.Models r (bs.update b l v) := by
  have e := List.getElem?_eq_getElem hb
  obtain ⟨t, _, h4, h5⟩ := h.at e
  rw [getD_sizes e] at hl
  rw [← h5.2.1] at hl
  obtain ⟨t', h6, fr, h7⟩ := write_represents h5.1.wf h5.2.2 (pyIndices_inBox hl) v
  unfold Block.setInBlock
  rw [h4, Outcome.ok_bind, write_normalise h5.1.wf v hl, h6]
  refine ⟨_, rfl, ?_⟩
  rw [update_eq (n := bs[b].1) (f := bs[b].2) e]
  exact h.setBlock (n := bs[b].1) (f := bs[b].2) e ⟨fr.isTensor h5.1, fr.dims.trans h5.2.1, h7⟩

theorem setInBlock_none {T : Block R} {r : Nat} {bs : Blocks R} (h : T.Models r bs) {b : Nat} (hb : ¬ b < bs.length)
    (idx : List Int) (v : R) : T.setInBlock b idx v = .error "out_of_range" := by
  unfold Block.setInBlock
  rw [h.at_none (by omega)]
  rfl

theorem set_models {T : Block R} {r : Nat} (hr : 0 < r) {bs : Blocks R} (h : T.Models r bs) {idx : List Int}
    (hl : idx.length = r) (v : R) :
    match pyIndices (List.replicate r bs.sizes.sum) idx with
    | some j => ∃ T', T.set idx v = .ok T' ∧ T'.Models r (match bs.find j with
        | none => bs
        | some b => bs.update b (j.map (· - tileStart bs.sizes b)) v)
    | none => (T.set idx v = .error "out_of_range") ∨ ∃ T', T.set idx v = .ok T' ∧ T'.Models r bs := by
  cases hi : pyIndices (List.replicate r bs.sizes.sum) idx with
  | some j =>
    simp only
    unfold Block.set
    rw [locate_ok hr h hi]
    cases e : bs.find j with
    | none => exact ⟨_, rfl, zeroVal_models h v⟩
    | some b =>
      obtain ⟨h1, h2⟩ := find_some e
      exact write_block h h1 (pyIndices_toIdx (local_inBox (pyIndices_len_ne hi) h2)) v
  | none =>
    simp only
    cases idx with
    | nil => simp at hl; omega
    | cons i is =>
      unfold Block.set
      rw [locate_out h hl hi]
      by_cases c : pyIndex bs.sizes.sum i = none
      · rw [if_pos c]; exact Or.inl rfl
      · rw [if_neg c]; exact Or.inr ⟨_, rfl, zeroVal_models h v⟩

/-! ### One call, and histories -/

theorem op_models [Zero R] {T : Block R} {r : Nat} (hr : 0 < r) {bs bs' : Blocks R} (h : T.Models r bs) (op : BlockOp R)
    (hs : op.spec r bs = some bs') :
    (∃ T', op.run T = .ok T' ∧ T'.Models r bs') ∨ ((op.run T).isError = true ∧ bs' = bs) := by
  cases op with
  | push dims g =>
    obtain ⟨t1, t2, t3⟩ := tensorOf_ok dims g
    simp only [BlockOp.spec, ne_eq, ite_not] at hs
    split at hs
    · rename_i hd
      split at hs
      · rename_i hq
        refine Or.inl ⟨_, by simp only [BlockOp.run, Block.push]; rw [if_pos]; rw [isSquare_iff, t2, hd]; exact hq, ?_⟩
        rw [← Option.some.inj hs]
        refine updateDims_models hr (by exact h.rank) ?_
        exact List.rel_append h.blocks (.cons ⟨t1, t2.trans hq, t3⟩ .nil)
      · rename_i hq
        refine Or.inr ⟨?_, (Option.some.inj hs).symm⟩
        simp only [BlockOp.run, Block.push]
        rw [if_neg]
        · rfl
        · rw [isSquare_iff, t2, hd]; exact hq
    · simp at hs
  | insert pos dims g =>
    obtain ⟨t1, t2, t3⟩ := tensorOf_ok dims g
    simp only [BlockOp.spec, ne_eq, ite_not] at hs
    split at hs
    · rename_i hd
      split at hs
      · rename_i hq
        split at hs
        · rename_i hp
          refine Or.inl ⟨_, by
            simp only [BlockOp.run, Block.insert]
            rw [if_pos (by rw [isSquare_iff, t2, hd]; exact hq), if_pos (by rw [h.length]; exact hp)], ?_⟩
          rw [← Option.some.inj hs]
          refine updateDims_models hr (by exact h.rank) ?_
          exact List.rel_append (List.forall₂_take _ h.blocks)
            (.cons ⟨t1, t2.trans hq, t3⟩ (List.forall₂_drop _ h.blocks))
        · simp at hs
      · rename_i hq
        refine Or.inr ⟨?_, (Option.some.inj hs).symm⟩
        simp only [BlockOp.run, Block.insert]
        rw [if_neg]
        · rfl
        · rw [isSquare_iff, t2, hd]; exact hq
    · simp at hs
  | set idx v =>
    simp only [BlockOp.spec, ne_eq, ite_not] at hs
    split at hs
    · rename_i hl
      have := set_models hr h hl v
      cases hi : pyIndices (List.replicate r bs.sizes.sum) idx with
      | none =>
        rw [hi] at hs this
        simp only at hs this
        rw [← Option.some.inj hs]
        rcases this with e | e
        · exact Or.inr ⟨by simp only [BlockOp.run, e]; rfl, rfl⟩
        · exact Or.inl e
      | some j =>
        rw [hi] at hs this
        simp only at hs this
        refine Or.inl ?_
        cases e : bs.find j with
        | none =>
          rw [e] at hs this
          rw [← Option.some.inj hs]
          exact this
        | some b =>
          rw [e] at hs this
          rw [← Option.some.inj hs]
          exact this
    · simp at hs
  | touch idx =>
    simp only [BlockOp.spec, ne_eq, ite_not] at hs
    split at hs
    · rename_i hl
      rw [← Option.some.inj hs]
      cases hi : pyIndices (List.replicate r bs.sizes.sum) idx with
      | some j =>
        obtain ⟨T', h1, h2⟩ := getMut_in hr h hi
        exact Or.inl ⟨T', by simp [BlockOp.run, h1], h2⟩
      | none =>
        cases idx with
        | nil => simp at hl; omega
        | cons i is =>
          have := getMut_out h hl hi
          split at this
          · exact Or.inr ⟨by simp [BlockOp.run, this, Outcome.isError], rfl⟩
          · obtain ⟨T', h1, h2⟩ := this
            exact Or.inl ⟨T', by simp [BlockOp.run, h1], h2⟩
    · simp at hs
  | setInBlock b idx v =>
    simp only [BlockOp.spec] at hs
    split at hs
    · rename_i hb
      cases hi : pyIndices (List.replicate r (bs.sizes.getD b 0)) idx with
      | none => rw [hi] at hs; simp at hs
      | some l =>
        rw [hi] at hs
        rw [← Option.some.inj hs]
        exact Or.inl (write_block h hb hi v)
    · rename_i hb
      refine Or.inr ⟨?_, (Option.some.inj hs).symm⟩
      simp only [BlockOp.run]
      rw [setInBlock_none h hb]
      rfl
  | setAll v =>
    rw [← Option.some.inj hs]
    exact Or.inl ⟨_, rfl, setAll_models h v⟩
  | scalar op v =>
    rw [← Option.some.inj hs]
    exact Or.inl ⟨_, rfl, scalar_models hr h op v⟩

theorem run_models [Zero R] {r : Nat} (hr : 0 < r) (ops : List (BlockOp R)) {T : Block R} {bs bs' : Blocks R}
    (h : T.Models r bs) (hs : specBlock r ops bs = some bs') : ∃ T', runBlock ops T = .ok T' ∧ T'.Models r bs' := by
  induction ops generalizing T bs with
  | nil => exact ⟨T, rfl, by rw [← Option.some.inj hs]; exact h⟩
  | cons op ops ih =>
    simp only [specBlock] at hs
    cases e : op.spec r bs with
    | none => rw [e] at hs; simp at hs
    | some b1 =>
      rw [e] at hs
      simp only at hs
      simp only [runBlock]
      rcases op_models hr h op e with ⟨T', h1, h2⟩ | ⟨h1, rfl⟩
      · rw [h1]; exact ih h2 hs
      · cases e2 : op.run T with
        | ok _ => rw [e2] at h1; cases h1
        | ub _ => rw [e2] at h1; cases h1
        | error _ => exact ih h hs

/-! ### Loops over the blocks -/

theorem blockLoop {T : Block R} {r : Nat} {bs bs' : Blocks R} (h : T.Models r bs) (hl : bs'.length = bs.length)
    {step : Block R → Nat → Outcome (Block R)}
    (hstep : ∀ (U : Block R) (cur : Blocks R) (i : Nat) (hi : i < bs.length), U.Models r cur → cur[i]? = some bs[i] →
      ∃ U', step U i = .ok U' ∧ U'.Models r (cur.set i bs'[i]))
    {sched : List Nat} (hp : sched.Perm (List.range bs.length)) :
    ∃ T', sched.foldlM step T = .ok T' ∧ T'.Models r bs' := by
  have key : ∀ (s done : List Nat) (U : Block R) (cur : Blocks R), U.Models r cur → (done ++ s).Nodup →
      (∀ i ∈ s, i < bs.length) → cur.length = bs.length →
      (∀ i < bs.length, cur[i]? = if i ∈ done then bs'[i]? else bs[i]?) →
      ∃ U' cur', s.foldlM step U = .ok U' ∧ U'.Models r cur' ∧ cur'.length = bs.length ∧
        ∀ i < bs.length, cur'[i]? = if i ∈ done ++ s then bs'[i]? else bs[i]? := by
    intro s
    induction s with
    | nil => intro done U cur hU _ _ hlen hc; exact ⟨U, cur, rfl, hU, hlen, by simpa using hc⟩
    | cons a s ih =>
      intro done U cur hU hnd hs hlen hc
      have ha := hs a (by simp)
      have hna : a ∉ done := by
        rw [List.nodup_append] at hnd
        intro hx
        exact hnd.2.2 a hx a (by simp) rfl
      have e := hc a ha
      rw [if_neg hna, List.getElem?_eq_getElem ha] at e
      obtain ⟨U1, h1, h2⟩ := hstep U cur a ha hU e
      obtain ⟨U', cur', h3, h4, h5, h6⟩ := ih (done ++ [a]) U1 _ h2 (by simpa using hnd)
        (fun i hi => hs i (by simp [hi])) (by simpa using hlen) (by
          intro i hi
          rw [List.getElem?_set]
          by_cases c : a = i
          · subst c
            rw [if_pos rfl, if_pos (by omega), if_pos (by simp), List.getElem?_eq_getElem (by omega)]
          · rw [if_neg c, hc i hi]
            have : i ∈ done ++ [a] ↔ i ∈ done := by simp [Ne.symm c]
            simp only [this])
      refine ⟨U', cur', ?_, h4, h5, ?_⟩
      · rw [List.foldlM_cons, h1, Outcome.ok_bind]; exact h3
      · intro i hi
        rw [h6 i hi]
        simp
  obtain ⟨U', cur', h1, h2, h3, h4⟩ := key sched [] T bs h (by simpa using hp.nodup_iff.2 List.nodup_range)
    (fun i hi => by simpa using hp.mem_iff.1 hi) rfl (by simp)
  have : cur' = bs' := by
    apply List.ext_getElem?
    intro i
    by_cases c : i < bs.length
    · rw [h4 i c, if_pos]
      simpa using hp.mem_iff.2 (by simpa using c)
    · rw [List.getElem?_eq_none (by omega), List.getElem?_eq_none (by omega)]
  exact ⟨U', h1, this ▸ h2⟩

/-- `T OP= O`, block by block. -/
theorem compoundBlock_ok (op : R → R → R) {T O : Block R} {r : Nat} (hr : 0 < r) {bs os : Blocks R} (h : T.Models r bs)
    (hO : O.Models r os) (hs : bs.sizes = os.sizes) {sched : List Nat} (hp : sched.Perm (List.range bs.length)) :
    ∃ T', T.compoundBlock op O sched = .ok T' ∧
      T'.Models r (List.zipWith (fun p q => (p.1, fun i => op (p.2 i) (q.2 i))) bs os) := by
  have hlen : bs.length = os.length := by
    have := congrArg List.length hs
    simpa [Blocks.sizes] using this
  unfold Block.compoundBlock
  rw [if_neg (by rw [h.length, hO.length]; simpa using hlen), if_neg]
  · apply blockLoop h (by simp [hlen]) _ hp
    intro U cur i hi hU hc
    obtain ⟨t, _, h2, h3⟩ := hU.at hc
    have hi' : i < os.length := by omega
    obtain ⟨u, _, h5, h6⟩ := hO.at (List.getElem?_eq_getElem hi')
    have hsz : bs[i].1 = os[i].1 := by
      have := congrArg (fun l => l[i]?) hs
      simpa [Blocks.sizes, List.getElem?_eq_getElem hi, List.getElem?_eq_getElem hi'] using this
    unfold Block.compoundStep
    rw [h2, Outcome.ok_bind]
    simp only [List.getElem_zipWith]
    split
    · rename_i h0
      refine ⟨U, rfl, ?_⟩
      have := hU.setBlock (n := bs[i].1) (f := bs[i].2) hc (h3.empty hr h0 fun k => op (bs[i].2 k) (os[i].2 k))
      rw [show U.blocks.set i t = U.blocks from by
        apply List.ext_getElem?
        intro k
        rw [List.getElem?_set]
        split
        · rename_i e
          subst e
          split
          · symm; assumption
          · simp_all
        · rfl] at this
      exact this
    · rw [h5, Outcome.ok_bind]
      obtain ⟨t', h7, h8, h9, h10⟩ := compoundTensor_range op h3.1 h6.1 (by rw [h3.2.1, h6.2.1, hsz]) h3.2.2 h6.2.2
      rw [h7, Outcome.ok_bind]
      exact ⟨_, rfl, hU.setBlock (n := bs[i].1) (f := bs[i].2) hc ⟨h9, h8.trans h3.2.1, h10⟩⟩
  · simp only [List.any_eq_true, decide_eq_true_eq, not_exists, not_and, Prod.forall]
    intro t u hmem
    obtain ⟨i, hi⟩ := List.mem_iff_getElem?.1 hmem
    rw [List.getElem?_zip_eq_some] at hi
    have hib : i < bs.length := by
      by_contra c
      have := hi.1
      rw [List.getElem?_eq_none (by rw [h.length]; omega)] at this
      simp at this
    obtain ⟨t', a1, _, a3⟩ := h.at (List.getElem?_eq_getElem hib)
    obtain ⟨u', b1, _, b3⟩ := hO.at (List.getElem?_eq_getElem (hlen ▸ hib))
    rw [hi.1] at a1
    rw [hi.2] at b1
    simp only [Option.some.injEq] at a1 b1
    rw [a1, b1, a3.2.1, b3.2.1]
    have := congrArg (fun l => l[i]?) hs
    simp [Blocks.sizes, List.getElem?_eq_getElem hib, List.getElem?_eq_getElem (hlen ▸ hib)] at this
    simp [this]

/-! ### Copy assignment -/

theorem zip_any_ne {as bs : List Nat} (hl : as.length = bs.length)
    (h : ((as.zip bs).any fun p => p.1 == 0 || p.1 != p.2) = false) : as = bs := by
  apply List.ext_getElem hl
  intro i h1 h2
  rw [List.any_eq_false] at h
  have := h (as[i], bs[i]) (List.mem_iff_getElem.2 ⟨i, by simp; omega, by simp⟩)
  simp at this
  exact this.2

/-- A tensor, or a value-initialised one. -/
def Assignable (r : Nat) (t : Strided R) : Prop := t = defaultTensor r ∨ (t.IsTensor ∧ t.dims.length = r)

theorem assign_block (z : Nat → R) {r : Nat} (hr : 0 < r) {t u : Strided R} (ht : Assignable r t) (hu : u.IsTensor)
    (hl : u.dims.length = r) : t.assign z u = .ok u := by
  have h0 : u.dims ≠ [] := by intro e; rw [e] at hl; simp at hl; omega
  have fin : ∀ d : Strided R, d.IsTensor → d.dims = u.dims →
      (if u.data.length ≤ d.data.length then
        (Outcome.ok { d with data := u.data ++ d.data.drop u.data.length } : Outcome (Strided R))
        else .ub "std::copy past the end") = .ok u := by
    intro d hd e
    have hl : d.data.length = u.data.length := by rw [hd.length, hu.length, e]
    rw [if_pos (by omega), List.drop_eq_nil_of_le (by omega)]
    have h1 := hd.off
    have h2 := hd.strides
    have h3 := hu.off
    have h4 := hu.strides
    cases d; cases u
    simp_all
  unfold Strided.assign
  simp only
  cases hre : ((t.dims.zip u.dims).any fun p => p.1 == 0 || p.1 != p.2)
  · rcases ht with ht | ht
    · exfalso
      rw [ht, List.any_eq_false] at hre
      have := hre (0, u.dims[0]'(by omega)) (List.mem_iff_getElem.2 ⟨0, by simp [defaultTensor]; omega, by simp [defaultTensor]⟩)
      simp at this
    · exact fin t ht.1 (zip_any_ne (by rw [ht.2, hl]) hre)
  · refine fin _ ⟨rfl, transformStrides_eq _, ?_⟩ rfl
    simp [vecResize_length, linearSize_eq h0]

theorem assignLoop (z : Nat → R) {O : Block R} {r : Nat} (hr : 0 < r)
    (hO : ∀ u ∈ O.blocks, u.IsTensor ∧ u.dims.length = r) :
    ∀ (sched : List Nat) (T : Block R), T.rank = r → T.blocks.length = O.blocks.length →
      (∀ t ∈ T.blocks, Assignable r t) → (∀ i ∈ sched, i < O.blocks.length) →
      ∃ T', sched.foldlM (Block.assignStep z O) T = .ok T' ∧ T'.rank = r ∧ T'.blocks.length = O.blocks.length ∧
        ∀ i, i ∈ sched ∨ T.blocks[i]? = O.blocks[i]? → T'.blocks[i]? = O.blocks[i]?
  | [], T, hT, hl, _, _ => ⟨T, rfl, hT, hl, fun i hi => by simpa using hi⟩
  | i :: sched, T, hT, hl, ha, hs => by
    have hi := hs i (by simp)
    have hu : O.blocks[i]? = some O.blocks[i] := List.getElem?_eq_getElem hi
    have ht : T.blocks[i]? = some (T.blocks[i]'(by omega)) := List.getElem?_eq_getElem _
    obtain ⟨u1, u2⟩ := hO _ (List.getElem_mem hi)
    obtain ⟨T', h1, h2, h3, h4⟩ := assignLoop z hr hO sched { T with blocks := T.blocks.set i O.blocks[i] } hT
      (by simpa using hl) (by
        intro t hm
        rcases List.mem_or_eq_of_mem_set hm with h | h
        · exact ha t h
        · rw [h]; exact Or.inr ⟨u1, u2⟩) (fun j hj => hs j (by simp [hj]))
    refine ⟨T', ?_, h2, h3, ?_⟩
    · rw [List.foldlM_cons]
      have : Block.assignStep z O T i = .ok { T with blocks := T.blocks.set i O.blocks[i] } := by
        unfold Block.assignStep
        rw [hu, ht]
        simp only
        rw [assign_block z hr (ha _ (List.getElem_mem _)) u1 u2]
        rfl
      rw [this, Outcome.ok_bind]
      exact h1
    · intro j hj
      apply h4
      by_cases c : j = i
      · subst c
        right
        simp only
        rw [List.getElem?_set_self (by omega), hu]
      · rcases hj with hj | hj
        · left
          simpa [c] using hj
        · right
          simp only
          rw [List.getElem?_set_ne (Ne.symm c), hj]

/-- Copy assignment makes the destination hold the blocks of the source. -/
theorem blockAssign_ok (z : Nat → R) {T O : Block R} {r : Nat} (hr : 0 < r) {ts os : Blocks R} (h : T.Models r ts)
    (hO : O.Models r os) {sched : List Nat} (hp : sched.Perm (List.range os.length)) :
    ∃ T', T.assign z O sched = .ok T' ∧ T'.Models r os := by
  have hmem : ∀ {U : Block R} {us : Blocks R}, U.Models r us → ∀ u ∈ U.blocks, u.IsTensor ∧ u.dims.length = r := by
    intro U us hU u hu
    obtain ⟨i, hi, e⟩ := List.mem_iff_getElem.1 hu
    have hi' : i < us.length := by rw [← hU.length]; exact hi
    obtain ⟨t', a1, _, a3⟩ := hU.at (List.getElem?_eq_getElem hi')
    rw [List.getElem?_eq_getElem hi, e] at a1
    simp only [Option.some.injEq] at a1
    rw [a1]
    exact ⟨a3.1, by rw [a3.2.1]; simp⟩
  have hlen : (if T.blocks.length ≠ O.blocks.length then
      vecResize (fun _ => defaultTensor T.rank) O.blocks.length T.blocks else T.blocks).length = O.blocks.length := by
    split
    · exact vecResize_length _ _ _
    · omega
  obtain ⟨T', h1, h2, h3, h4⟩ := assignLoop z hr (hmem hO) sched
    { T with
      blocks := if T.blocks.length ≠ O.blocks.length then
        vecResize (fun _ => defaultTensor T.rank) O.blocks.length T.blocks else T.blocks
      dims := O.dims, dim := O.dim, ranges := O.ranges } h.rank hlen (by
        intro t ht
        simp only at ht
        split at ht
        · rw [vecResize, List.mem_append] at ht
          rcases ht with ht | ht
          · exact Or.inr (hmem h t (List.mem_of_mem_take ht))
          · obtain ⟨_, _, e⟩ := List.mem_map.1 ht
            exact Or.inl (by rw [← e, h.rank])
        · exact Or.inr (hmem h t ht)) (fun i hi => by rw [hO.length]; simpa using hp.mem_iff.1 hi)
  have e : T'.blocks = O.blocks := by
    apply List.ext_getElem?
    intro i
    by_cases c : i < os.length
    · exact h4 i (Or.inl (hp.mem_iff.2 (by simpa using c)))
    · rw [List.getElem?_eq_none (by rw [h3, hO.length]; omega), List.getElem?_eq_none (by rw [hO.length]; omega)]
  refine ⟨T'.updateDims, ?_, updateDims_models hr h2 (e ▸ hO.blocks)⟩
  unfold Block.assign
  simp only
  rw [h1]
  rfl

end Einsums
