import Verif.Spec.DeviceRef
import Verif.Proofs.BlockOps
import Verif.Proofs.ElementOps
import Verif.Proofs.SubView
/-
C162: element references of device tensors.
-/
namespace Einsums.Props
open Spec Model

theorem ordinal_eq {t : DevTensor} (hs : t.strides = (dimsToStrides t.dims).2) {idx : List Int} {j : List Nat}
    (hn : numel t.dims < 2 ^ 64) (hi : pyIndices t.dims idx = some j) : t.ordinal idx = rowMajor j t.dims := by
  have hb := pyIndices_inBox hi
  unfold DevTensor.ordinal
  rw [innerProduct_norm hi, hs, dot_strides_eq hb.length]
  have := rowMajor_lt hb
  have e : (((rowMajor j t.dims : Nat) : Int) % 2 ^ 64) = ((rowMajor j t.dims : Nat) : Int) :=
    Int.emod_eq_of_lt (by omega) (by omega)
  rw [e]; simp

theorem ref_eq {t : DevTensor} (hm : t.mode ≠ .unknown) (hs : t.strides = (dimsToStrides t.dims).2) {idx : List Int}
    {j : List Nat} (hn : numel t.dims < 2 ^ 31) (hi : pyIndices t.dims idx = some j) :
    t.ref idx = .ok ⟨some (t.buf, rowMajor j t.dims), decide (t.mode ≠ .devOnly)⟩ := by
  have ho := ordinal_eq hs (by omega) hi
  have hl := rowMajor_lt (pyIndices_inBox hi)
  unfold DevTensor.ref
  rw [if_neg (by have := pyIndices_length hi; omega), ho, sizeMethod_small hn, if_neg (by omega)]
  cases h : t.mode <;> simp_all

section
variable {R : Type}

theorem load_eq {M : DevMem R} {Ts : List DevTensor} {f : Nat → List Nat → R} (h : DevHolds M Ts f) {k : Nat}
    {t : DevTensor} (hk : Ts[k]? = some t) {j : List Nat} (hj : InBox j t.dims) :
    M.load (decide (t.mode ≠ .devOnly)) t.buf (rowMajor j t.dims) = .ok (f k j) := by
  obtain ⟨_, _, data, hd, _, hv⟩ := h.values k t hk
  unfold DevMem.load
  simp only [hd, if_true]
  rw [hv j hj]

theorem store_eq {M : DevMem R} {Ts : List DevTensor} {f : Nat → List Nat → R} (h : DevHolds M Ts f) {k : Nat}
    {t : DevTensor} (hk : Ts[k]? = some t) {j : List Nat} (hj : InBox j t.dims) (v : R) :
    ∃ M', M.store (decide (t.mode ≠ .devOnly)) t.buf (rowMajor j t.dims) v = .ok M' ∧ DevHolds M' Ts (setAt f (k, j) v) ∧
      M'.length = M.length ∧ ∀ b, b ≠ t.buf → M'[b]? = M[b]? := by
  obtain ⟨_, _, data, hd, hl, hv⟩ := h.values k t hk
  have hlt := rowMajor_lt hj
  have hb : t.buf < M.length := (List.getElem?_eq_some_iff.1 hd).1
  unfold DevMem.store
  simp only [hd, if_true, hl, hlt]
  refine ⟨_, rfl, ⟨?_, h.apart⟩, by simp, fun b hb => by rw [List.getElem?_set_ne (Ne.symm hb)]⟩
  intro l u hu
  obtain ⟨g1, g2, data', hd', hl', hv'⟩ := h.values l u hu
  refine ⟨g1, g2, ?_⟩
  by_cases e : t.buf = u.buf
  · have hkl := h.apart k l t u hk hu e
    subst hkl
    have htu : t = u := by rw [hk] at hu; exact Option.some.inj hu
    subst htu
    rw [hd] at hd'
    refine ⟨data.set (rowMajor j t.dims) v, by simp [hb], by simpa using hl, ?_⟩
    intro i hi
    by_cases c : i = j
    · subst c; simp [setAt, hl, hlt]
    · have : rowMajor j t.dims ≠ rowMajor i t.dims := fun e => c (rowMajor_inj hi hj e.symm)
      rw [List.getElem?_set_ne this, hv i hi]; simp [setAt, c]
  · refine ⟨data', by rw [List.getElem?_set_ne e, hd'], hl', ?_⟩
    intro i hi
    rw [hv' i hi]
    have : l ≠ k := by
      rintro rfl; rw [hk] at hu; cases hu; exact e rfl
    simp [setAt, this]

variable [Zero R] [Add R] [Sub R] [Mul R] [Div R]

omit [Zero R] in
theorem refOp_device (hc : ∀ a b : R, a + b = b + a) (op : RefOp) (a v : R) : op.device a v = op.meaning a v := by
  cases op <;> simp [RefOp.device, RefOp.meaning, hc]

omit [Zero R] in
theorem refOp_host (op : RefOp) (a v : R) : op.host a v = op.meaning a v := by cases op <;> rfl

omit [Zero R] [Add R] [Sub R] [Mul R] [Div R] in
theorem placeOf_some {Ts : List DevTensor} {k : Nat} {idx : List Int} {p : Nat × List Nat}
    (h : placeOf Ts k idx = some p) : ∃ t, Ts[k]? = some t ∧ pyIndices t.dims idx = some p.2 ∧ p.1 = k := by
  unfold placeOf at h
  cases e : Ts[k]? with
  | none => rw [e] at h; simp at h
  | some t =>
    rw [e] at h
    simp only [Option.map_eq_some_iff] at h
    obtain ⟨j, hj, rfl⟩ := h
    exact ⟨t, rfl, hj, rfl⟩

/-- One statement. -/
theorem refStmt_run (hc : ∀ a b : R, a + b = b + a) {Ts : List DevTensor} (hn : ∀ t ∈ Ts, numel t.dims < 2 ^ 31)
    {M : DevMem R} {f f' : Nat → List Nat → R} (h : DevHolds M Ts f) (s : RefStmt R) (hs : s.spec Ts f = some f') :
    ∃ M', s.run Ts M = .ok M' ∧ DevHolds M' Ts f' ∧ M'.length = M.length ∧
      ∀ b, (∀ t ∈ Ts, t.buf ≠ b) → M'[b]? = M[b]? := by
  have key : ∀ {k : Nat} {idx : List Int} {p : Nat × List Nat}, placeOf Ts k idx = some p → ∃ r : HDRef,
      refOf Ts k idx = .ok r ∧ r.ptr ≠ none ∧ r.get M = .ok (f p.1 p.2) ∧
      (∀ v, ∃ M', r.put M v = .ok M' ∧ DevHolds M' Ts (setAt f p v) ∧ M'.length = M.length ∧
        ∀ b, (∀ t ∈ Ts, t.buf ≠ b) → M'[b]? = M[b]?) ∧
      ∀ (l : Nat) (jdx : List Int) (q : Nat × List Nat) (r' : HDRef), placeOf Ts l jdx = some q →
        refOf Ts l jdx = .ok r' → r.ptr = r'.ptr → p = q := by
    intro k idx p hp
    obtain ⟨t, ht, hi, hk⟩ := placeOf_some hp
    obtain ⟨k', j⟩ := p
    simp only at hk hi
    subst hk
    obtain ⟨hm, hst, -⟩ := h.values k' t ht
    have hj := pyIndices_inBox hi
    have hr := ref_eq hm hst (hn t (List.mem_of_getElem? ht)) hi
    refine ⟨⟨some (t.buf, rowMajor j t.dims), decide (t.mode ≠ .devOnly)⟩, by unfold refOf; simp only [ht]; exact hr,
      by simp, load_eq h ht hj, ?_, ?_⟩
    · intro v
      obtain ⟨M', h1, h2, h3, h4⟩ := store_eq h ht hj v
      exact ⟨M', h1, h2, h3, fun b hb => h4 b (Ne.symm (hb t (List.mem_of_getElem? ht)))⟩
    · intro l jdx q r' hq hr' e
      obtain ⟨u, hu, hi', hl⟩ := placeOf_some hq
      obtain ⟨l', i⟩ := q
      simp only at hl hi'
      subst hl
      obtain ⟨hm', hst', -⟩ := h.values l' u hu
      have := ref_eq hm' hst' (hn u (List.mem_of_getElem? hu)) hi'
      unfold refOf at hr'
      simp only [hu] at hr'
      rw [this] at hr'
      cases hr'
      simp only [Option.some.injEq, Prod.mk.injEq] at e
      have hkl := h.apart _ _ t u ht hu e.1
      subst hkl
      rw [ht] at hu
      cases hu
      rw [rowMajor_inj hj (pyIndices_inBox hi') e.2]
  cases s with
  | set k idx v =>
    simp only [RefStmt.spec, Option.map_eq_some_iff] at hs
    obtain ⟨p, hp, rfl⟩ := hs
    obtain ⟨r, h1, h2, h3, h4, h5⟩ := key hp
    obtain ⟨M', g⟩ := h4 v
    exact ⟨M', by simp only [RefStmt.run, h1, Outcome.ok_bind, HDRef.assign, g.1], g.2⟩
  | compound k idx op v =>
    simp only [RefStmt.spec, Option.map_eq_some_iff] at hs
    obtain ⟨p, hp, rfl⟩ := hs
    obtain ⟨r, h1, h2, h3, h4, h5⟩ := key hp
    obtain ⟨M', g⟩ := h4 (op.meaning (f p.1 p.2) v)
    refine ⟨M', ?_, g.2⟩
    simp only [RefStmt.run, h1, Outcome.ok_bind, HDRef.compound, h2, if_false, h3, refOp_host,
      refOp_device hc, g.1, ite_self]
  | setRef k idx l jdx =>
    simp only [RefStmt.spec, Option.bind_eq_some_iff, Option.map_eq_some_iff] at hs
    obtain ⟨p, hp, q, hq, rfl⟩ := hs
    obtain ⟨r, h1, h2, h3, h4, h5⟩ := key hp
    obtain ⟨s, s1, s2, s3, s4, s5⟩ := key hq
    obtain ⟨M', g⟩ := h4 (f q.1 q.2)
    simp only [RefStmt.run, h1, s1, Outcome.ok_bind, HDRef.assignRef, s3]
    by_cases c1 : r.onHost
    · exact ⟨M', by rw [if_pos c1, g.1], g.2⟩
    by_cases c2 : s.onHost
    · exact ⟨M', by rw [if_neg c1, if_pos c2, g.1], g.2⟩
    by_cases c3 : r.ptr = s.ptr
    · refine ⟨M, by rw [if_neg c1, if_neg c2, if_neg (by simpa using c3)], ?_, rfl, fun _ _ => rfl⟩
      have := h5 l jdx q s hq s1 c3
      subst this
      have e : setAt f p (f p.1 p.2) = f := by
        funext a b; unfold setAt; split
        · rename_i e; subst e; rfl
        · rfl
      rw [e]; exact h
    · exact ⟨M', by rw [if_neg c1, if_neg c2, if_pos c3, g.1], g.2⟩
  | compoundRef k idx op l jdx =>
    simp only [RefStmt.spec, Option.bind_eq_some_iff, Option.map_eq_some_iff] at hs
    obtain ⟨p, hp, q, hq, rfl⟩ := hs
    obtain ⟨r, h1, h2, h3, h4, h5⟩ := key hp
    obtain ⟨s, s1, s2, s3, s4, s5⟩ := key hq
    obtain ⟨M', g⟩ := h4 (op.meaning (f p.1 p.2) (f q.1 q.2))
    refine ⟨M', ?_, g.2⟩
    simp only [RefStmt.run, h1, s1, Outcome.ok_bind, HDRef.compoundRef, h3, s3, refOp_host,
      refOp_device hc, g.1, ite_self]

/-- C162 (partial: tensors of fewer than 2³¹ elements, indices in range).  A program of element assignments and compound
assignments, from values and from elements of the same or other tensors, on device tensors in any mixture of modes acts
like the program on arrays of values: no exception, no undefined behaviour, and no other allocation changes. -/
theorem C162_history_partial (hc : ∀ a b : R, a + b = b + a) {Ts : List DevTensor}
    (hn : ∀ t ∈ Ts, numel t.dims < 2 ^ 31) (p : List (RefStmt R)) {M : DevMem R} {f f' : Nat → List Nat → R}
    (h : DevHolds M Ts f) (hs : specRefs Ts p f = some f') :
    ∃ M', runRefs Ts p M = .ok M' ∧ DevHolds M' Ts f' ∧ M'.length = M.length ∧
      ∀ b, (∀ t ∈ Ts, t.buf ≠ b) → M'[b]? = M[b]? := by
  induction p generalizing M f with
  | nil => simp only [specRefs, Option.some.injEq] at hs; subst hs; exact ⟨M, rfl, h, rfl, fun _ _ => rfl⟩
  | cons s p ih =>
    simp only [specRefs, Option.bind_eq_some_iff] at hs
    obtain ⟨g, hg, hs⟩ := hs
    obtain ⟨M1, h1, h2, h3, h4⟩ := refStmt_run hc hn h s hg
    obtain ⟨M2, g1, g2, g3, g4⟩ := ih h2 hs
    exact ⟨M2, by simp [runRefs, h1, g1], g2, by omega, fun b hb => by rw [g4 b hb, h4 b hb]⟩

omit [Add R] [Sub R] [Mul R] [Div R] in
/-- C162 (partial: fewer than 2³¹ elements).  Reading an element gives its value, both through the reference of a
non-const tensor and from a const tensor, in every mode. -/
theorem C162_read_partial {Ts : List DevTensor} {M : DevMem R} {f : Nat → List Nat → R} (h : DevHolds M Ts f) {k : Nat}
    {t : DevTensor} (hk : Ts[k]? = some t) (hn : numel t.dims < 2 ^ 31) {idx : List Int} {j : List Nat}
    (hi : pyIndices t.dims idx = some j) :
    (t.ref idx >>= fun r => r.get M) = .ok (f k j) ∧ t.value M idx = .ok (f k j) := by
  obtain ⟨hm, hst, -⟩ := h.values k t hk
  have hl := load_eq h hk (pyIndices_inBox hi)
  refine ⟨by rw [ref_eq hm hst hn hi]; exact hl, ?_⟩
  unfold DevTensor.value
  have hlen : ¬ t.dims.length < idx.length := by have := pyIndices_length hi; omega
  rw [ordinal_eq hst (by omega) hi]
  simp only [if_neg hlen]
  cases e : t.mode <;> simp_all

omit [Zero R] [Add R] [Sub R] [Mul R] [Div R] in
/-- C162.  Constructing one more tensor (of at least one dimension) in any mode gives it an allocation of its own, with
arbitrary values, and leaves the others alone; an unknown mode throws. -/
theorem C162_create (z : Nat → R) {Ts : List DevTensor} {M : DevMem R} {f : Nat → List Nat → R} (h : DevHolds M Ts f)
    (mode : DevMode) {dims : List Nat} (hd : dims ≠ []) :
    (mode = .unknown → (DevTensor.create z M mode dims).isError) ∧
    (mode ≠ .unknown → ∃ M' t, DevTensor.create z M mode dims = .ok (M', t) ∧ t.dims = dims ∧ t.mode = mode ∧
      DevHolds M' (Ts ++ [t]) fun k i => if k = Ts.length then z (rowMajor i dims) else f k i) := by
  refine ⟨by rintro rfl; rfl, fun hm => ?_⟩
  have e : DevTensor.create z M mode dims = .ok (M ++ [⟨decide (mode ≠ .devOnly), (List.range (numel dims)).map z⟩],
      ⟨M.length, mode, dims, transformStrides dims⟩) := by
    cases mode <;> simp_all [DevTensor.create, linearSize_eq hd]
  refine ⟨_, _, e, rfl, rfl, ?_, ?_⟩
  · intro k t hk
    by_cases c : k < Ts.length
    · rw [List.getElem?_append_left c] at hk
      obtain ⟨h1, h2, data, h3, h4, h5⟩ := h.values k t hk
      refine ⟨h1, h2, data, by rw [List.getElem?_append_left (List.getElem?_eq_some_iff.1 h3).1, h3], h4, ?_⟩
      intro i hi
      rw [if_neg (by omega)]; exact h5 i hi
    · have hk' : k = Ts.length := by
        have := (List.getElem?_eq_some_iff.1 hk).1; simp at this; omega
      subst hk'
      simp only [List.getElem?_concat_length, Option.some.injEq] at hk
      subst hk
      refine ⟨hm, transformStrides_eq _, (List.range (numel dims)).map z, by simp, by simp, ?_⟩
      intro i hi
      simp [rowMajor_lt hi]
  · have old : ∀ (k : Nat) (t : DevTensor), Ts[k]? = some t → t.buf < M.length := fun k t hk => by
      obtain ⟨_, _, data, h3, _⟩ := h.values k t hk
      exact (List.getElem?_eq_some_iff.1 h3).1
    have cases' : ∀ (k : Nat) (t : DevTensor), (Ts ++ [(⟨M.length, mode, dims, transformStrides dims⟩ : DevTensor)])[k]? = some t →
        (k < Ts.length ∧ Ts[k]? = some t) ∨ (k = Ts.length ∧ t.buf = M.length) := by
      intro k t hk
      by_cases c : k < Ts.length
      · rw [List.getElem?_append_left c] at hk; exact Or.inl ⟨c, hk⟩
      · have hk' : k = Ts.length := by
          have := (List.getElem?_eq_some_iff.1 hk).1; simp at this; omega
        subst hk'
        simp only [List.getElem?_concat_length, Option.some.injEq] at hk
        exact Or.inr ⟨rfl, by rw [← hk]⟩
    intro k l t u hk hl e
    rcases cases' k t hk with ⟨a, b⟩ | ⟨a, b⟩ <;> rcases cases' l u hl with ⟨a', b'⟩ | ⟨a', b'⟩
    · exact h.apart k l t u b b' e
    · have := old k t b; omega
    · have := old l u b'; omega
    · omega

end

/-- C162.  A subscript whose position in the storage lies beyond one past the last element throws. -/
theorem C162_throws {t : DevTensor} {idx : List Int} (hl : idx.length ≤ t.dims.length) (hn : numel t.dims < 2 ^ 31)
    (h : numel t.dims < t.ordinal idx) : (t.ref idx).isError := by
  unfold DevTensor.ref
  rw [if_neg (by omega), sizeMethod_small hn, if_pos h]; rfl

/-- C162, refuted: the index one past the end of the first axis, `T(d, 0, ..., 0)`, does not throw.  It gives a reference,
and reading or writing through it leaves the allocation. -/
theorem C162_end_refuted {R : Type} [Zero R] {Ts : List DevTensor} {M : DevMem R} {f : Nat → List Nat → R}
    (h : DevHolds M Ts f) {k : Nat} {t : DevTensor} (hk : Ts[k]? = some t) (hn : numel t.dims < 2 ^ 31) {d : Nat}
    {ds : List Nat} (hd : t.dims = d :: ds) :
    ∃ r, t.ref ((d : Int) :: List.replicate ds.length 0) = .ok r ∧ (r.get M).isUb ∧ ∀ v, (r.assign M v).isUb := by
  obtain ⟨hm, hst, data, h3, h4, -⟩ := h.values k t hk
  have e0 : normIdx t.dims ((d : Int) :: List.replicate ds.length 0) = toIdx (d :: List.replicate ds.length 0) := by
    rw [hd]
    have : ∀ n (ds : List Nat), normIdx ds (List.replicate n 0) = toIdx (List.replicate n 0) := by
      intro n
      induction n with
      | zero => intro ds; cases ds <;> rfl
      | succ n ih => intro ds; cases ds with
        | nil => simp [normIdx, toIdx]
        | cons a ds => simp only [List.replicate_succ, normIdx, ih]; rfl
    simp only [normIdx, this]
    rw [if_neg (by omega)]; rfl
  have e1 : t.ordinal ((d : Int) :: List.replicate ds.length 0) = numel t.dims := by
    unfold DevTensor.ordinal
    rw [e0, hst, hd, dimsToStrides_snd_cons, innerProduct_ofNat, dot_cons, dot_zeros]
    rw [hd] at hn
    have e : numel (d :: ds) = d * numel ds := rfl
    rw [← e, Nat.add_zero]
    have : (((numel (d :: ds) : Nat) : Int) % 2 ^ 64) = ((numel (d :: ds) : Nat) : Int) :=
      Int.emod_eq_of_lt (by omega) (by omega)
    rw [this, Int.toNat_natCast]
  have e2 : t.ref ((d : Int) :: List.replicate ds.length 0) = .ok ⟨some (t.buf, numel t.dims), decide (t.mode ≠ .devOnly)⟩ := by
    unfold DevTensor.ref
    rw [if_neg (by simp [hd]), e1, sizeMethod_small hn, if_neg (by omega)]
    cases h : t.mode <;> simp_all
  refine ⟨_, e2, ?_, fun v => ?_⟩
  · simp only [HDRef.get, DevMem.load, h3, if_true]
    rw [List.getElem?_eq_none (by omega)]; rfl
  · simp only [HDRef.assign, HDRef.put, DevMem.store, h3, if_true]
    rw [if_neg (by omega)]; rfl

/-- C162, refuted: only the position in the storage is checked, so an index past the end of the second axis of a matrix
silently addresses the next row. -/
theorem C162_axis_refuted {t : DevTensor} (hs : t.strides = (dimsToStrides t.dims).2) {d0 d1 : Nat} (hd : t.dims = [d0, d1]) (i : Nat) :
    t.ref [(i : Int), (d1 : Int)] = t.ref [(i : Int) + 1, 0] := by
  have : t.ordinal [(i : Int), (d1 : Int)] = t.ordinal [(i : Int) + 1, 0] := by
    unfold DevTensor.ordinal
    rw [hs, hd]
    have e : (dimsToStrides [d0, d1]).2 = [d1, 1] := by simp [dimsToStrides]
    rw [e]
    simp only [normIdx, innerProduct]
    rw [if_neg (by omega), if_neg (by omega), if_neg (by omega), if_neg (by omega)]
    congr 2
    ring
  unfold DevTensor.ref
  rw [this]; rfl

/-- C162, refuted for large tensors: the element count is computed in 32 bits, so in a tensor of 2³² elements every index
but the origin throws. -/
theorem C162_large_refuted {t : DevTensor} (hs : t.strides = (dimsToStrides t.dims).2) (hn : numel t.dims = 2 ^ 32)
    {idx : List Int} {j : List Nat} (hi : pyIndices t.dims idx = some j) (h0 : rowMajor j t.dims ≠ 0) :
    (t.ref idx).isError := by
  unfold DevTensor.ref
  have : sizeMethod t.dims = 0 := by rw [sizeMethod_eq, hn]; rfl
  rw [if_neg (by have := pyIndices_length hi; omega), ordinal_eq hs (by omega) hi, this, if_pos (by omega)]; rfl

theorem locate_congr {R S : Type} {T : Block R} {U : Block S} (h1 : T.ranges = U.ranges) (h2 : T.dim = U.dim)
    (idx : List Int) (o : Option Nat) (acc : List Int) : T.locate idx o acc = U.locate idx o acc := by
  induction idx generalizing o acc with
  | nil => cases o <;> rfl
  | cons i is ih =>
    simp only [Block.locate, h1, h2, ih]

/-- The sizes of the blocks, as a specification of the partition. -/
private def sizesOf (ns : List Nat) : Blocks Unit := ns.map fun n => (n, fun _ => ())

private theorem sizes_sizesOf (ns : List Nat) : (sizesOf ns).sizes = ns := by
  simp [sizesOf, Blocks.sizes, Function.comp_def]

private def frameOf (r : Nat) (ns : List Nat) : Block Unit :=
  Block.updateDims ⟨r, ns.map fun n => tensorOf (List.replicate r n) fun _ => (), [], [], 0, ()⟩

private theorem frameOf_models {r : Nat} (hr : 0 < r) (ns : List Nat) : (frameOf r ns).Models r (sizesOf ns) := by
  refine updateDims_models hr rfl ?_
  simp only [sizesOf]
  induction ns with
  | nil => exact .nil
  | cons n ns ih => exact .cons (tensorOf_ok _ _) ih

private theorem locate_frame {r : Nat} (hr : 0 < r) (blocks : List DevTensor) (idx : List Int) :
    Block.locate (R := Unit) ⟨(BlockDev.ofBlocks r blocks).rank, [], (BlockDev.ofBlocks r blocks).ranges, [],
      (BlockDev.ofBlocks r blocks).dim, ()⟩ idx none [] =
    (frameOf r (blocks.map fun t => t.dims.headD 0)).locate idx none [] := by
  have : (List.map (fun t => Strided.dim t 0) ((blocks.map fun t => t.dims.headD 0).map fun n =>
      tensorOf (List.replicate r n) fun _ => ())) = blocks.map fun t => t.dims.headD 0 := by
    rw [List.map_map]
    conv_rhs => rw [← List.map_id (blocks.map fun t => t.dims.headD 0)]
    apply List.map_congr_left
    intro n _
    cases r with
    | zero => omega
    | succ r => simp [Strided.dim, tensorOf, List.replicate_succ]
  apply locate_congr
  · simp only [frameOf, Block.updateDims, BlockDev.ofBlocks, this]
  · simp only [frameOf, Block.updateDims, BlockDev.ofBlocks, this]

/-- C162, block tensors (partial: blocks of fewer than 2³¹ elements).  `T(i, j, ...)` with indices in one block refers to
the element of that block: it reads its value, and assigning to it changes that element alone. -/
theorem C162_block_partial {R : Type} [Zero R] {r : Nat} (hr : 0 < r) {blocks : List DevTensor} {M : DevMem R}
    {f : Nat → List Nat → R} (h : DevHolds M blocks f) (hb : ∀ t ∈ blocks, t.dims = List.replicate r (t.dims.headD 0))
    (hn : ∀ t ∈ blocks, numel t.dims < 2 ^ 31) {sizes : List Nat} (hsz : sizes = blocks.map fun t => t.dims.headD 0)
    {idx : List Int} {j : List Nat} (hi : pyIndices (List.replicate r sizes.sum) idx = some j) {b : Nat}
    (hin : InBlock sizes b j) :
    ∃ ref, (BlockDev.ofBlocks r blocks).ref idx = .ok ref ∧ ref.get M = .ok (f b (j.map (· - tileStart sizes b))) ∧
      ∀ v, ∃ M', ref.assign M v = .ok M' ∧ DevHolds M' blocks (setAt f (b, j.map (· - tileStart sizes b)) v) := by
  have hm := frameOf_models hr sizes
  have hjl : j.length = r := by have := (pyIndices_inBox hi).length; simpa using this
  have hj0 : j ≠ [] := by rintro rfl; simp at hjl; omega
  have hloc := locate_ok hr hm (idx := idx) (j := j) (by rw [sizes_sizesOf]; exact hi)
  rw [find_eq hj0 (by rw [sizes_sizesOf]; exact hin), sizes_sizesOf] at hloc
  obtain ⟨x, hx⟩ := List.exists_mem_of_ne_nil j hj0
  have hbl : b < blocks.length := by have := interval_lt (hin x hx); rw [hsz] at this; simpa using this
  have ht : blocks[b]? = some blocks[b] := by simp [hbl]
  have hd := hb blocks[b] (by simp)
  have hsb : sizes.getD b 0 = blocks[b].dims.headD 0 := by rw [hsz]; simp [List.getD_eq_getElem?_getD, hbl]
  have hbox : InBox (j.map (· - tileStart sizes b)) blocks[b].dims := by
    have := local_inBox (bs := sizesOf sizes) (b := b) hjl (by rw [sizes_sizesOf]; exact hin)
    rw [sizes_sizesOf, hsb] at this
    rw [hd]; exact this
  obtain ⟨h1, h2, -⟩ := h.values b blocks[b] ht
  have href := ref_eq h1 h2 (hn _ (by simp)) (pyIndices_toIdx hbox)
  refine ⟨⟨some (blocks[b].buf, rowMajor (j.map (· - tileStart sizes b)) blocks[b].dims),
    decide (blocks[b].mode ≠ .devOnly)⟩, ?_, load_eq h ht hbox, fun v => ?_⟩
  · unfold BlockDev.ref
    rw [locate_frame hr, ← hsz, hloc]
    have : (BlockDev.ofBlocks r blocks).blocks = blocks := rfl
    simp only [this, ht]
    exact href
  · obtain ⟨M', g1, g2, -⟩ := store_eq h ht hbox v
    exact ⟨M', g1, g2⟩

/-- C162, block tensors: indices in range but in no common block give a reference that reads as zero.  Writing through it
is not ignored, as it is for block tensors on the host: it is undefined behaviour. -/
theorem C162_block_outside {r : Nat} (hr : 0 < r) (blocks : List DevTensor) {sizes : List Nat}
    (hsz : sizes = blocks.map fun t => t.dims.headD 0) {idx : List Int} {j : List Nat}
    (hi : pyIndices (List.replicate r sizes.sum) idx = some j) (hout : ∀ b, ¬ InBlock sizes b j) :
    ∃ ref, (BlockDev.ofBlocks r blocks).ref idx = .ok ref ∧
      (∀ (R : Type) [Zero R] (M : DevMem R), ref.get M = .ok 0) ∧
      (∀ (R : Type) (M : DevMem R) (v : R), (ref.assign M v).isUb) ∧
      (∀ (R : Type) [Zero R] [Add R] [Sub R] [Mul R] [Div R] (M : DevMem R) (op : RefOp) (v : R), (ref.compound M op v).isUb) ∧
      ∀ (R : Type) [Zero R] [Add R] [Sub R] [Mul R] [Div R] (M : DevMem R) (op : RefOp) (other : HDRef) (v : R),
        other.get M = .ok v → (ref.assignRef M other).isUb ∧ (ref.compoundRef M op other).isUb := by
  have hm := frameOf_models hr sizes
  have hloc := locate_ok hr hm (idx := idx) (j := j) (by rw [sizes_sizesOf]; exact hi)
  have hf : (sizesOf sizes).find j = none := by
    unfold Blocks.find
    rw [List.find?_eq_none]
    intro b _
    rw [sizes_sizesOf]
    simpa using hout b
  rw [hf] at hloc
  refine ⟨⟨none, true⟩, ?_, fun _ _ _ => rfl, fun _ _ _ => rfl, ?_, ?_⟩
  · unfold BlockDev.ref
    rw [locate_frame hr, ← hsz, hloc]
  · intro R _ _ _ _ _ M op v
    rfl
  · intro R _ _ _ _ _ M op other v h
    simp only [HDRef.assignRef, HDRef.compoundRef, if_true, h, Outcome.ok_bind]
    exact ⟨rfl, rfl⟩

/-- C162, block tensors: an index out of range throws if it is the first one. -/
theorem C162_block_throws {r : Nat} (blocks : List DevTensor) {i : Int} {is : List Int} (hl : (i :: is).length = r)
    (hi : pyIndex (blocks.map fun t => t.dims.headD 0).sum i = none) :
    ((BlockDev.ofBlocks r blocks).ref (i :: is)).isError := by
  have hr : 0 < r := by simp at hl; omega
  have hm := frameOf_models hr (blocks.map fun t => t.dims.headD 0)
  have := (locate_cons hm i is).1 (by rw [sizes_sizesOf]; exact hi)
  unfold BlockDev.ref
  rw [locate_frame hr, this]; rfl

/-- C162, refuted for block tensors: an index out of range after the first one does not throw; the element reads as
zero. -/
theorem C162_block_range_refuted {r : Nat} (blocks : List DevTensor) {i : Int} {is : List Int} (hl : (i :: is).length = r)
    {x : Nat} (hx : pyIndex (blocks.map fun t => t.dims.headD 0).sum i = some x)
    (hi : pyIndices (List.replicate r (blocks.map fun t => t.dims.headD 0).sum) (i :: is) = none) :
    ∃ ref, (BlockDev.ofBlocks r blocks).ref (i :: is) = .ok ref ∧
      ∀ (R : Type) [Zero R] (M : DevMem R), ref.get M = .ok 0 := by
  have hr : 0 < r := by simp at hl; omega
  have hm := frameOf_models hr (blocks.map fun t => t.dims.headD 0)
  have := locate_out hm hl (by rw [sizes_sizesOf]; exact hi)
  rw [sizes_sizesOf, hx, if_neg (by simp)] at this
  refine ⟨⟨none, true⟩, ?_, fun _ _ _ => rfl⟩
  unfold BlockDev.ref
  rw [locate_frame hr, this]

/-! A concrete case: a 2×2 matrix on the device and a vector of two elements in mapped host memory. -/

private def devMem : DevMem Int := [⟨false, [1, 2, 3, 4]⟩, ⟨true, [10, 20]⟩]
private def devTs : List DevTensor := [⟨0, .devOnly, [2, 2], [2, 1]⟩, ⟨1, .mapped, [2], [1]⟩]
private def devVals : Nat → List Nat → Int
  | 0, [i, j] => 1 + 2 * i + j
  | 1, [i] => 10 + 10 * i
  | _, _ => 0

private theorem devHolds : DevHolds devMem devTs devVals := by
  constructor
  · intro k t hk
    match k, hk with
    | 0, hk =>
      obtain rfl : _ = t := by simpa [devTs] using hk
      refine ⟨by decide, by decide, [1, 2, 3, 4], rfl, rfl, ?_⟩
      intro i hi
      have hm := mem_box.2 hi
      have : ∀ i ∈ box [2, 2], ([1, 2, 3, 4] : List Int)[rowMajor i [2, 2]]? = some (devVals 0 i) := by decide
      exact this i hm
    | 1, hk =>
      obtain rfl : _ = t := by simpa [devTs] using hk
      refine ⟨by decide, by decide, [10, 20], rfl, rfl, ?_⟩
      intro i hi
      have hm := mem_box.2 hi
      have : ∀ i ∈ box [2], ([10, 20] : List Int)[rowMajor i [2]]? = some (devVals 1 i) := by decide
      exact this i hm
    | n + 2, hk => simp [devTs] at hk
  · intro k l t u hk hl e
    match k, l, hk, hl with
    | 0, 0, _, _ => rfl
    | 1, 1, _, _ => rfl
    | 0, 1, hk, hl => simp [devTs] at hk hl; subst hk hl; simp at e
    | 1, 0, hk, hl => simp [devTs] at hk hl; subst hk hl; simp at e
    | n + 2, _, hk, _ => simp [devTs] at hk
    | _, n + 2, _, hl => simp [devTs] at hl

/-- `T(1, -1) += V(0); V(-1) = T(1, 1); T(0, 0) -= 5`. -/
private def devProg : List (RefStmt Int) :=
  [.compoundRef 0 [1, -1] .add 1 [0], .setRef 1 [-1] 0 [1, 1], .compound 0 [0, 0] .sub 5]

example : ∃ f', specRefs devTs devProg devVals = some f' ∧
    f' 0 [1, 1] = 14 ∧ f' 1 [1] = 14 ∧ f' 0 [0, 0] = -4 ∧ f' 0 [0, 1] = 2 := ⟨_, rfl, by decide⟩

example : runRefs devTs devProg devMem = .ok [⟨false, [-4, 2, 3, 14]⟩, ⟨true, [10, 14]⟩] := by decide

example : ∃ f', specRefs devTs devProg devVals = some f' ∧ ∃ M', runRefs devTs devProg devMem = .ok M' ∧
    DevHolds M' devTs f' :=
  ⟨_, rfl, by
    obtain ⟨M', h1, h2, -⟩ := C162_history_partial Int.add_comm (by decide) devProg devHolds rfl
    exact ⟨M', h1, h2⟩⟩

example : (DevTensor.ref ⟨0, .devOnly, [2, 2], [2, 1]⟩ [3, 0]).isError := C162_throws (by decide) (by decide) (by decide)

/-- Blocks of sizes 2 (device) and 1 (host). -/
private def devBlocks : List DevTensor := [⟨0, .devOnly, [2, 2], [2, 1]⟩, ⟨1, .pinned, [1, 1], [1, 1]⟩]

example : (BlockDev.ofBlocks 2 devBlocks).ref [-1, 2] = .ok ⟨some (1, 0), true⟩ := by decide
example : InBlock [2, 1] 1 [2, 2] := by decide
example : (BlockDev.ofBlocks 2 devBlocks).ref [1, 2] = .ok ⟨none, true⟩ := by decide
example : ∀ b, ¬ InBlock [2, 1] b [1, 2] := by
  intro b h
  have h1 := h 1 (by simp)
  have h2 := h 2 (by simp)
  match b with
  | 0 => simp [InInterval, tileStart] at h2
  | 1 => simp [InInterval, tileStart] at h1
  | b + 2 => have := interval_lt h1; simp at this
example : ((BlockDev.ofBlocks 2 devBlocks).ref [3, 0]).isError := C162_block_throws devBlocks rfl rfl
example : ∃ ref, (BlockDev.ofBlocks 2 devBlocks).ref [0, 3] = .ok ref ∧
    ∀ (R : Type) [Zero R] (M : DevMem R), ref.get M = .ok 0 := C162_block_range_refuted devBlocks rfl rfl rfl

end Einsums.Props
