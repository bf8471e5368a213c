import Verif.Proofs.Size
/-
Properties C03–C07: element addressing, write/read, size, reshape, resize.
-/
namespace Einsums.Props
open Spec Model

/-- **C03.** On a freshly constructed tensor of rank ≥ 1, every in-range multi-index (negative entries
count from the end) addresses an element inside the storage, and two of them address the same
element iff they normalise to the same multi-index. -/
theorem C03_addresses (z : Nat → α) (dims : List Nat) (hr : dims ≠ []) :
    let t := Strided.mk' z dims
    t.dims = dims ∧ t.data.length = numel dims ∧
    ∀ is is' : List Int, ∀ js js' : List Nat,
      pyIndices dims is = some js → pyIndices dims is' = some js' →
      ∃ a a', t.addr is = .ok a ∧ t.addr is' = .ok a' ∧ a < t.data.length ∧ a' < t.data.length ∧
        (a = a' ↔ js = js') := by
  have ht := isTensor_mk' z hr
  have w := ht.wf
  refine ⟨rfl, ht.length, ?_⟩
  intro is is' js js' h h'
  have b := w.bound js (pyIndices_inBox h)
  have b' := w.bound js' (pyIndices_inBox h')
  refine ⟨_, _, addr_eq (t := Strided.mk' z dims) h b, addr_eq (t := Strided.mk' z dims) h' b', b, b', ?_⟩
  constructor
  · intro e
    exact w.inj js js' (pyIndices_inBox h) (pyIndices_inBox h') (by omega)
  · rintro rfl; rfl

example : pyIndices [2, 3] [-1, 1] = some [1, 1] ∧ pyIndices [2, 3] [1, -2] = some [1, 1] ∧
    (Strided.mk' (fun _ => (0 : Nat)) [2, 3]).addr [-1, 1] = .ok 4 := by decide

/-- Apply a history of element writes. -/
def writeAll (t : Strided α) : List (List Int × α) → Outcome (Strided α)
  | [] => .ok t
  | (i, v) :: ws => do
      let t ← t.write i v
      writeAll t ws

/-- **C04 (one write).** After a write at an in-range multi-index, that index reads the written value
and every other in-range index reads what it read before; the shape does not change.
Holds for every tensor and every view whose multi-indices address distinct elements (`WF`). -/
theorem C04_write_read (t : Strided α) (w : t.WF) (is : List Int) (js : List Nat) (v : α)
    (h : pyIndices t.dims is = some js) :
    ∃ t', t.write is v = .ok t' ∧ t'.dims = t.dims ∧ t'.WF ∧
      ∀ ks ls, pyIndices t.dims ks = some ls →
        t'.read ks = if ls = js then .ok v else t.read ks := by
  have hb := pyIndices_inBox h
  have : Inhabited α := ⟨v⟩
  obtain ⟨f, hf⟩ := exists_represents w
  obtain ⟨t', h1, fr, r⟩ := write_represents w hf hb v
  refine ⟨t', by rw [write_normalise w v h, h1], fr.dims, fr.wf w, ?_⟩
  intro ks ls hk
  rw [read_normalise (fr.wf w) (by rw [fr.dims]; exact hk), read_normalise w hk,
    r ls (by rw [fr.dims]; exact pyIndices_inBox hk), hf ls (pyIndices_inBox hk)]
  by_cases e : ls = js <;> simp [e]

/-- **C04 (history).** After any sequence of in-range writes, every in-range multi-index reads the last
value written to it, or its initial value; no write of the sequence fails. -/
theorem C04_history (t : Strided α) (w : t.WF) (init : List Nat → α)
    (hinit : ∀ j, InBox j t.dims → t.read (toIdx j) = .ok (init j))
    (ws : List (List Int × List Nat × α)) (hws : ∀ x ∈ ws, pyIndices t.dims x.1 = some x.2.1) :
    ∃ t', writeAll t (ws.map fun x => (x.1, x.2.2)) = .ok t' ∧ t'.dims = t.dims ∧
      ∀ is js, pyIndices t.dims is = some js →
        t'.read is = .ok (afterWrites init (ws.map fun x => x.2) js) := by
  induction ws generalizing t init with
  | nil =>
    refine ⟨t, rfl, rfl, ?_⟩
    intro is js h
    rw [read_normalise w h]; exact hinit js (pyIndices_inBox h)
  | cons x ws ih =>
    obtain ⟨is, js, v⟩ := x
    have h := hws (is, js, v) (by simp)
    obtain ⟨t1, h1, fr, r⟩ := write_represents w hinit (pyIndices_inBox h) v
    have hd := fr.dims
    obtain ⟨t2, h2, hd2, r2⟩ := ih t1 (fr.wf w) _ r (by
      intro y hy; rw [hd]; exact hws y (by simp [hy]))
    refine ⟨t2, ?_, hd2.trans hd, ?_⟩
    · simp only [List.map_cons, writeAll]
      rw [write_normalise w v h, h1]; exact h2
    · intro ks ls hk
      exact r2 ks ls (by rw [hd]; exact hk)

/-- Every freshly constructed tensor meets the hypotheses of C04, whatever its memory contains. -/
theorem C04_constructed (z : Nat → α) (dims : List Nat) (hr : dims ≠ []) :
    (Strided.mk' z dims).WF ∧ ∃ f, (Strided.mk' z dims).Represents f := by
  have ht := isTensor_mk' z hr
  refine ⟨ht.wf, fun i => z (rowMajor i dims), ?_⟩
  intro i hi
  have hi' : InBox i dims := hi
  rw [read_eq (pyIndices_toIdx hi) (ht.wf.bound i hi)]
  have hlt := rowMajor_lt hi'
  have e : (Strided.mk' z dims).off + dot i (Strided.mk' z dims).strides = rowMajor i dims := by
    rw [ht.off, ht.strides, Nat.zero_add]
    exact dot_strides_eq hi'.length
  simp only [e]
  simp [Strided.mk', vecResize]

example : (writeAll (Strided.mk' (fun _ => 0) [2, 2]) [([0, -1], 5), ([1, 0], 7), ([-2, 1], 6)]) =
    .ok { data := [0, 6, 7, 0], off := 0, dims := [2, 2], strides := [2, 1] } := by decide

/-- **C05 (partial).** `size()` is the number of elements as long as that number is below 2^31.
Missing: shapes with 2^31 elements or more, where the code's `int` accumulator wraps (see
`C05_size_exactly`). -/
theorem C05_size_partial (dims : List Nat) (h : numel dims < 2 ^ 31) : sizeMethod dims = numel dims := by
  rw [sizeMethod_eq, Nat.mod_eq_of_lt (by omega), if_neg (by omega)]; rfl

/-- **C05 (exact range).** Among shapes with fewer than 2^63 elements, `size()` is right exactly when
there are fewer than 2^31 elements. -/
theorem C05_size_exactly (dims : List Nat) (h : numel dims < 2 ^ 63) :
    sizeMethod dims = numel dims ↔ numel dims < 2 ^ 31 := by
  rw [sizeMethod_eq]
  have := Nat.mod_lt (numel dims) (show 2 ^ 32 > 0 by decide)
  have := Nat.div_add_mod (numel dims) (2 ^ 32)
  split <;> omega

/-- **C05 (refuted as stated).** A shape of 2^31 elements whose `size()` is not 2^31. -/
theorem C05_size_refuted : ∃ dims, numel dims = 2 ^ 31 ∧ sizeMethod dims = 2 ^ 64 - 2 ^ 31 :=
  ⟨[65536, 32768], by decide, by rw [sizeMethod_eq]; decide⟩

example : sizeMethod [3, 4, 5] = 60 := C05_size_partial _ (by decide)

/-- **C06 (result of a successful reshape).** The result has a shape matching the request, the same
number of elements, and the same elements in row-major order: elements at equal row-major
positions are equal. -/
theorem C06_reshape_ok (t t' : Strided α) (ht : t.IsTensor) (req : List ReqDim) (hr : req ≠ [])
    (h : reshape t req = .ok t') :
    t'.IsTensor ∧ Matches req t'.dims ∧ numel t'.dims = numel t.dims ∧ t'.data = t.data ∧
    ∀ i j, InBox i t'.dims → InBox j t.dims → rowMajor i t'.dims = rowMajor j t.dims →
      t'.read (toIdx i) = t.read (toIdx j) := by
  have key : t'.IsTensor ∧ Matches req t'.dims ∧ numel t'.dims = numel t.dims ∧ t'.data = t.data := by
    have fin : ∀ v, (if t.data.length ≠ linearSize (transformStrides (fillAuto v req)) (fillAuto v req)
        then (Outcome.error "Provided dims to not match size of parent tensor" : Outcome (Strided α))
        else .ok { data := t.data, off := 0, dims := fillAuto v req,
                   strides := transformStrides (fillAuto v req) }) = .ok t' →
        t'.IsTensor ∧ Matches req t'.dims ∧ numel t'.dims = numel t.dims ∧ t'.data = t.data := by
      intro v hv
      split at hv
      · simp at hv
      · rename_i hl
        have hne : fillAuto v req ≠ [] := by
          intro e; have := length_fillAuto v req; rw [e] at this; exact hr (List.length_eq_zero_iff.1 this.symm)
        rw [linearSize_eq hne] at hl
        have hl' : t.data.length = numel (fillAuto v req) := by simpa using hl
        have e := Outcome.ok.inj hv
        subst e
        exact ⟨⟨rfl, transformStrides_eq _, hl'⟩, matches_fillAuto v req, by
          rw [← ht.length]; exact hl'.symm, rfl⟩
    unfold reshape at h
    simp only at h
    split at h
    · simp at h
    · split at h
      · split at h
        · simp at h
        · split at h
          · simp at h
          · exact fin _ h
      · exact fin _ h
  refine ⟨key.1, key.2.1, key.2.2.1, key.2.2.2, ?_⟩
  intro i j hi hj e
  have b1 := key.1.wf.bound i hi
  have b2 := ht.wf.bound j hj
  rw [read_eq (pyIndices_toIdx hi) b1, read_eq (pyIndices_toIdx hj) b2]
  simp only [key.1.off, key.1.strides, ht.off, ht.strides, dot_strides_eq hi.length,
    dot_strides_eq hj.length, e, key.2.2.2]

/-- **C06 (when it succeeds; partial).** If at most one dimension is −1, and — in case one is −1 —
the tensor is not empty and no other requested dimension is zero, then reshape succeeds iff some
shape matching the request has the right number of elements, and otherwise throws.
Missing: the two excluded cases with −1, where the code misbehaves (`C06_zero_dim_ub`,
`C06_empty_refuted`). -/
theorem C06_reshape_decides_partial (t : Strided α) (ht : t.IsTensor) (req : List ReqDim)
    (hr : req ≠ []) (h1 : autos req ≤ 1)
    (h0 : autos req = 1 → reqProduct req ≠ 0 ∧ numel t.dims ≠ 0) :
    ((∃ ds, Matches req ds ∧ numel ds = numel t.dims) → (reshape t req).isOk = true) ∧
    ((¬ ∃ ds, Matches req ds ∧ numel ds = numel t.dims) → (reshape t req).isError = true) := by
  have hne : ∀ v, fillAuto v req ≠ [] := by
    intro v e; have := length_fillAuto v req; rw [e] at this
    exact hr (List.length_eq_zero_iff.1 this.symm)
  have e0 : (req.filter (· == ReqDim.auto)).length = autos req := rfl
  unfold reshape
  simp only [e0, foldl_mul_eq, Nat.one_mul]
  rw [if_neg (by omega)]
  by_cases ha : autos req = 1
  · obtain ⟨hp, hn0⟩ := h0 ha
    simp only [ha, if_true]
    by_cases hgt : reqProduct req > numel t.dims
    · rw [if_pos hgt]
      refine ⟨?_, fun _ => rfl⟩
      rintro ⟨ds, hm, hn⟩
      exfalso
      obtain ⟨v, -, hv⟩ := numel_of_matches_one hm ha
      cases v with
      | zero => simp at hv; omega
      | succ v => rw [Nat.add_mul] at hv; omega
    · rw [if_neg hgt, if_neg hp]
      simp only [Outcome.ok_bind, linearSize_eq (hne _), ht.length]
      obtain ⟨v, hv1, hv2⟩ := numel_of_matches_one
        (matches_fillAuto (numel t.dims / reqProduct req) req) ha
      by_cases hd : numel (fillAuto (numel t.dims / reqProduct req) req) = numel t.dims
      · rw [if_neg (by simp [hd])]
        refine ⟨fun _ => rfl, fun hno => (hno ⟨_, matches_fillAuto _ _, hd⟩).elim⟩
      · rw [if_pos (Ne.symm hd)]
        refine ⟨?_, fun _ => rfl⟩
        rintro ⟨ds, hm, hn⟩
        exfalso
        apply hd
        obtain ⟨u, hu1, hu2⟩ := numel_of_matches_one hm ha
        have : numel t.dims / reqProduct req = u := by
          rw [← hn, hu2, Nat.mul_div_cancel _ (by omega)]
        rw [this, ← hu1, hn]
  · have hz : autos req = 0 := by omega
    simp only [hz, Nat.zero_ne_one, if_false, Outcome.ok_bind, linearSize_eq (hne _), ht.length]
    by_cases hd : numel (fillAuto 0 req) = numel t.dims
    · rw [if_neg (by simp [hd])]
      exact ⟨fun _ => rfl, fun hno => (hno ⟨_, matches_fillAuto _ _, hd⟩).elim⟩
    · rw [if_pos (Ne.symm hd)]
      refine ⟨?_, fun _ => rfl⟩
      rintro ⟨ds, hm, hn⟩
      exact (hd (by rw [← (numel_of_matches_zero hm hz).1, hn])).elim

/-- **C06 (two or more −1).** The request is rejected. -/
theorem C06_two_autos (t : Strided α) (req : List ReqDim) (h : 2 ≤ autos req) :
    (reshape t req).isError = true := by
  have e0 : (req.filter (· == ReqDim.auto)).length = autos req := rfl
  unfold reshape
  simp only [e0]
  rw [if_pos (by omega)]; rfl

/-- **C06 (disagreement).** With one −1 and another requested dimension 0 the code divides by zero,
whatever the tensor. -/
theorem C06_zero_dim_ub (t : Strided α) (req : List ReqDim) (ha : autos req = 1)
    (hp : reqProduct req = 0) : (reshape t req).isUb = true := by
  have e0 : (req.filter (· == ReqDim.auto)).length = autos req := rfl
  unfold reshape
  simp only [e0, ha, hp]
  simp [Outcome.isUb]

/-- **C06 (disagreement).** An empty tensor cannot be reshaped with −1, although 0 would fit. -/
theorem C06_empty_refuted : ∃ (t : Strided Nat) (req : List ReqDim) (ds : List Nat), t.IsTensor ∧
    Matches req ds ∧ numel ds = numel t.dims ∧ (reshape t req).isError = true :=
  ⟨Strided.mk' (fun _ => 0) [0, 2], [.auto, .n 3], [0, 3], isTensor_mk' _ (by decide),
    ⟨rfl, trivial⟩, by decide, by decide⟩

example : (Strided.mk' (fun _ => 1) [4, 6]).IsTensor ∧ autos [.n 3, .auto, .n 2] = 1 ∧
    reqProduct [.n 3, .auto, .n 2] ≠ 0 ∧
    (reshape (Strided.mk' (fun _ => 1) [4, 6]) [.n 3, .auto, .n 2]).isOk = true :=
  ⟨isTensor_mk' _ (by decide), by decide, by decide, by decide⟩

/-- **C07 (one resize).** The result has the requested shape with row-major strides and storage of
exactly the right length, and the first `min` elements in row-major order are unchanged. -/
theorem C07_resize (z : Nat → α) (t : Strided α) (ht : t.IsTensor) (dims : List Nat) (hr : dims ≠ []) :
    let t' := t.resize z dims
    t'.IsTensor ∧ t'.dims = dims ∧
    t'.data.take (min (numel t.dims) (numel dims)) = t.data.take (min (numel t.dims) (numel dims)) ∧
    (t.dims = dims → t' = t) := by
  intro t'
  by_cases h : t.dims = dims
  · have e : t' = t := by simp [t', Strided.resize, h]
    rw [e]
    exact ⟨ht, h, rfl, fun _ => rfl⟩
  · have e : t' = { data := vecResize z (numel dims) t.data, off := 0, dims := dims,
                    strides := transformStrides dims } := by
      simp [t', Strided.resize, h, linearSize_eq hr]
    rw [e]
    refine ⟨⟨rfl, transformStrides_eq _, vecResize_length _ _ _⟩, rfl, ?_, fun h' => (h h').elim⟩
    simp only [vecResize]
    rw [List.take_append_of_le_length (by simp [ht.length]), List.take_take]
    congr 1
    omega

/-- **C07 (elements).** An element whose row-major position exists both before and after is kept;
elements beyond the old storage are whatever the fresh memory holds. -/
theorem C07_resize_elements (z : Nat → α) (t : Strided α) (ht : t.IsTensor) (dims : List Nat)
    (hr : dims ≠ []) (hne : t.dims ≠ dims) (i : List Nat) (hi : InBox i dims) :
    (∀ j, InBox j t.dims → rowMajor i dims = rowMajor j t.dims →
      (t.resize z dims).read (toIdx i) = t.read (toIdx j)) ∧
    (numel t.dims ≤ rowMajor i dims → (t.resize z dims).read (toIdx i) = .ok (z (rowMajor i dims))) := by
  have hI := (C07_resize z t ht dims hr).1
  have hd := (C07_resize z t ht dims hr).2.1
  have e : t.resize z dims =
      { data := vecResize z (numel dims) t.data, off := 0, dims := dims,
        strides := transformStrides dims } := by
      simp [Strided.resize, hne, linearSize_eq hr]
  have hi' : InBox i (t.resize z dims).dims := by rw [hd]; exact hi
  have hrd := read_eq (pyIndices_toIdx hi') (hI.wf.bound i hi')
  have hlt := rowMajor_lt hi
  constructor
  · intro j hj hij
    rw [hrd, read_eq (pyIndices_toIdx hj) (ht.wf.bound j hj)]
    have hjlt := rowMajor_lt hj
    have hi'' : t.data.length = numel t.dims := ht.length
    simp only [hI.off, hI.strides, ht.off, ht.strides, dot_strides_eq hj.length,
      dot_strides_eq hi.length, hd, hij, Nat.zero_add]
    simp only [e, vecResize]
    rw [List.getElem_append_left (by simp; omega), List.getElem_take]
  · intro hge
    rw [hrd]
    simp only [hI.off, hI.strides, dot_strides_eq hi.length, hd, Nat.zero_add]
    simp only [e, vecResize]
    rw [List.getElem_append_right (by simp [ht.length]; omega), List.getElem_map, List.getElem_range']
    have hl := ht.length
    simp only [List.length_take]
    congr 2
    omega

/-- **C07 (histories).** Any sequence of resizes keeps the storage length equal to the product of the
current dimensions and the strides row-major. -/
theorem C07_history (t : Strided α) (ht : t.IsTensor) (ds : List ((Nat → α) × List Nat))
    (hr : ∀ d ∈ ds, d.2 ≠ []) : (ds.foldl (fun t d => t.resize d.1 d.2) t).IsTensor := by
  induction ds generalizing t with
  | nil => exact ht
  | cons d ds ih =>
    exact ih _ (C07_resize d.1 t ht d.2 (hr d (by simp))).1 (fun x hx => hr x (by simp [hx]))

example : ((Strided.mk' (fun _ => 1) [2, 2]).resize id [3, 2]).data = [1, 1, 1, 1, 4, 5] ∧
    (Strided.mk' (fun _ => 1) [2, 2]).IsTensor := ⟨by decide, isTensor_mk' _ (by decide)⟩

end Einsums.Props
