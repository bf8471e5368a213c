import Verif.Proofs.TiledOps
/-
C30 tile_of, C31 tiled tensors as arrays.
-/
namespace Einsums.Props
open Spec Model

variable {R : Type}

/-! ### C30: locating an element -/

/-- **C30 (tile_of).** For every partition of the axes (tiles of length 0 included) and every index in range,
negative ones counted from the end, `tile_of` returns the position of the tile whose intervals contain the
index, and there is only one such tile. -/
theorem C30_tile_of (T : Tiled R) (w : T.WF) (idx : List Int) (j : List Nat)
    (hj : pyIndices (fullDims T.sizes) idx = some j) :
    ∃ t, T.tileOf idx = .ok t ∧ InTile T.sizes t j ∧ ∀ t', InTile T.sizes t' j → t' = t := by
  obtain ⟨t, h1, h2⟩ := tileOf_tile w (by rw [w.dims]; exact hj)
  exact ⟨t, h1, h2, fun t' h' => inTile_unique h' h2⟩

/-- **C30 (index inside the tile).** Subtracting the start of the tile gives an index inside the tile, which
denotes the same element. -/
theorem C30_local (T : Tiled R) (w : T.WF) (idx : List Int) (j t : List Nat)
    (hj : pyIndices (fullDims T.sizes) idx = some j) (ht : T.tileOf idx = .ok t) :
    ∃ l, T.localIdx idx t = toIdx l ∧ InBox l (tileDims T.sizes t) ∧ tileGlobal T.sizes t l = j := by
  obtain ⟨t', h1, h2⟩ := tileOf_tile w (by rw [w.dims]; exact hj)
  rw [ht] at h1
  injection h1 with h1
  subst h1
  exact ⟨_, localIdx_tile w (by rw [w.dims]; exact hj) h2, (inTile_local h2).1, (inTile_local h2).2⟩

/-- **C30 (out of range).** A number of indices other than the rank, or any index out of range, is rejected. -/
theorem C30_throws (T : Tiled R) (w : T.WF) (idx : List Int) (h : pyIndices (fullDims T.sizes) idx = none) :
    (T.tileOf idx).isError = true :=
  tileOf_error w (by rw [w.dims]; exact h)

/-- **C30 (every element has a tile).** The tiles cover the tensor. -/
theorem C30_cover (parts : List (List Nat)) (j : List Nat) (h : InBox j (fullDims parts)) :
    ∃ t, InBox t (gridDims parts) ∧ InTile parts t j := by
  obtain ⟨t, ht⟩ := exists_inTile h
  exact ⟨t, inTile_grid ht, ht⟩

example : (Tiled.mk' [[2, 0, 3], [1, 4]] : Tiled Int).tileOf [-1, 1] = .ok [2, 1] ∧
    (Tiled.mk' [[2, 0, 3], [1, 4]] : Tiled Int).tileOf [2, 0] = .ok [2, 0] ∧
    (Tiled.mk' [[2, 0, 3], [1, 4]] : Tiled Int).tileOf [5, 0] = .error "Index not in the tensor!" := by decide

/-! ### C31: a tiled tensor behaves like an array -/

/-- **C31 (fresh tensor).** A newly built tiled tensor is well formed and all its elements are zero. -/
theorem C31_fresh [Zero R] (parts : List (List Nat)) (h : parts ≠ []) :
    (Tiled.mk' parts : Tiled R).WF ∧ (Tiled.mk' parts : Tiled R).Represents fun _ => 0 := by
  refine ⟨wf_mk' h, ?_⟩
  intro j hj
  exact (holds_iff (wf_mk' h)).1 (holds_mk' parts) j (by rw [(wf_mk' h).dims]; exact hj)

theorem represents_holds [Zero R] {T : Tiled R} (w : T.WF) {f : List Nat → R} : T.Represents f ↔ T.Holds f := by
  rw [holds_iff w, w.dims]; rfl

/-- One call. -/
theorem run_step [MulZeroClass R] [BEq R] [LawfulBEq R] {T : Tiled R} (w : T.WF) {f : List Nat → R} (hf : T.Holds f)
    (op : TiledOp R) (hv : op.Valid (gridDims T.sizes)) :
    (∃ T', op.run T = .ok T' ∧ T'.WF ∧ T'.sizes = T.sizes ∧ T'.Holds (op.dense (fullDims T.sizes) f)) ∨
    ((op.run T).isError = true ∧ op.dense (fullDims T.sizes) f = f) := by
  cases op with
  | set idx v =>
    cases h : pyIndices (fullDims T.sizes) idx with
    | some j =>
      left
      obtain ⟨T', h1, h2, h3, h4⟩ := set_ok w hf (idx := idx) (j := j) (by rw [w.dims]; exact h) v
      exact ⟨T', h1, h2, h3, by simp only [TiledOp.dense, h]; exact h4⟩
    | none =>
      right
      exact ⟨set_error w (by rw [w.dims]; exact h) v, by simp only [TiledOp.dense, h]⟩
  | touch idx =>
    cases h : pyIndices (fullDims T.sizes) idx with
    | some j =>
      left
      obtain ⟨T', h1, h2, h3, h4⟩ := getMut_ok w hf (idx := idx) (j := j) (by rw [w.dims]; exact h)
      exact ⟨T', by simp only [TiledOp.run, h1, Outcome.ok_bind], h2, h3, h4⟩
    | none =>
      right
      exact ⟨isError_bind (getMut_error w (by rw [w.dims]; exact h)) _, rfl⟩
  | tile idx =>
    left
    obtain ⟨k, hk⟩ := hv
    obtain ⟨T', h1, h2, h3, _, _, h4, _⟩ := tile_ok w hk
    exact ⟨T', by simp only [TiledOp.run, h1, Outcome.ok_bind], h2, h3, h4 f hf⟩
  | zero => exact Or.inl ⟨_, rfl, zero_wf w, rfl, zero_holds T⟩
  | zeroNoClear => exact Or.inl ⟨_, rfl, mapTiles_wf w _, rfl, mapTiles_holds w _ rfl hf⟩
  | mul v =>
    refine Or.inl ⟨_, rfl, ?_⟩
    unfold Tiled.mulScalar
    by_cases c : v = 0
    · subst c
      rw [if_pos (by simp)]
      refine ⟨zero_wf w, rfl, ?_⟩
      simp only [TiledOp.dense, mul_zero]
      exact zero_holds T
    · rw [if_neg (by simpa using c)]
      exact ⟨mapTiles_wf w _, rfl, mapTiles_holds w _ (zero_mul v) hf⟩

theorem history [MulZeroClass R] [BEq R] [LawfulBEq R] (ops : List (TiledOp R)) {T : Tiled R} (w : T.WF)
    {f : List Nat → R} (hf : T.Holds f) (hv : ∀ op ∈ ops, op.Valid (gridDims T.sizes)) :
    ∃ T', runTiled ops T = .ok T' ∧ T'.WF ∧ T'.sizes = T.sizes ∧
      T'.Holds (ops.foldl (TiledOp.dense (fullDims T.sizes)) f) := by
  induction ops generalizing T f with
  | nil => exact ⟨T, rfl, w, rfl, hf⟩
  | cons op ops ih =>
    rw [runTiled, List.foldl_cons]
    rcases run_step w hf op (hv op (by simp)) with ⟨T1, h1, w1, s1, r1⟩ | ⟨h1, h2⟩
    · obtain ⟨T', k1, k2, k3, k4⟩ := ih w1 r1 (by rw [s1]; exact fun o ho => hv o (by simp [ho]))
      rw [s1] at k3 k4
      exact ⟨T', by simp only [h1, k1], k2, k3, k4⟩
    · rw [h2]
      obtain ⟨T', k1, k2, k3, k4⟩ := ih w hf (fun o ho => hv o (by simp [ho]))
      refine ⟨T', ?_, k2, k3, k4⟩
      cases he : op.run T with
      | ok a => rw [he] at h1; simp [Outcome.isError] at h1
      | ub a => rw [he] at h1; simp [Outcome.isError] at h1
      | error a => simp only [k1]

/-- **C31 (history).** Start from a fresh tiled tensor with any partition and make any calls (assigning
elements, evaluating elements, creating tiles, zeroing, scaling; calls with indices out of range throw and
change nothing).  Afterwards every element reads, with positive or negative indices, through the const and
the non-const access, exactly what an ordinary array would hold after the same calls, and an index out of
range throws. -/
theorem C31_history [MulZeroClass R] [BEq R] [LawfulBEq R] (parts : List (List Nat)) (h : parts ≠ [])
    (ops : List (TiledOp R)) (hv : ∀ op ∈ ops, op.Valid (gridDims parts)) :
    ∃ T, runTiled ops (Tiled.mk' parts) = .ok T ∧ T.WF ∧ T.sizes = parts ∧
      ∀ idx, match pyIndices (fullDims parts) idx with
        | some j => T.get idx = .ok (ops.foldl (TiledOp.dense (fullDims parts)) (fun _ => 0) j) ∧
            ∃ T', T.getMut idx = .ok (T', ops.foldl (TiledOp.dense (fullDims parts)) (fun _ => 0) j)
        | none => (T.get idx).isError = true ∧ (T.getMut idx).isError = true := by
  obtain ⟨T, h1, h2, h3, h4⟩ := history ops (wf_mk' h) (holds_mk' parts) hv
  refine ⟨T, h1, h2, h3, ?_⟩
  intro idx
  have hd : T.dims = fullDims parts := by rw [h2.dims, h3]; rfl
  cases hp : pyIndices (fullDims parts) idx with
  | some j =>
    refine ⟨holds_get h2 h4 (by rw [hd]; exact hp), ?_⟩
    obtain ⟨T', e, _⟩ := getMut_ok h2 h4 (idx := idx) (j := j) (by rw [hd]; exact hp)
    exact ⟨T', e⟩
  | none => exact ⟨get_error h2 (by rw [hd]; exact hp), getMut_error h2 (by rw [hd]; exact hp)⟩

/-- **C31 (one call on any tiled tensor).** The same for a tensor in any well-formed state. -/
theorem C31_step [MulZeroClass R] [BEq R] [LawfulBEq R] (T : Tiled R) (w : T.WF) (f : List Nat → R)
    (hf : T.Represents f) (op : TiledOp R) (hv : op.Valid (gridDims T.sizes)) (T' : Tiled R)
    (h : op.run T = .ok T') :
    T'.WF ∧ T'.sizes = T.sizes ∧ T'.Represents (op.dense (fullDims T.sizes) f) := by
  rcases run_step w ((represents_holds w).1 hf) op hv with ⟨T1, h1, w1, s1, r1⟩ | ⟨h1, _⟩
  · rw [h] at h1
    injection h1 with h1
    subst h1
    exact ⟨w1, s1, (represents_holds w1).2 r1⟩
  · rw [h] at h1; simp [Outcome.isError] at h1

/-- **C31 (dense copy).** Converting to a dense tensor gives a tensor of the full shape with the same elements. -/
theorem C31_to_dense [Zero R] (T : Tiled R) (w : T.WF) (f : List Nat → R) (hf : T.Represents f) :
    ∃ D, T.toDense = .ok D ∧ D.IsTensor ∧ D.dims = fullDims T.sizes ∧ D.Represents f := by
  obtain ⟨D, h1, h2, h3, h4⟩ := toDense_ok w ((represents_holds w).1 hf)
  exact ⟨D, h1, h2, by rw [h3, w.dims], h4⟩

/-- **C31 (assignment).** After `T = other`, with `other` another tiled tensor, `T` has the layout and the
elements of `other`. -/
theorem C31_assign [Zero R] (other : Tiled R) (w : other.WF) (g : List Nat → R) (hg : other.Represents g) :
    (Tiled.assign false other).WF ∧ (Tiled.assign false other).sizes = other.sizes ∧
      (Tiled.assign false other).Represents g := by
  obtain ⟨h1, h2, h3⟩ := assign_ok w ((represents_holds w).1 hg)
  exact ⟨h1, h2, (represents_holds h1).2 h3⟩

/-- **C31 (self-assignment, refuted).** `T = T` drops every tile before copying them: all elements of `T`
become zero. -/
theorem C31_assign_self [Zero R] (T : Tiled R) (w : T.WF) :
    (Tiled.assign true T).Represents fun _ => 0 := by
  have : Tiled.assign true T = T.zero := by simp [Tiled.assign, Tiled.zero]
  rw [this]
  exact (represents_holds (zero_wf w)).2 (zero_holds T)

theorem C31_assign_self_refuted : ∃ T : Tiled Int, T.WF ∧ T.get [1] = .ok 5 ∧
    (Tiled.assign true T).get [1] = .ok 0 := by
  obtain ⟨T, h1, h2, -⟩ := C31_history (R := Int) [[2]] (by simp) [.set [1] 5] (by simp [TiledOp.Valid])
  have e : runTiled [.set [1] (5 : Int)] (Tiled.mk' [[2]]) = .ok ⟨[[2]], [[0]], [2], [([0], ⟨[0, 5], 0, [2], [1]⟩)]⟩ := by
    decide
  rw [e] at h1
  injection h1 with h1
  subst h1
  exact ⟨_, h2, by decide, by decide⟩

/-- **C31 (sum and difference).** `T += other` and `T -= other` for tiled tensors of the same layout, whatever
tiles each of them stores. -/
theorem C31_add [AddCommGroup R] (T other : Tiled R) (w : T.WF) (wo : other.WF) (hs : T.sizes = other.sizes)
    (f g : List Nat → R) (hf : T.Represents f) (hg : other.Represents g) :
    ∃ T', T.addTiled (· + ·) id other = .ok T' ∧ T'.WF ∧ T'.sizes = T.sizes ∧ T'.Represents fun i => f i + g i := by
  obtain ⟨T', h1, h2, h3, h4⟩ := addTiled_ok (· + ·) id (by simp) (by simp) w wo hs
    ((represents_holds w).1 hf) ((represents_holds wo).1 hg)
  exact ⟨T', h1, h2, h3, (represents_holds h2).2 h4⟩

theorem C31_sub [Ring R] (T other : Tiled R) (w : T.WF) (wo : other.WF) (hs : T.sizes = other.sizes)
    (f g : List Nat → R) (hf : T.Represents f) (hg : other.Represents g) :
    ∃ T', T.addTiled (· - ·) (· * (-1)) other = .ok T' ∧ T'.WF ∧ T'.sizes = T.sizes ∧
      T'.Represents fun i => f i - g i := by
  obtain ⟨T', h1, h2, h3, h4⟩ := addTiled_ok (· - ·) (· * (-1)) (by simp) (by simp) w wo hs
    ((represents_holds w).1 hf) ((represents_holds wo).1 hg)
  exact ⟨T', h1, h2, h3, (represents_holds h2).2 h4⟩

/-- **C31 (different layouts).** The sum of tensors with different partitions is rejected. -/
theorem C31_add_throws [Zero R] (op : R → R → R) (neg : R → R) (T other : Tiled R) (h : T.sizes ≠ other.sizes) :
    (T.addTiled op neg other).isError = true := by
  unfold Tiled.addTiled
  rw [if_pos h]; rfl

/-- **C31 (set_all, `T = v`, partial).** If every tile exists, or if the value is zero, every element becomes
the value, whatever the order of the parallel loop.  Missing: tensors with a tile that does not exist
(see `C31_set_all_throws`). -/
theorem C31_set_all_partial [Zero R] [BEq R] [LawfulBEq R] (T : Tiled R) (w : T.WF) (f : List Nat → R)
    (hf : T.Represents f) (v : R) (sched : List Nat) (hs : sched.Perm (List.range T.numTiles))
    (hall : v = 0 ∨ ∀ k, InBox k (gridDims T.sizes) → T.hasTile (toIdx k) = true) :
    ∃ T', T.setAll v sched = .ok T' ∧ T'.WF ∧ T'.sizes = T.sizes ∧ T'.Represents fun _ => v := by
  unfold Tiled.setAll
  by_cases c : v = 0
  · subst c
    rw [if_pos (by simp)]
    exact ⟨_, rfl, zero_wf w, rfl, (represents_holds (zero_wf w)).2 (zero_holds T)⟩
  · rw [if_neg (by simpa using c)]
    obtain ⟨T', h1, h2, h3, _, h4⟩ := gridLoop_ok w ((represents_holds w).1 hf) (fun _ => v) hs
      (by
        intro k hk
        have := (hall.resolve_left c) k hk
        rwa [hasTile_eq hk] at this)
    exact ⟨T', h1, h2, h3, (represents_holds h2).2 h4⟩

/-- **C31 (`T += v`, `T -= v`, partial).** The same for adding or subtracting a number. -/
theorem C31_add_scalar_partial [Zero R] [BEq R] [LawfulBEq R] (op : R → R → R) (hop : ∀ x, op x 0 = x) (T : Tiled R)
    (w : T.WF) (f : List Nat → R) (hf : T.Represents f) (v : R) (sched : List Nat)
    (hs : sched.Perm (List.range T.numTiles))
    (hall : v = 0 ∨ ∀ k, InBox k (gridDims T.sizes) → T.hasTile (toIdx k) = true) :
    ∃ T', T.addScalar op v sched = .ok T' ∧ T'.WF ∧ T'.sizes = T.sizes ∧ T'.Represents fun i => op (f i) v := by
  unfold Tiled.addScalar
  by_cases c : v = 0
  · subst c
    rw [if_pos (by simp)]
    refine ⟨_, rfl, w, rfl, ?_⟩
    simp only [hop]
    exact hf
  · rw [if_neg (by simpa using c)]
    obtain ⟨T', h1, h2, h3, _, h4⟩ := gridLoop_ok w ((represents_holds w).1 hf) (fun x => op x v) hs
      (by
        intro k hk
        have := (hall.resolve_left c) k hk
        rwa [hasTile_eq hk] at this)
    exact ⟨T', h1, h2, h3, (represents_holds h2).2 h4⟩

/-- **C31 (set_all and `+= v`, refuted).** With a non-zero value and a tile that does not exist (its elements
are zero), `set_all(v)`, `T += v` and `T -= v` throw, in every order of the loop. -/
theorem C31_set_all_throws [Zero R] [BEq R] [LawfulBEq R] (T : Tiled R) (w : T.WF) (v : R) (hv : v ≠ 0)
    (op : R → R → R) (sched : List Nat) (hs : sched.Perm (List.range T.numTiles)) (k : List Nat)
    (hk : InBox k (gridDims T.sizes)) (hm : T.hasTile (toIdx k) = false) :
    (T.setAll v sched).isError = true ∧ (T.addScalar op v sched).isError = true := by
  have hn : T.tiles.lookup k = none := by
    rw [hasTile_eq hk] at hm
    simpa using hm
  unfold Tiled.setAll Tiled.addScalar
  rw [if_neg (by simpa using hv), if_neg (by simpa using hv)]
  exact ⟨gridLoop_missing w _ hs hk hn, gridLoop_missing w _ hs hk hn⟩

/-- **C31 (has_tile).** `has_tile` tells whether a tile is stored, with the position given as separate
arguments (negative ones counted from the end). -/
theorem C31_has_tile (T : Tiled R) (idx : List Int) (k : List Nat)
    (h : pyIndices (gridDims T.sizes) idx = some k) :
    T.hasTile idx = true ↔ k ∈ T.tiles.map (·.1) := by
  unfold Tiled.hasTile
  rw [tileCoords_eq h]
  simp only
  cases hl : T.tiles.lookup k with
  | none =>
    refine ⟨fun h => ?_, fun h => (lookup_eq_none.1 hl h).elim⟩
    cases h
  | some τ => exact ⟨fun _ => List.mem_map.2 ⟨_, lookup_mem hl, rfl⟩, fun _ => rfl⟩

/-- **C31 (has_tile with a container, refuted).** Given as an array, a position with a negative coordinate is
reported as having no tile although the same position given as separate arguments has one. -/
theorem C31_has_tile_container_refuted : ∃ T : Tiled Int, T.WF ∧ T.hasTile [-1] = true ∧
    T.hasTileContainer [-1] = false := by
  obtain ⟨T, h1, h2, -⟩ := C31_history (R := Int) [[2]] (by simp) [.set [1] 5] (by simp [TiledOp.Valid])
  have e : runTiled [.set [1] (5 : Int)] (Tiled.mk' [[2]]) = .ok ⟨[[2]], [[0]], [2], [([0], ⟨[0, 5], 0, [2], [1]⟩)]⟩ := by
    decide
  rw [e] at h1
  injection h1 with h1
  subst h1
  exact ⟨_, h2, by decide, by decide⟩

/-- A concrete history on a 3×3 tensor partitioned 2+1 by 1+2: an error is ignored, a tile is created by
reading, everything is scaled. -/
example : ∃ T, runTiled [.set [0, -1] (5 : Int), .set [3, 0] 7, .touch [2, 0], .tile [-1, 1], .mul 3]
      (Tiled.mk' [[2, 1], [1, 2]]) = .ok T ∧ T.get [0, 2] = .ok 15 ∧ T.get [2, 2] = .ok 0 ∧ T.tiles.length = 3 :=
  ⟨_, rfl, by decide, by decide, by decide⟩

example : (TiledOp.tile (R := Int) [-1, 1]).Valid (gridDims [[2, 1], [1, 2]]) := ⟨[1, 1], by decide⟩

end Einsums.Props
