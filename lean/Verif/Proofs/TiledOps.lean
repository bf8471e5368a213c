import Verif.Proofs.Tiled
import Verif.Proofs.TensorAlgebra
import Verif.Props.View
/-
Operations on tiled tensors.
-/
namespace Einsums
open Spec Model

variable {R : Type}

theorem Model.Strided.Frame.isTensor {t t' : Strided R} (f : t.Frame t') (h : t.IsTensor) : t'.IsTensor :=
  ⟨by rw [f.off, h.off], by rw [f.strides, f.dims, h.strides], by rw [f.length, f.dims, h.length]⟩

theorem holds_congr [Zero R] {T : Tiled R} (w : T.WF) {f g : List Nat → R} (h : T.Holds f)
    (e : ∀ j, InBox j (fullDims T.sizes) → f j = g j) : T.Holds g := by
  intro t ht
  obtain ⟨h1, h2⟩ := h t ht
  refine ⟨?_, ?_⟩
  · intro τ hτ l hl
    rw [h1 τ hτ l hl]
    exact congrArg _ (e _ (inTile_full (inTile_global ht (by rw [← (w.tiles t τ hτ).2.2]; exact hl))))
  · intro hn l hl
    rw [← e _ (inTile_full (inTile_global ht hl))]
    exact h2 hn l hl

/-- `tile(k)` for a position in the grid, then the tile itself. -/
theorem tile_at [Zero R] {T : Tiled R} (w : T.WF) {f : List Nat → R} (h : T.Holds f) {k : List Nat}
    (hk : InBox k (gridDims T.sizes)) :
    ∃ T' τ, T.tile (toIdx k) = .ok (T', k) ∧ T'.at k = .ok τ ∧ T'.WF ∧ T'.sizes = T.sizes ∧ T'.dims = T.dims ∧
      T'.offsets = T.offsets ∧ T'.Holds f ∧ τ.IsTensor ∧ τ.dims = tileDims T.sizes k ∧
      τ.Represents (fun l => f (tileGlobal T.sizes k l)) ∧ T'.tiles.lookup k = some τ := by
  obtain ⟨T', e1, w', hs, hd, hex, hh, _⟩ := tile_ok w (pyIndices_toIdx hk)
  cases hl : T'.tiles.lookup k with
  | none => rw [hl] at hex; simp at hex
  | some τ =>
    obtain ⟨_, h2, h3⟩ := w'.tiles k τ hl
    have h4 := ((hh f h) k (by rw [hs]; exact hk)).1 τ hl
    rw [hs] at h3 h4
    refine ⟨T', τ, e1, by unfold Tiled.at; rw [hl], w', hs, hd, ?_, hh f h, h2, h3, h4, hl⟩
    rw [w'.offsets, hs, w.offsets]

theorem localIdx_tile {T : Tiled R} (w : T.WF) {idx : List Int} {t j : List Nat}
    (h : pyIndices T.dims idx = some j) (ht : InTile T.sizes t j) : T.localIdx idx t = toIdx (tileLocal T.sizes t j) := by
  unfold Tiled.localIdx
  rw [w.dims] at h
  rw [w.offsets', w.dims', localIdx_eq h ht]

theorem tileOf_tile {T : Tiled R} (w : T.WF) {idx : List Int} {j : List Nat}
    (h : pyIndices T.dims idx = some j) : ∃ t, T.tileOf idx = .ok t ∧ InTile T.sizes t j := by
  unfold Tiled.tileOf
  rw [w.dims] at h
  rw [w.offsets', w.dims']
  exact tileOfAxes_ok h

theorem tileOf_error {T : Tiled R} (w : T.WF) {idx : List Int}
    (h : pyIndices T.dims idx = none) : (T.tileOf idx).isError = true := by
  unfold Tiled.tileOf
  rw [w.dims] at h
  rw [w.offsets', w.dims']
  exact tileOfAxes_error h

theorem isError_bind {α β : Type} {o : Outcome α} (h : o.isError = true) (k : α → Outcome β) :
    (o >>= k).isError = true := by
  cases o with
  | ok a => simp [Outcome.isError] at h
  | ub a => simp [Outcome.isError] at h
  | error a => rfl

/-- Assignment of one element. -/
theorem set_ok [Zero R] {T : Tiled R} (w : T.WF) {f : List Nat → R} (hf : T.Holds f) {idx : List Int} {j : List Nat}
    (h : pyIndices T.dims idx = some j) (v : R) :
    ∃ T', T.set idx v = .ok T' ∧ T'.WF ∧ T'.sizes = T.sizes ∧ T'.Holds fun i => if i = j then v else f i := by
  obtain ⟨t, e1, ht⟩ := tileOf_tile w h
  have hk := inTile_grid ht
  obtain ⟨T1, τ, e2, e3, w1, hs, hd, ho, hf1, tt, td, tr, tl⟩ := tile_at w hf hk
  obtain ⟨b, e⟩ := inTile_local ht
  obtain ⟨τ', e4, fr, r⟩ := write_represents tt.wf tr (j := tileLocal T.sizes t j) (by rw [td]; exact b) v
  have hloc : T1.localIdx idx t = toIdx (tileLocal T.sizes t j) := by
    rw [localIdx_tile w1 (by rw [hd]; exact h) (by rw [hs]; exact ht), hs]
  refine ⟨T1.setTile t τ', ?_, setTile_wf w1 (fr.isTensor tt) (by rw [fr.dims, td, hs]), hs, ?_⟩
  · unfold Tiled.set
    rw [e1, Outcome.ok_bind, e2, Outcome.ok_bind]
    simp only
    rw [e3, Outcome.ok_bind, hloc, e4, Outcome.ok_bind]
    rfl
  · refine setTile_holds hf1 (by rw [tl]; rfl) ?_ ?_ w1
    · intro l hl
      rw [r l hl]
      rw [fr.dims, td] at hl
      simp only [hs]
      congr 1
      by_cases c : l = tileLocal T.sizes t j
      · subst c
        rw [if_pos rfl, if_pos e]
      · rw [if_neg c, if_neg]
        intro e'
        rw [← e] at e'
        exact c (tileGlobal_inj hk hl hk b e').2
    · rw [hs]
      intro k' hk' hne l hl
      rw [if_neg]
      intro e'
      rw [← e] at e'
      exact hne (tileGlobal_inj hk' hl hk b e').1

theorem set_error [Zero R] {T : Tiled R} (w : T.WF) {idx : List Int} (h : pyIndices T.dims idx = none) (v : R) :
    (T.set idx v).isError = true := by
  unfold Tiled.set
  exact isError_bind (tileOf_error w h) _

theorem get_error [Zero R] {T : Tiled R} (w : T.WF) {idx : List Int} (h : pyIndices T.dims idx = none) :
    (T.get idx).isError = true := by
  unfold Tiled.get
  exact isError_bind (tileOf_error w h) _

theorem getMut_error [Zero R] {T : Tiled R} (w : T.WF) {idx : List Int} (h : pyIndices T.dims idx = none) :
    (T.getMut idx).isError = true := by
  unfold Tiled.getMut
  exact isError_bind (tileOf_error w h) _

/-- Reading through a non-const tensor. -/
theorem getMut_ok [Zero R] {T : Tiled R} (w : T.WF) {f : List Nat → R} (hf : T.Holds f) {idx : List Int} {j : List Nat}
    (h : pyIndices T.dims idx = some j) :
    ∃ T', T.getMut idx = .ok (T', f j) ∧ T'.WF ∧ T'.sizes = T.sizes ∧ T'.Holds f := by
  obtain ⟨t, e1, ht⟩ := tileOf_tile w h
  have hk := inTile_grid ht
  obtain ⟨T1, τ, e2, e3, w1, hs, hd, ho, hf1, tt, td, tr, tl⟩ := tile_at w hf hk
  obtain ⟨b, e⟩ := inTile_local ht
  have hloc : T1.localIdx idx t = toIdx (tileLocal T.sizes t j) := by
    rw [localIdx_tile w1 (by rw [hd]; exact h) (by rw [hs]; exact ht), hs]
  refine ⟨T1, ?_, w1, hs, hf1⟩
  unfold Tiled.getMut
  rw [e1, Outcome.ok_bind, e2, Outcome.ok_bind]
  simp only
  rw [e3, Outcome.ok_bind, hloc, tr _ (by rw [td]; exact b), Outcome.ok_bind]
  simp only [e]
  rfl

/-! ### Loops over tiles -/

/-- A loop that updates the elements of one tile after the other. -/
theorem tileLoop [Zero R] {β : Type} {T : Tiled R} (w : T.WF) {f : List Nat → R} (hf : T.Holds f) (I : Tiled R → Prop) (hI : I T)
    (κ : β → List Nat) (step : Tiled R → β → Outcome (Tiled R)) (G : List Nat → R → R) (l : List β)
    (hn : (l.map κ).Nodup)
    (hstep : ∀ b ∈ l, ∀ T1 f1, T1.sizes = T.sizes → T1.WF → I T1 → T1.Holds f1 →
      (∀ i, InTile T.sizes (κ b) i → f1 i = f i) →
      ∃ T2 f2, step T1 b = .ok T2 ∧ T2.WF ∧ T2.sizes = T.sizes ∧ I T2 ∧ T2.Holds f2 ∧
        (∀ i, InTile T.sizes (κ b) i → f2 i = G i (f1 i)) ∧
        (∀ i, InBox i (fullDims T.sizes) → ¬ InTile T.sizes (κ b) i → f2 i = f1 i)) :
    ∃ T' f', l.foldlM step T = .ok T' ∧ T'.WF ∧ T'.sizes = T.sizes ∧ I T' ∧ T'.Holds f' ∧
      (∀ b ∈ l, ∀ i, InTile T.sizes (κ b) i → f' i = G i (f i)) ∧
      (∀ i, InBox i (fullDims T.sizes) → (∀ b ∈ l, ¬ InTile T.sizes (κ b) i) → f' i = f i) := by
  induction l generalizing T f with
  | nil => exact ⟨T, f, rfl, w, rfl, hI, hf, by simp, by simp⟩
  | cons b l ih =>
    obtain ⟨T1, f1, h1, w1, s1, i1, r1, k1, k2⟩ := hstep b (by simp) T f rfl w hI hf (fun _ _ => rfl)
    rw [List.map_cons, List.nodup_cons] at hn
    have hdis : ∀ b' ∈ l, ∀ i, InTile T.sizes (κ b') i → ¬ InTile T.sizes (κ b) i := by
      intro b' hb' i h1 h2
      exact hn.1 (inTile_unique h2 h1 ▸ List.mem_map_of_mem hb')
    obtain ⟨T', f', h2, w2, s2, i2, r2, k3, k4⟩ := ih w1 r1 i1 hn.2 (by
      intro b' hb' T1' f1' e we ie he ho
      rw [s1] at e ho ⊢
      refine hstep b' (by simp [hb']) T1' f1' e we ie he ?_
      intro i hi
      rw [ho i hi, k2 i (inTile_full hi) (hdis b' hb' i hi)])
    rw [s1] at k3 k4 s2
    refine ⟨T', f', ?_, w2, s2, i2, r2, ?_, ?_⟩
    · rw [List.foldlM_cons, h1, Outcome.ok_bind, h2]
    · intro b' hb' i hi
      rcases List.mem_cons.1 hb' with rfl | hb'
      · rw [k4 i (inTile_full hi) (fun b'' hb'' hc => hdis b'' hb'' i hc hi), k1 i hi]
      · rw [k3 b' hb' i hi, k2 i (inTile_full hi) (hdis b' hb' i hi)]
    · intro i hi hno
      rw [k4 i hi (fun b' hb' => hno b' (by simp [hb'])), k2 i hi (hno b (by simp))]

/-- Replacing the contents of one tile. -/
theorem setTile_update [Zero R] {T : Tiled R} (w : T.WF) {f g : List Nat → R} (h : T.Holds f) {k : List Nat}
    (hk : InBox k (gridDims T.sizes)) (hex : (T.tiles.lookup k).isSome) {t : Strided R} (ht : t.IsTensor)
    (hd : t.dims = tileDims T.sizes k) (hg : t.Represents fun l => g (tileGlobal T.sizes k l)) [∀ i, Decidable (InTile T.sizes k i)] :
    (T.setTile k t).WF ∧ (T.setTile k t).Holds fun i => if InTile T.sizes k i then g i else f i := by
  refine ⟨setTile_wf w ht hd, setTile_holds h hex ?_ ?_ w⟩
  · intro l hl
    rw [hg l hl]
    simp only
    rw [if_pos (inTile_global hk (by rw [← hd]; exact hl))]
  · intro k' hk' hne l hl
    rw [if_neg]
    intro hc
    exact hne (inTile_unique (inTile_global hk' hl) hc)

/-! ### Positions of the grid -/

theorem gridIndex_inBox {gs : List Nat} {i : Nat} (h : i < numel gs) : InBox (gridIndex gs i) gs := by
  induction gs generalizing i with
  | nil => trivial
  | cons g gs ih =>
    have hg : 0 < g := by
      rcases Nat.eq_zero_or_pos g with rfl | h'
      · simp [numel] at h
      · exact h'
    exact ⟨Nat.mod_lt _ hg, ih (by rw [Nat.div_lt_iff_lt_mul hg, Nat.mul_comm]; exact h)⟩

theorem gridIndex_inj {gs : List Nat} {i j : Nat} (hi : i < numel gs) (hj : j < numel gs)
    (e : gridIndex gs i = gridIndex gs j) : i = j := by
  induction gs generalizing i j with
  | nil => simp [numel] at hi hj; omega
  | cons g gs ih =>
    have hg : 0 < g := by
      rcases Nat.eq_zero_or_pos g with rfl | h'
      · simp [numel] at hi
      · exact h'
    simp only [gridIndex, List.cons.injEq] at e
    have := ih (by rw [Nat.div_lt_iff_lt_mul hg, Nat.mul_comm]; exact hi)
      (by rw [Nat.div_lt_iff_lt_mul hg, Nat.mul_comm]; exact hj) e.2
    rw [← Nat.div_add_mod i g, ← Nat.div_add_mod j g, e.1, this]

/-- The decomposition enumerates every position of the grid once. -/
theorem map_gridIndex_perm (gs : List Nat) : ((List.range (numel gs)).map (gridIndex gs)).Perm (box gs) := by
  apply List.Subperm.perm_of_length_le
  · apply List.subperm_of_subset
    · refine List.Nodup.map_on ?_ List.nodup_range
      intro a ha b hb e
      exact gridIndex_inj (List.mem_range.1 ha) (List.mem_range.1 hb) e
    · intro x hx
      obtain ⟨a, ha, rfl⟩ := List.mem_map.1 hx
      exact mem_box.2 (gridIndex_inBox (List.mem_range.1 ha))
  · rw [length_box]; simp

theorem numTiles_eq {T : Tiled R} (w : T.WF) : T.numTiles = numel (gridDims T.sizes) := by
  unfold Tiled.numTiles
  rw [foldl_mul_numel, Nat.one_mul, w.offsets', List.map_map]
  congr 1
  apply List.map_congr_left
  intro s _
  exact offsetsLoop_length _ _

/-- The loop `_tiles.at(index) OP= value` when every tile exists. -/
theorem gridLoop_ok [Zero R] {T : Tiled R} (w : T.WF) {f : List Nat → R} (hf : T.Holds f) (g : R → R) {sched : List Nat}
    (hs : sched.Perm (List.range T.numTiles))
    (hall : ∀ k, InBox k (gridDims T.sizes) → (T.tiles.lookup k).isSome) :
    ∃ T', T.gridLoop g sched = .ok T' ∧ T'.WF ∧ T'.sizes = T.sizes ∧
      (∀ k, InBox k (gridDims T.sizes) → (T'.tiles.lookup k).isSome) ∧ T'.Holds fun i => g (f i) := by
  classical
  rw [numTiles_eq w] at hs
  have hperm := (hs.map (gridIndex (gridDims T.sizes))).trans (map_gridIndex_perm _)
  have hmem : ∀ i ∈ sched, InBox (gridIndex (gridDims T.sizes) i) (gridDims T.sizes) := fun i hi =>
    mem_box.1 (hperm.mem_iff.1 (List.mem_map_of_mem hi))
  obtain ⟨T', f', h1, w', s', i', h', k1, k2⟩ := tileLoop w hf
    (fun T1 => ∀ k, InBox k (gridDims T.sizes) → (T1.tiles.lookup k).isSome) hall
    (gridIndex (gridDims T.sizes)) (fun (T : Tiled R) i => do
      let k := gridIndex (T.sizes.map List.length) i
      let t ← T.at k
      return T.setTile k { t with data := t.data.map g }) (fun _ x => g x) sched
    (hperm.nodup_iff.2 (nodup_box _)) (by
      intro i hi T1 f1 s1 w1 hall1 h1 _
      have hk := hmem i hi
      have hex := hall1 _ hk
      cases hl : T1.tiles.lookup (gridIndex (gridDims T.sizes) i) with
      | none => rw [hl] at hex; simp at hex
      | some τ =>
        have hk1 : InBox (gridIndex (gridDims T.sizes) i) (gridDims T1.sizes) := by rw [s1]; exact hk
        have hm := map_data_represents (w1.tiles _ τ hl).2.1 ((h1 _ hk1).1 τ hl) g
        obtain ⟨w2, h2⟩ := setTile_update w1 h1 hk1 (by rw [hl]; rfl) hm.1 (by exact (w1.tiles _ τ hl).2.2)
          (g := fun i => g (f1 i)) hm.2
        refine ⟨_, _, ?_, w2, s1, ?_, h2, ?_, ?_⟩
        · simp only [s1]
          change (T1.at (gridIndex (gridDims T.sizes) i) >>= fun t => pure
            (T1.setTile (gridIndex (gridDims T.sizes) i) { t with data := t.data.map g })) = _
          unfold Tiled.at
          rw [hl]
          rfl
        · intro k hk'
          rw [lookup_setTile]
          split
          · rw [hl]; rfl
          · exact hall1 k hk'
        · intro x hx
          rw [s1, if_pos hx]
        · intro x _ hx
          rw [s1, if_neg hx])
  refine ⟨T', h1, w', s', i', holds_congr w' h' ?_⟩
  intro j hj
  rw [s'] at hj
  obtain ⟨t, ht⟩ := exists_inTile hj
  obtain ⟨b, hb, e⟩ := List.mem_map.1 (hperm.mem_iff.2 (mem_box.2 (inTile_grid ht)))
  exact k1 b hb j (e ▸ ht)

theorem foldlM_error {α β : Type} {step : α → β → Outcome α} (l : List β) (a : α)
    (P : α → Prop) (hP : P a) (h1 : ∀ a b, b ∈ l → P a → (step a b).isError = true ∨ ∃ a', step a b = .ok a' ∧ P a')
    (b : β) (hb : b ∈ l) (h2 : ∀ a, P a → (step a b).isError = true) : (l.foldlM step a).isError = true := by
  induction l generalizing a with
  | nil => simp at hb
  | cons c l ih =>
    rw [List.foldlM_cons]
    rcases h1 a c (by simp) hP with h | ⟨a', e, hp'⟩
    · exact isError_bind h _
    · rw [e, Outcome.ok_bind]
      rcases List.mem_cons.1 hb with rfl | hb
      · have := h2 a hP
        rw [e] at this
        simp [Outcome.isError] at this
      · exact ih a' hp' (fun a b hb => h1 a b (by simp [hb])) hb

/-- The same loop when a tile is missing. -/
theorem gridLoop_missing {T : Tiled R} (w : T.WF) (g : R → R) {sched : List Nat}
    (hs : sched.Perm (List.range T.numTiles)) {k : List Nat} (hk : InBox k (gridDims T.sizes))
    (hn : T.tiles.lookup k = none) : (T.gridLoop g sched).isError = true := by
  rw [numTiles_eq w] at hs
  have hperm := (hs.map (gridIndex (gridDims T.sizes))).trans (map_gridIndex_perm _)
  obtain ⟨b, hb, e⟩ := List.mem_map.1 (hperm.mem_iff.2 (mem_box.2 hk))
  refine foldlM_error sched T (fun T1 => T1.sizes = T.sizes ∧ T1.tiles.lookup k = none) ⟨rfl, hn⟩ ?_ b hb ?_
  · rintro T1 i hi ⟨s1, n1⟩
    simp only
    unfold Tiled.at
    cases hl : T1.tiles.lookup (gridIndex (T1.sizes.map List.length) i) with
    | none => left; rfl
    | some τ =>
      right
      refine ⟨_, rfl, s1, ?_⟩
      rw [lookup_setTile]
      split
      · rename_i e; rw [← e, n1]; rfl
      · exact n1
  · rintro T1 ⟨s1, n1⟩
    simp only [s1]
    unfold Tiled.at
    change ((match T1.tiles.lookup (gridIndex (gridDims T.sizes) b) with
      | some t => Outcome.ok t
      | none => .error "std::out_of_range") >>= _).isError = true
    rw [e, n1]
    rfl

/-! ### Whole-tensor operations -/

theorem compoundTensor_range (op : R → R → R) {t u : Strided R} (ht : t.IsTensor) (hu : u.IsTensor)
    (he : t.dims = u.dims) {f g : List Nat → R} (hf : t.Represents f) (hg : u.Represents g) :
    ∃ t', t.compoundTensor op u (List.range t.data.length) = .ok t' ∧ t'.dims = t.dims ∧ t'.IsTensor ∧
      t'.Represents fun i => op (f i) (g i) := by
  rcases isEmpty_or_nonempty R with hE | ⟨⟨r⟩⟩
  · have h1 : t.data = [] := by
      cases h : t.data with
      | nil => rfl
      | cons a _ => exact (hE.false a).elim
    refine ⟨t, ?_, rfl, ht, ?_⟩
    · unfold Strided.compoundTensor
      rw [if_neg (by simp [he])]
      have : List.range t.data.length = [] := by rw [h1]; rfl
      rw [this]
      rfl
    · intro i hi
      exact (hE.false (f i)).elim
  · have : Inhabited R := ⟨r⟩
    have hl : t.data.length = u.data.length := by rw [ht.length, hu.length, he]
    have hti : ({ t with data := t.data.zipWith op u.data } : Strided R).IsTensor :=
      ⟨ht.off, ht.strides, by simp [ht.length, hu.length, he]⟩
    refine ⟨{ t with data := t.data.zipWith op u.data }, ?_, rfl, hti, ?_⟩
    · unfold Strided.compoundTensor
      rw [if_neg (by simp [he]), Props.compoundLoop_eq]
      · simp only [Outcome.ok_bind]
        rw [modifyAll_full _ _ _ (List.Perm.refl _)]
        congr 2
        apply List.ext_getElem?
        intro p
        rw [List.getElem?_mapIdx, List.getElem?_zipWith]
        by_cases h : p < t.data.length
        · rw [List.getElem?_eq_getElem h, List.getElem?_eq_getElem (hl ▸ h)]
          simp [List.getD_eq_getElem?_getD, List.getElem?_eq_getElem (hl ▸ h)]
        · simp [List.getElem?_eq_none (Nat.le_of_not_lt h)]
      · intro p hp
        rw [← hl]; exact List.mem_range.1 hp
    · rw [hti.represents_iff]
      simp only
      rw [ht.represents_iff.1 hf, hu.represents_iff.1 hg, he]
      simp [List.zipWith_map, List.zipWith_self]

/-- `T += other` / `T -= other` tile by tile. -/
theorem addTiled_ok [Zero R] (op : R → R → R) (neg : R → R) (hneg : ∀ x, neg x = op 0 x) (hop0 : ∀ x, op x 0 = x)
    {T O : Tiled R} (w : T.WF) (wO : O.WF) (hs : T.sizes = O.sizes) {f g : List Nat → R} (hf : T.Holds f)
    (hg : O.Holds g) :
    ∃ T', T.addTiled op neg O = .ok T' ∧ T'.WF ∧ T'.sizes = T.sizes ∧ T'.Holds fun i => op (f i) (g i) := by
  classical
  have hkey : ∀ p ∈ O.tiles, O.tiles.lookup p.1 = some p.2 := fun p hp => lookup_of_mem wO.nodup hp
  unfold Tiled.addTiled
  rw [if_neg (by simpa using hs)]
  obtain ⟨T', f', h1, w', s', _, h', k1, k2⟩ := tileLoop w hf (fun _ => True) trivial
    (fun p : List Nat × Strided R => p.1) (fun (T : Tiled R) p =>
    if T.hasTileContainer (toIdx p.1) then do
      let t ← T.at p.1
      let t ← t.compoundTensor op p.2 (List.range t.data.length)
      return T.setTile p.1 t
    else return (T.addTile p.1).setTile p.1 { p.2 with data := p.2.data.map neg }) (fun i x => op x (g i)) O.tiles
    wO.nodup (by
      intro p hp T1 f1 s1 w1 _ h1 _
      obtain ⟨b1, b2, b3⟩ := wO.tiles p.1 p.2 (hkey p hp)
      have rg := (hg p.1 b1).1 p.2 (hkey p hp)
      rw [← hs] at b1 b3 rg
      have b1' : InBox p.1 (gridDims T1.sizes) := by rw [s1]; exact b1
      rw [hasTileContainer_eq b1']
      cases hl : T1.tiles.lookup p.1 with
      | some τ =>
        obtain ⟨_, t2, t3⟩ := w1.tiles p.1 τ hl
        obtain ⟨t', e1, e2, e3, e4⟩ := compoundTensor_range op t2 b2 (by rw [t3, b3, s1]) ((h1 p.1 b1').1 τ hl) rg
        obtain ⟨w2, h2⟩ := setTile_update w1 h1 b1' (by rw [hl]; rfl) e3 (by rw [e2, t3])
          (g := fun i => op (f1 i) (g i)) (by rw [s1]; rw [s1] at e4; exact e4)
        refine ⟨_, _, ?_, w2, s1, trivial, h2, ?_, ?_⟩
        · simp only [Option.isSome_some, if_true]
          unfold Tiled.at
          rw [hl]
          simp only [Outcome.ok_bind, e1]
          rfl
        · intro x hx
          rw [s1, if_pos hx]
        · intro x _ hx
          rw [s1, if_neg hx]
      | none =>
        obtain ⟨w2, s2, _⟩ := addTile_wf w1 b1' hl
        have h2 := addTile_holds w1 b1' hl h1
        have hm := map_data_represents b2 rg neg
        obtain ⟨w3, h3⟩ := setTile_update w2 h2 (k := p.1) (by rw [s2]; exact b1')
          (by rw [lookup_addTile hl]; simp) hm.1 (by simp only; rw [b3, s2, s1])
          (g := fun i => op 0 (g i)) (by
            rw [s2, s1]
            intro l hl'
            rw [hm.2 l hl']
            exact congrArg _ (hneg _))
        refine ⟨_, _, rfl, w3, ?_, trivial, h3, ?_, ?_⟩
        · change (T1.addTile p.1).sizes = _
          rw [s2, s1]
        · intro x hx
          rw [s2, s1, if_pos hx]
          obtain ⟨b, e⟩ := inTile_local hx
          rw [← e]
          have := (h1 p.1 b1').2 hl (tileLocal T.sizes p.1 x) (by rw [s1]; exact b)
          rw [s1] at this
          rw [this]
        · intro x _ hx
          rw [s2, s1, if_neg hx])
  refine ⟨T', h1, w', s', holds_congr w' h' ?_⟩
  intro j hj
  rw [s'] at hj
  by_cases hex : ∃ p ∈ O.tiles, InTile T.sizes p.1 j
  · obtain ⟨p, hp, hi⟩ := hex
    exact k1 p hp j hi
  · rw [k2 j hj (fun b hb hc => hex ⟨b, hb, hc⟩)]
    obtain ⟨t, ht⟩ := exists_inTile hj
    have hn : O.tiles.lookup t = none := by
      cases hl : O.tiles.lookup t with
      | none => rfl
      | some τ => exact (hex ⟨(t, τ), lookup_mem hl, ht⟩).elim
    obtain ⟨b, e⟩ := inTile_local ht
    rw [hs] at ht b e
    have := (hg t (inTile_grid ht)).2 hn _ b
    rw [e] at this
    rw [this, hop0]

/-- Assignment from another tensor. -/
theorem assign_ok [Zero R] {O : Tiled R} (wO : O.WF) {g : List Nat → R} (hg : O.Holds g) :
    (Tiled.assign false O).WF ∧ (Tiled.assign false O).sizes = O.sizes ∧ (Tiled.assign false O).Holds g := by
  have main : ∀ (l : List (List Nat × Strided R)) (T : Tiled R), T.WF → T.sizes = O.sizes →
      (∀ p ∈ l, O.tiles.lookup p.1 = some p.2) → (l.map (·.1)).Nodup → (∀ p ∈ l, T.tiles.lookup p.1 = none) →
      ∃ T', l.foldl (fun (T : Tiled R) p => (T.addTile p.1).setTile p.1 p.2) T = T' ∧ T'.WF ∧ T'.sizes = O.sizes ∧
        (∀ p ∈ l, T'.tiles.lookup p.1 = some p.2) ∧ ∀ k, k ∉ l.map (·.1) → T'.tiles.lookup k = T.tiles.lookup k := by
    intro l
    induction l with
    | nil => intro T w s _ _ _; exact ⟨T, rfl, w, s, by simp, by simp⟩
    | cons p l ih =>
      intro T w s ho hn hnone
      obtain ⟨b1, b2, b3⟩ := wO.tiles p.1 p.2 (ho p (by simp))
      rw [← s] at b1 b3
      have hl := hnone p (by simp)
      obtain ⟨w1, s1, _⟩ := addTile_wf w b1 hl
      have w2 := setTile_wf (k := p.1) w1 b2 (by rw [b3, s1])
      have hlk : ∀ k, ((T.addTile p.1).setTile p.1 p.2).tiles.lookup k = if k = p.1 then some p.2 else T.tiles.lookup k := by
        intro k
        rw [lookup_setTile]
        split
        · rw [lookup_addTile hl]; simp
        · rename_i e; rw [lookup_addTile hl, if_neg e]
      rw [List.map_cons, List.nodup_cons] at hn
      obtain ⟨T', h1, h2, h3, h4, h5⟩ := ih _ w2 (s1.trans s) (fun q hq => ho q (by simp [hq])) hn.2 (by
        intro q hq
        have hne : q.1 ≠ p.1 := fun e => hn.1 (e ▸ List.mem_map_of_mem hq)
        rw [hlk, if_neg hne, hnone q (by simp [hq])])
      refine ⟨T', h1, h2, h3, ?_, ?_⟩
      · intro q hq
        rcases List.mem_cons.1 hq with rfl | hq
        · rw [h5 _ hn.1, hlk, if_pos rfl]
        · exact h4 q hq
      · intro k hk
        simp only [List.map_cons, List.mem_cons, not_or] at hk
        rw [h5 k hk.2, hlk, if_neg hk.1]
  obtain ⟨T', h1, h2, h3, h4, h5⟩ := main O.tiles ⟨O.sizes, O.offsets, O.dims, []⟩
    ⟨wO.rank, wO.offsets, wO.dims, by simp, by simp⟩ rfl (fun p hp => lookup_of_mem wO.nodup hp) wO.nodup (by simp)
  have : Tiled.assign false O = T' := by unfold Tiled.assign; simpa using h1
  rw [this]
  refine ⟨h2, h3, ?_⟩
  intro t ht
  rw [h3] at ht ⊢
  have hlk : T'.tiles.lookup t = O.tiles.lookup t := by
    cases hl : O.tiles.lookup t with
    | some τ => exact h4 (t, τ) (lookup_mem hl)
    | none => rw [h5 t (lookup_eq_none.1 hl)]; rfl
  rw [hlk]
  exact hg t ht

/-- Conversion to a dense tensor. -/
theorem toDense_ok [Zero R] {T : Tiled R} (w : T.WF) {f : List Nat → R} (hf : T.Holds f) :
    ∃ D, T.toDense = .ok D ∧ D.IsTensor ∧ D.dims = T.dims ∧ D.Represents f := by
  have hd : T.dims ≠ [] := by
    rw [w.dims]
    intro e
    exact w.rank (List.map_eq_nil_iff.1 e)
  have ht := isTensor_mk' (fun _ => (0 : R)) hd
  have hdm : (Strided.mk' (fun _ => (0 : R)) T.dims).dims = T.dims := rfl
  obtain ⟨D, h1, fr, r⟩ := updateAll ht.wf (zeros_represents hd) (List.Perm.refl _) (fun i _ => f i)
    (fun (out : Strided R) i => do
      let v ← T.get (toIdx i)
      out.write (toIdx i) v) (by
      intro C' i f' hi _ _
      rw [holds_get w hf (pyIndices_toIdx hi), Outcome.ok_bind])
  refine ⟨D, ?_, fr.isTensor ht, fr.dims, r⟩
  unfold Tiled.toDense
  rw [cartesian_eq_box]
  exact h1

end Einsums
