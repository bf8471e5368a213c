import Verif.Proofs.TiledLinAlg
import Verif.Proofs.DotPath
/-
dot, direct_product and gemv of tiled tensors.
-/
namespace Einsums
open Spec Model

variable {R : Type}

/-! ### dot -/

theorem dotStrides_eq (gs ds : List Nat) :
    dotStrides gs (dimsToStrides ds).1 (dimsToStrides ds).2 = (dimsToStrides (gs.reverse ++ ds)).2 := by
  induction gs generalizing ds with
  | nil => rfl
  | cons g gs ih =>
    have h1 := ih (g :: ds)
    have : dimsToStrides (g :: ds) = ((dimsToStrides ds).1 * g, (dimsToStrides ds).1 :: (dimsToStrides ds).2) := rfl
    rw [this] at h1
    simp only [dotStrides, List.reverse_cons, List.append_assoc, List.singleton_append]
    exact h1

theorem dotStrides_one (gs : List Nat) : dotStrides gs 1 [] = (dimsToStrides gs.reverse).2 := by
  have := dotStrides_eq gs []
  simpa [dimsToStrides] using this

theorem hasTileContainer_out {T : Tiled R} {k : List Nat} (h : ¬ InBox k (gridDims T.sizes))
    (hl : k.length = T.sizes.length) : T.hasTileContainer (toIdx k) = false := by
  unfold Tiled.hasTileContainer
  rw [if_neg (by simp [toIdx])]
  unfold Tiled.hasTile Tiled.tileCoords
  have key : ∀ (parts : List (List Nat)) (k : List Nat), k.length = parts.length → ¬ InBox k (gridDims parts) →
      ((normIdx (parts.map List.length) (toIdx k)).zip parts).all
        (fun p => decide (0 ≤ p.1) && decide (p.1 < p.2.length)) = false := by
    intro parts
    induction parts with
    | nil =>
      intro k hl h
      cases k with
      | nil => exact (h trivial).elim
      | cons => simp at hl
    | cons ss parts ih =>
      intro k hl h
      cases k with
      | nil => simp at hl
      | cons a k =>
        simp only [List.map_cons, toIdx, normIdx, List.zip_cons_cons, List.all_cons]
        rw [if_neg (by simp)]
        by_cases c : a < ss.length
        · have := ih k (by simpa using hl) (fun h' => h ⟨c, h'⟩)
          simp only [toIdx] at this
          rw [this, Bool.and_false]
        · have : decide ((Int.ofNat a) < ss.length) = false := by simpa using Nat.le_of_not_lt c
          rw [this]; simp
  simp only
  rw [if_neg]
  rintro ⟨_, h2⟩
  rw [key _ _ hl h] at h2
  simp at h2

theorem hasZeroSize_iff {T : Tiled R} {k : List Nat} (_ : InBox k (gridDims T.sizes)) :
    T.hasZeroSize k = true ↔ 0 ∈ tileDims T.sizes k := by
  unfold Tiled.hasZeroSize
  rw [← tileDims_zip]
  simp only [List.any_eq_true, beq_iff_eq, List.mem_map]

theorem box_of_zero {ds : List Nat} (h : 0 ∈ ds) : box ds = [] := by
  apply List.eq_nil_of_length_eq_zero
  rw [length_box]
  induction ds with
  | nil => simp at h
  | cons d ds ih =>
    rcases List.mem_cons.1 h with h | h
    · simp [numel, ← h]
    · simp [numel, ih h]

/-- Multi-indices of a tiled tensor, tile after tile. -/
theorem tiles_perm (parts : List (List Nat)) :
    ((box (gridDims parts)).flatMap fun k => (box (tileDims parts k)).map (tileGlobal parts k)).Perm
      (box (fullDims parts)) := by
  rw [List.perm_ext_iff_of_nodup ?_ (nodup_box _)]
  · intro j
    rw [List.mem_flatMap, mem_box]
    constructor
    · rintro ⟨k, hk, h⟩
      obtain ⟨l, hl, rfl⟩ := List.mem_map.1 h
      exact inTile_full (inTile_global (mem_box.1 hk) (mem_box.1 hl))
    · intro h
      obtain ⟨t, ht⟩ := exists_inTile h
      obtain ⟨b, e⟩ := inTile_local ht
      exact ⟨t, mem_box.2 (inTile_grid ht), List.mem_map.2 ⟨_, mem_box.2 b, e⟩⟩
  · rw [List.nodup_flatMap]
    refine ⟨?_, ?_⟩
    · intro k hk
      refine List.Nodup.map_on ?_ (nodup_box _)
      intro a ha b hb e
      exact (tileGlobal_inj (mem_box.1 hk) (mem_box.1 ha) (mem_box.1 hk) (mem_box.1 hb) e).2
    · refine List.Pairwise.imp_of_mem ?_ (nodup_box (gridDims parts))
      intro k k' hk hk' hne x hx hx'
      obtain ⟨l, hl, rfl⟩ := List.mem_map.1 hx
      obtain ⟨l', hl', e⟩ := List.mem_map.1 hx'
      exact hne (tileGlobal_inj (mem_box.1 hk) (mem_box.1 hl) (mem_box.1 hk') (mem_box.1 hl') e.symm).1

theorem sum_tiles [AddCommMonoid R] (parts : List (List Nat)) (g : List Nat → R) :
    ((box (gridDims parts)).map fun k => ((box (tileDims parts k)).map fun l => g (tileGlobal parts k l)).sum).sum
      = ((box (fullDims parts)).map g).sum := by
  rw [← ((tiles_perm parts).map g).sum_eq, List.map_flatMap]
  simp only [List.map_map, Function.comp_def]
  induction box (gridDims parts) with
  | nil => rfl
  | cons k ks ih => rw [List.map_cons, List.sum_cons, ih, List.flatMap_cons, List.sum_append]

section
variable [CommSemiring R] [BEq R]

theorem dotTile_ok {A B : Tiled R} {fA fB : List Nat → R} (wA : A.WF) (wB : B.WF) (hA : A.Holds fA) (hB : B.Holds fB)
    (hs : B.sizes = A.sizes) {k : List Nat} (hl : k.length = A.sizes.length) :
    dotTile A B k = .ok (if k ∈ box (gridDims A.sizes) then
      ((box (tileDims A.sizes k)).map fun l => fA (tileGlobal A.sizes k l) * fB (tileGlobal A.sizes k l)).sum else 0) := by
  unfold dotTile
  by_cases hk : InBox k (gridDims A.sizes)
  · have hkB : InBox k (gridDims B.sizes) := by rw [hs]; exact hk
    rw [if_pos (mem_box.2 hk), hasTileContainer_eq hk, hasTileContainer_eq hkB]
    cases ha : A.tiles.lookup k with
    | none =>
      rw [if_pos (by simp)]
      congr 1
      symm
      apply List.sum_eq_zero
      intro x hx
      obtain ⟨l, hl, rfl⟩ := List.mem_map.1 hx
      simp only [(hA k hk).2 ha l (mem_box.1 hl), zero_mul]
    | some α =>
      cases hb : B.tiles.lookup k with
      | none =>
        rw [if_pos (by simp)]
        congr 1
        symm
        apply List.sum_eq_zero
        intro x hx
        obtain ⟨l, hl, rfl⟩ := List.mem_map.1 hx
        have := (hB k hkB).2 hb l (by rw [hs]; exact mem_box.1 hl)
        rw [hs] at this
        simp only [this, mul_zero]
      | some β =>
        by_cases hz : A.hasZeroSize k = true
        · rw [if_pos (by simp [hz]), box_of_zero ((hasZeroSize_iff hk).1 hz)]
          rfl
        · have hzB : B.hasZeroSize k = false := by
            cases h : B.hasZeroSize k with
            | false => rfl
            | true =>
              have := (hasZeroSize_iff hkB).1 h
              rw [hs] at this
              exact (hz ((hasZeroSize_iff hk).2 this)).elim
          rw [if_neg (by simp [hz, hzB]), tileConst_eq hk, tileConst_eq hkB]
          have eα : A.at k = .ok α := by unfold Tiled.at; rw [ha]
          have eβ : B.at k = .ok β := by unfold Tiled.at; rw [hb]
          rw [eα, eβ, Outcome.ok_bind, Outcome.ok_bind]
          obtain ⟨_, tα, dα⟩ := wA.tiles _ _ ha
          obtain ⟨_, tβ, dβ⟩ := wB.tiles _ _ hb
          have rα := (hA _ hk).1 _ ha
          have rβ := (hB _ hkB).1 _ hb
          rw [hs] at dβ rβ
          have := dotOp_eq (A := ⟨α, false, true⟩) (B := ⟨β, false, true⟩) (by simp only [dα, dβ]) (by
            simp only [dα]
            intro e
            have h0 := tileDims_length hk
            rw [e] at h0
            exact wA.rank (List.length_eq_zero_iff.1 h0.symm)) tα.wf tβ.wf (fun _ => tα.rowMajor) (fun _ => tβ.rowMajor)
            rα rβ
          simp only [dotOp, Bool.and_self, if_true] at this
          rw [this, dα]
  · rw [hasTileContainer_out hk hl, if_pos (by simp), if_neg (fun h => hk (mem_box.1 h))]

omit [BEq R] in
theorem sumLoop_perm {term : Nat → Outcome R} {n : Nat} {sched : List Nat} (hs : sched.Perm (List.range n)) (v : Nat → R)
    (h : ∀ i, i < n → term i = .ok (v i)) : sumLoop term sched 0 = .ok ((List.range n).map v).sum := by
  rw [sumLoop_eq v (fun l hl => h l (List.mem_range.1 (hs.mem_iff.1 hl))), foldl_add_sum, zero_add,
    (hs.map v).sum_eq]

omit [CommSemiring R] [BEq R] in
theorem gridSize_eq (T : Tiled R) : T.gridSize = numel (gridDims T.sizes) := by
  unfold Tiled.gridSize
  rw [foldl_mul_numel, Nat.one_mul]
  rfl

theorem numel_reverse (ds : List Nat) : numel ds.reverse = numel ds := by
  rw [← Nat.one_mul (numel ds.reverse), ← foldl_mul_numel, ← Nat.one_mul (numel ds), ← foldl_mul_numel]
  exact (List.reverse_perm ds).foldl_eq (rcomm := ⟨fun a b c => Nat.mul_right_comm a b c⟩) 1

theorem tiledDot_ok {A B : Tiled R} {fA fB : List Nat → R} (wA : A.WF) (wB : B.WF) (hA : A.Holds fA) (hB : B.Holds fB)
    (hs : B.sizes = A.sizes) {sched : List Nat} (hp : sched.Perm (List.range A.gridSize)) :
    tiledDot A B sched = .ok ((box (gridDims A.sizes).reverse).map fun k => if k ∈ box (gridDims A.sizes) then
      ((box (tileDims A.sizes k)).map fun l => fA (tileGlobal A.sizes k l) * fB (tileGlobal A.sizes k l)).sum
      else 0).sum := by
  unfold tiledDot
  rw [if_neg (by simp [hs])]
  rw [gridSize_eq] at hp
  change sumLoop (fun index => dotTile A B (sentinelToIndices index (dotStrides (gridDims A.sizes) 1 []))) sched 0 = _
  rw [dotStrides_one]
  rw [sumLoop_perm hp (fun index => if unflat (gridDims A.sizes).reverse index ∈ box (gridDims A.sizes) then
      ((box (tileDims A.sizes (unflat (gridDims A.sizes).reverse index))).map fun l =>
        fA (tileGlobal A.sizes (unflat (gridDims A.sizes).reverse index) l)
          * fB (tileGlobal A.sizes (unflat (gridDims A.sizes).reverse index) l)).sum else 0)]
  · rw [← map_unflat_range (gridDims A.sizes).reverse, List.map_map, numel_reverse]
    rfl
  · intro i hi
    refine dotTile_ok wA wB hA hB hs ?_
    have := (unflat_inBox (d := (gridDims A.sizes).reverse) (n := i) (by rw [numel_reverse]; exact hi)).length
    change (unflat (gridDims A.sizes).reverse i).length = _
    rw [this]
    simp [gridDims]

end

/-! ### true_dot -/

/-- The tensor with `g` applied to its storage. -/
def Model.Strided.mapData (g : R → R) (t : Strided R) : Strided R := ⟨t.data.map g, t.off, t.dims, t.strides⟩

theorem read_mapData (g : R → R) (t : Strided R) (idx : List Int) {β : Type} (k : R → Outcome β) :
    ((t.mapData g).read idx >>= k) = (t.read idx >>= fun a => k (g a)) := by
  unfold Strided.read
  have : (t.mapData g).addr idx = t.addr idx := by
    unfold Strided.addr Strided.mapData
    simp only [List.length_map]
  rw [this]
  cases h : t.addr idx with
  | error e => rfl
  | ub w => rfl
  | ok a =>
    simp only [Outcome.ok_bind, Strided.mapData, List.getElem?_map]
    cases t.data[a]? <;> rfl

theorem memGet_map (g : R → R) (l : List R) (p : Nat) {β : Type} (k : R → Outcome β) :
    (memGet (l.map g) p >>= k) = (memGet l p >>= fun a => k (g a)) := by
  unfold memGet
  rw [List.getElem?_map]
  cases l[p]? <;> rfl

theorem mapData_represents {t : Strided R} {f : List Nat → R} (hf : t.Represents f) (g : R → R) :
    (t.mapData g).Represents fun i => g (f i) := by
  intro i hi
  have h1 := read_mapData g t (toIdx i) (fun a => Outcome.ok a)
  rw [hf i hi] at h1
  have h2 : ∀ o : Outcome R, (o >>= fun a => Outcome.ok a) = o := by intro o; cases o <;> rfl
  rw [h2] at h1
  exact h1

theorem mapData_wf {t : Strided R} (w : t.WF) (g : R → R) : (t.mapData g).WF :=
  ⟨w.len, by simpa [Strided.mapData] using w.bound, w.inj⟩

section
variable [CommSemiring R]

theorem trueDotVec_eq (conj : R → R) (A B : Strided R) : trueDotVec conj A B = dotVec (A.mapData conj) B := by
  unfold trueDotVec dotVec blasDot
  congr 1
  · congr 1
    funext i
    rw [show (A.mapData conj).data = A.data.map conj from rfl, memGet_map]
    rfl

theorem trueDotFull_eq (conj : R → R) (A B : Strided R) : trueDotFull conj A B = dotFull (A.mapData conj) B := by
  unfold trueDotFull dotFull
  simp only [trueDotVec_eq]
  rfl

theorem trueDotStrided_eq (conj : R → R) (A B : Strided R) :
    trueDotStrided conj A B = dotStrided (A.mapData conj) B := by
  unfold trueDotStrided dotStrided
  simp only [read_mapData]
  rfl

theorem trueDotOp_eq (conj : R → R) (A B : Operand R) :
    trueDotOp conj A B = dotOp { A with t := A.t.mapData conj } B := by
  unfold trueDotOp dotOp
  rw [trueDotVec_eq, trueDotFull_eq, trueDotStrided_eq]
  rfl

theorem trueDotTile_eq [BEq R] (conj : R → R) (A B : Tiled R) (k : List Nat) :
    trueDotTile conj A B k = dotTile (A.mapTiles conj) B k := by
  unfold trueDotTile dotTile
  have h1 : (A.mapTiles conj).hasTileContainer (toIdx k) = A.hasTileContainer (toIdx k) := by
    unfold Tiled.hasTileContainer Tiled.hasTile
    have hc : ∀ idx, (A.mapTiles conj).tileCoords idx = A.tileCoords idx := fun _ => rfl
    rw [hc]
    cases A.tileCoords (toIdx k) with
    | ok j => simp only [lookup_mapTiles, Option.isSome_map]
    | error => rfl
    | ub => rfl
  have h2 : (A.mapTiles conj).hasZeroSize k = A.hasZeroSize k := rfl
  rw [h1, h2]
  congr 1
  unfold Tiled.tileConst
  have hc : ∀ idx, (A.mapTiles conj).tileCoords idx = A.tileCoords idx := fun _ => rfl
  rw [hc]
  cases A.tileCoords (toIdx k) with
  | error => rfl
  | ub => rfl
  | ok j =>
    simp only [Outcome.ok_bind, Tiled.at, lookup_mapTiles]
    cases A.tiles.lookup j with
    | none => rfl
    | some τ =>
      simp only [Option.map_some, Outcome.ok_bind, trueDotVec_eq, trueDotFull_eq]
      rfl

end

theorem trueDotIndex_eq {gs : List Nat} (h : gs.length ≤ 2) (n : Nat) :
    trueDotIndex (dotStrides gs 1 []) gs n = sentinelToIndices n (dotStrides gs 1 []) := by
  match gs, h with
  | [], _ => rfl
  | [g], _ => rfl
  | [g, g'], _ =>
    simp [dotStrides, trueDotIndex, sentinelToIndices]
    rintro rfl
    simp

theorem tiledTrueDot_eq [CommSemiring R] [BEq R] (conj : R → R) (A B : Tiled R) (sched : List Nat)
    (h : A.sizes.length ≤ 2) : tiledTrueDot conj A B sched = tiledDot (A.mapTiles conj) B sched := by
  unfold tiledTrueDot tiledDot
  simp only [trueDotTile_eq]
  have : (A.mapTiles conj).sizes = A.sizes := rfl
  rw [this]
  congr 1
  congr 1
  funext n
  rw [trueDotIndex_eq (by simpa using h)]

/-! ### direct_product -/

section
variable [CommSemiring R] [BEq R] [LawfulBEq R]

theorem directTile_ok {A B C : Tiled R} {alpha beta : R} {fA fB fC : List Nat → R} (wA : A.WF) (wB : B.WF) (wC : C.WF)
    (hA : A.Holds fA) (hB : B.Holds fB) (hC : C.Holds fC) (sB : B.sizes = A.sizes) (sC : C.sizes = A.sizes)
    {sched : List Nat} (hp : sched.Perm (List.range A.gridSize)) :
    ∃ C' f', tiledDirectProduct alpha A B beta C sched = .ok C' ∧ C'.WF ∧ C'.sizes = C.sizes ∧ C'.Holds f' ∧
      ∀ k x, InTile A.sizes k x → f' x =
        if (A.tiles.lookup k).isSome ∧ (B.tiles.lookup k).isSome then beta * fC x + alpha * (fA x * fB x) else fC x := by
  classical
  rw [gridSize_eq] at hp
  have hperm := (hp.map (gridIndex (gridDims A.sizes))).trans (map_gridIndex_perm _)
  have hmem : ∀ i ∈ sched, InBox (gridIndex (gridDims A.sizes) i) (gridDims A.sizes) := fun i hi =>
    mem_box.1 (hperm.mem_iff.1 (List.mem_map_of_mem hi))
  obtain ⟨C', f', h1, w', s', _, h', k1, k2⟩ := tileLoop wC hC (fun _ => True) trivial
    (gridIndex (gridDims A.sizes)) (tiledDirectStep alpha A B beta)
    (fun x v => if ∃ k, InTile A.sizes k x ∧ (A.tiles.lookup k).isSome ∧ (B.tiles.lookup k).isSome then
      beta * v + alpha * (fA x * fB x) else v) sched
    (hperm.nodup_iff.2 (nodup_box _)) (by
      intro i hi C1 f1 s1 w1 _ h1 _
      rw [sC] at s1 ⊢
      have hk := hmem i hi
      generalize hkk : gridIndex (gridDims A.sizes) i = k at hk
      have hkB : InBox k (gridDims B.sizes) := by rw [sB]; exact hk
      have hkC : InBox k (gridDims C1.sizes) := by rw [s1]; exact hk
      have hkk' : gridIndex (A.sizes.map List.length) i = k := hkk
      unfold tiledDirectStep
      simp only [hkk']
      rw [hasTileContainer_eq hk, hasTileContainer_eq hkB]
      by_cases c : ((A.tiles.lookup k).isSome && (B.tiles.lookup k).isSome && !A.hasZeroSize k && !B.hasZeroSize k) = true
      · rw [if_pos c]
        simp only [Bool.and_eq_true, Bool.not_eq_true'] at c
        obtain ⟨⟨⟨c1, c2⟩, c3⟩, c4⟩ := c
        obtain ⟨α, ha⟩ := Option.isSome_iff_exists.1 c1
        obtain ⟨β, hb⟩ := Option.isSome_iff_exists.1 c2
        obtain ⟨C2, τ, q1, q2, q3, q4, q5, q6, q7, q8, q9, q10, q11⟩ := tile_at w1 h1 hkC
        rw [s1] at q4 q9 q10
        have eα : A.at k = .ok α := by unfold Tiled.at; rw [ha]
        have eβ : B.at k = .ok β := by unfold Tiled.at; rw [hb]
        obtain ⟨_, tα, dα⟩ := wA.tiles _ _ ha
        obtain ⟨_, tβ, dβ⟩ := wB.tiles _ _ hb
        have rα := (hA _ hk).1 _ ha
        have rβ := (hB _ hkB).1 _ hb
        rw [sB] at dβ rβ
        obtain ⟨t', g1, g2, g3⟩ := directProduct_eq alpha beta (by rw [q9, dα]) (by rw [q9, dβ]) q8 rα rβ q10
        obtain ⟨w3, h3⟩ := setTile_update q3 q7 (k := k) (by rw [q4]; exact hk) (by rw [q11]; rfl)
          (g2.isTensor q8) (by rw [g2.dims, q9, q4]) (g := fun x => beta * f1 x + alpha * (fA x * fB x))
          (by rw [q4]; exact g3)
        refine ⟨_, _, ?_, w3, q4, trivial, h3, ?_, ?_⟩
        · rw [q1, Outcome.ok_bind]
          simp only
          rw [tileConst_eq hk, tileConst_eq hkB, eα, Outcome.ok_bind, eβ, Outcome.ok_bind, q2, Outcome.ok_bind, g1]
          rfl
        · intro x hx
          rw [q4, if_pos hx, if_pos ⟨k, hx, c1, c2⟩]
        · intro x _ hx
          rw [q4, if_neg hx]
      · rw [if_neg c]
        refine ⟨C1, f1, rfl, w1, s1, trivial, h1, ?_, fun _ _ _ => rfl⟩
        intro x hx
        rw [if_neg]
        rintro ⟨k', hx', c1, c2⟩
        have := inTile_unique hx hx'
        subst this
        apply c
        obtain ⟨b, _⟩ := inTile_local hx
        have hnz : 0 ∉ tileDims A.sizes k := by
          intro hz
          have := mem_box.2 b
          rw [box_of_zero hz] at this
          simp at this
        have z1 : A.hasZeroSize k = false := by
          cases h : A.hasZeroSize k with
          | false => rfl
          | true => exact (hnz ((hasZeroSize_iff hk).1 h)).elim
        have z2 : B.hasZeroSize k = false := by
          cases h : B.hasZeroSize k with
          | false => rfl
          | true =>
            have := (hasZeroSize_iff hkB).1 h
            rw [sB] at this
            exact (hnz this).elim
        simp [c1, c2, z1, z2])
  refine ⟨C', f', h1, w', s', h', ?_⟩
  intro k x hx
  obtain ⟨b, hb, e⟩ := List.mem_map.1 (hperm.mem_iff.2 (mem_box.2 (inTile_grid hx)))
  rw [k1 b hb x (by rw [sC, e]; exact hx)]
  by_cases c : (A.tiles.lookup k).isSome ∧ (B.tiles.lookup k).isSome
  · rw [if_pos c, if_pos ⟨k, hx, c⟩]
  · rw [if_neg c, if_neg]
    rintro ⟨k', hx', c'⟩
    rw [inTile_unique hx hx'] at c
    exact c c'

end

/-! ### gemv with dense vectors -/

/-- A change made through a view, seen from the parent. -/
theorem viewFrame_parent {t v v' : Strided R} (w : t.WF) {f g h : List Nat → R} (hf : t.Represents f) {φ : List Nat → List Nat}
    (hv : t.ViewOf v φ) (fr : v.Frame v') (hg : v'.Represents g)
    (h1 : ∀ j, InBox j v.dims → h (φ j) = g j)
    (h2 : ∀ i, InBox i t.dims → (∀ j, InBox j v.dims → φ j ≠ i) → h i = f i) :
    t.Frame { t with data := v'.data } ∧ ({ t with data := v'.data } : Strided R).Represents h := by
  classical
  have hpos : ∀ p, (∀ j, InBox j v.dims → p ≠ v.off + dot j v.strides) → v'.data[p]? = t.data[p]? := by
    intro p hp
    rw [fr.outside p hp, hv.data]
  apply frame_of_mem w
  · rw [fr.length, hv.data]
  · intro i hi
    by_cases c : ∃ j, InBox j v.dims ∧ φ j = i
    · obtain ⟨j, hj, rfl⟩ := c
      rw [h1 j hj]
      have := represents_get hg (j := j) (by rw [fr.dims]; exact hj)
      rw [fr.off, fr.strides] at this
      rw [← this]
      congr 1
      exact (hv.addr j hj).2.symm
    · rw [hpos]
      · rw [h2 i hi fun j hj e => c ⟨j, hj, e⟩]
        exact represents_get hf hi
      · intro j hj e
        obtain ⟨a1, a2⟩ := hv.addr j hj
        rw [a2] at e
        exact c ⟨j, hj, (w.inj _ _ hi a1 (by omega)).symm⟩
  · intro p hp
    apply hpos
    intro j hj e
    obtain ⟨a1, a2⟩ := hv.addr j hj
    exact hp _ a1 (e.trans a2)

/-- A segment of a vector. -/
theorem segment {t : Strided R} (w : t.WF) {n s len : Nat} (hd : t.dims = [n]) (hl : len ≠ 0) (hs : s + len ≤ n) :
    ∃ v, t.ranges [((s : Nat), ((s + len : Nat) : Int))] = .ok v ∧ v.dims = [len] ∧ v.strides = t.strides ∧
      t.ViewOf v (shift [s]) := by
  have hD : Denotes t.dims [((s : Nat), ((s + len : Nat) : Int))] [(s, s + len)] := by
    rw [hd]
    refine ⟨rfl, ?_, trivial⟩
    unfold rangeEnd
    rw [if_neg (by omega)]
  have hB : BoxIn t.dims [(s, s + len)] := by
    rw [hd]
    exact ⟨by omega, by omega, hs, trivial⟩
  obtain ⟨v, h1, h2, h3⟩ := boxView w hB
  refine ⟨v, by rw [ranges_eq hD hB]; exact h1, by rw [h2]; simp, by rw [h2], h3⟩

theorem tileStart_end {ss : List Nat} {t : Nat} (h : t < ss.length) : tileStart ss t + ss.getD t 0 ≤ ss.sum := by
  have h1 : ss[t]? = some (ss.getD t 0) := by simp [h]
  rw [← tileStart_succ h1]
  exact tileStart_le_sum _ _

section
variable [CommSemiring R] [BEq R] [LawfulBEq R]

omit [CommSemiring R] [BEq R] [LawfulBEq R] in
theorem range_eq {A : Tiled R} (w : A.WF) {d i : Nat} {P : List Nat} (hP : A.tileSize d = P) (hd : d < A.sizes.length)
    (hi : i < P.length) : A.range d i = (((tileStart P i : Nat) : Int), ((tileStart P i + P.getD i 0 : Nat) : Int)) := by
  unfold Tiled.range
  have : (A.offsets.getD d []).getD i 0 = tileStart P i := by
    unfold Tiled.tileSize at hP
    rw [w.offsets]
    simp only [List.getD_eq_getElem?_getD, List.getElem?_map] at hP ⊢
    rw [List.getElem?_eq_getElem hd] at hP ⊢
    simp only [Option.getD_some] at hP
    subst hP
    simp [hi]
  rw [this, hP]

/-- The products added to one segment of the output. -/
theorem gemvSegment_ok {trans : Bool} {alpha : R} {A : Tiled R} {M K : List Nat} {fA fz : List Nat → R} (wA : A.WF)
    (hA : A.Holds fA) (sA : A.sizes = opParts trans M K) {z : Strided R} (wz : z.WF) {incx incy : Nat}
    (dz : z.dims = [K.sum]) (sz : z.strides = [incx]) (hx0 : incx ≠ 0) (hz : z.Represents fz) {i : Nat}
    (hi : i < M.length) (hm : M.getD i 0 ≠ 0) {v : Strided R} (wv : v.WF) (dv : v.dims = [M.getD i 0])
    (sv : v.strides = [incy]) (hy0 : incy ≠ 0) {h : List Nat → R} (hr : v.Represents h) :
    ∃ v', gemvSegment trans alpha A z i v = .ok v' ∧ v.Frame v' ∧
      v'.Represents fun x => h x + alpha * sumTo K.sum fun l =>
        opElem trans fA (tileStart M i + x.getD 0 0) l * fz [l] := by
  have hK : A.tileSize (if trans then 0 else 1) = K := by
    unfold Tiled.tileSize
    rw [sA]
    cases trans <;> rfl
  have hA2 : A.sizes.length = 2 := by rw [sA]; cases trans <;> rfl
  unfold gemvSegment
  rw [hK]
  have key : ∀ n, n ≤ K.length → ∃ v', (List.range n).foldlM (fun v j =>
      if !A.hasTile (toIdx (opTile trans i j)) || A.hasZeroSize (opTile trans i j) then .ok v
      else do
        let a ← A.tileConst (toIdx (opTile trans i j))
        let zj ← z.ranges [A.range (if trans then 0 else 1) j]
        gemv trans alpha a zj 1 v) v = .ok v' ∧ v.Frame v' ∧
      v'.Represents fun x => h x + alpha * sumTo n fun k => sumTo (K.getD k 0) fun l =>
        opElem trans fA (tileStart M i + x.getD 0 0) (tileStart K k + l) * fz [tileStart K k + l] := by
    intro n
    induction n with
    | zero =>
      intro _
      refine ⟨v, rfl, Strided.Frame.refl v, ?_⟩
      intro x hx
      rw [hr x hx]
      simp [sumTo]
    | succ n ih =>
      intro hn
      obtain ⟨v1, e1, f1, r1⟩ := ih (by omega)
      rw [List.range_succ, List.foldlM_append, e1, Outcome.ok_bind]
      simp only [List.foldlM_cons, List.foldlM_nil]
      have hsum : ∀ g : Nat → R, sumTo (n + 1) g = sumTo n g + g n := by
        intro g; simp [sumTo, List.range_succ]
      have kA : InBox (opTile trans i n) (gridDims A.sizes) := by rw [sA]; exact opTile_inBox hi hn
      have d1 : v1.dims = [M.getD i 0] := by rw [f1.dims, dv]
      rw [hasTile_eq kA, hasZeroSize_op sA, beq_false_of_ne hm, Bool.false_or]
      cases hα : A.tiles.lookup (opTile trans i n) with
      | none =>
        rw [if_pos (by simp)]
        refine ⟨v1, rfl, f1, ?_⟩
        intro x hx
        rw [r1 x hx]
        rw [d1] at hx
        obtain ⟨a, rfl, ha⟩ := inBox_one.1 hx
        simp only
        rw [hsum, sumTo_zero' (K.getD n 0), add_zero]
        intro l hl
        have hz := (hA _ kA).2 hα
        rw [sA] at hz
        rw [← opElem_tile (M := M) (N := K) (i := i) (j := n)]
        have : opElem trans (fun l => fA (tileGlobal (opParts trans M K) (opTile trans i n) l)) a l = 0 := by
          cases trans
          · exact hz [a, l] ⟨ha, hl, trivial⟩
          · exact hz [l, a] ⟨hl, ha, trivial⟩
        rw [List.getD_cons_zero, this, zero_mul]
      | some α =>
        by_cases hk0 : K.getD n 0 = 0
        · rw [if_pos (by simp only [hk0]; simp)]
          refine ⟨v1, rfl, f1, ?_⟩
          intro x hx
          rw [r1 x hx]
          simp only
          rw [hsum, hk0]
          simp [sumTo]
        · rw [beq_false_of_ne hk0, if_neg (by simp), tileConst_eq kA]
          have eα : A.at (opTile trans i n) = .ok α := by unfold Tiled.at; rw [hα]
          rw [eα, Outcome.ok_bind, range_eq wA hK (by rw [hA2]; cases trans <;> simp) hn]
          have hle : tileStart K n + K.getD n 0 ≤ K.sum := tileStart_end hn
          obtain ⟨zj, g1, g2, g3, g4⟩ := segment wz dz hk0 hle
          rw [g1, Outcome.ok_bind]
          obtain ⟨_, tα, dα⟩ := wA.tiles _ _ hα
          have rα := (hA _ kA).1 _ hα
          rw [sA] at dα rα
          rw [opTile_dims] at dα
          have hrz : zj.Represents fun x => fz [tileStart K n + x.getD 0 0] := by
            intro x hx
            rw [g4.read wz hx]
            have hb := (g4.addr x hx).1
            rw [hz _ hb]
            rw [g2] at hx
            obtain ⟨a, rfl, _⟩ := inBox_one.1 hx
            rfl
          obtain ⟨v', q1, q2, q3⟩ := Props.C26_gemv_partial trans (if trans then K.getD n 0 else M.getD i 0)
            (if trans then M.getD i 0 else K.getD n 0) alpha 1 α zj v1
            (if trans then M.getD i 0 else K.getD n 0) incx incy _ _ _ (by rw [dα]; cases trans <;> rfl)
            (by rw [g2]; cases trans <;> rfl) (by rw [d1]; cases trans <;> rfl)
            (by cases trans <;> exact matrix_strides tα dα) (by rw [g3, sz]) (by rw [f1.strides, sv]) le_rfl hx0 hy0 rα hrz
            (f1.wf wv) r1 (by cases trans <;> assumption) (by cases trans <;> assumption)
          refine ⟨v', by rw [q1]; rfl, f1.trans q2, ?_⟩
          intro x hx
          rw [q2.dims, d1] at hx
          obtain ⟨a, rfl, ha⟩ := inBox_one.1 hx
          have := q3 a (by cases trans <;> exact ha)
          simp only [toIdx, List.map_cons, List.map_nil, Int.ofNat_eq_natCast] at *
          rw [this]
          congr 1
          have e : (if trans then (if trans then K.getD n 0 else M.getD i 0) else
            (if trans then M.getD i 0 else K.getD n 0)) = K.getD n 0 := by cases trans <;> rfl
          simp only [e, hsum, List.getD_cons_zero, opElem_tile]
          ring
  obtain ⟨v', h1, h2, h3⟩ := key K.length le_rfl
  refine ⟨v', h1, h2, ?_⟩
  intro x hx
  rw [h3 x hx]
  simp only [sumTo_split K]

/-- Row `x` lies in interval `i` of the partition. -/
def RowIn (M : List Nat) (i x : Nat) : Prop := tileStart M i ≤ x ∧ x < tileStart M i + M.getD i 0

omit [BEq R] [LawfulBEq R] in
theorem rowIn_unique {M : List Nat} {i j x : Nat} (hi : i < M.length) (hj : j < M.length) (h : RowIn M i x)
    (h' : RowIn M j x) : i = j :=
  tile_unique (ss := M) (s := M.getD i 0) (s' := M.getD j 0) (by simp [hi]) (by simp [hj]) h.1 h.2 h'.1 h'.2

open Classical in
theorem gemvLoop_ok {trans : Bool} {alpha : R} {A : Tiled R} {M K : List Nat} {fA fz : List Nat → R} (wA : A.WF)
    (hA : A.Holds fA) (sA : A.sizes = opParts trans M K) {z : Strided R} (wz : z.WF) {incx incy : Nat}
    (dz : z.dims = [K.sum]) (sz : z.strides = [incx]) (hx0 : incx ≠ 0) (hz : z.Represents fz)
    (hy0 : incy ≠ 0) (sched : List Nat) :
    ∀ (y : Strided R) (g : List Nat → R), y.WF → y.dims = [M.sum] → y.strides = [incy] → y.Represents g →
    (∀ i ∈ sched, i < M.length) → sched.Nodup →
    ∃ y', sched.foldlM (tiledGemvStep trans alpha A z) y = .ok y' ∧ y.Frame y' ∧
      y'.Represents fun x => if ∃ i ∈ sched, RowIn M i (x.getD 0 0) then
        g x + alpha * (sumTo K.sum fun l => opElem trans fA (x.getD 0 0) l * fz [l]) else g x := by
  have hM : A.tileSize (if trans then 1 else 0) = M := by
    unfold Tiled.tileSize
    rw [sA]
    cases trans <;> rfl
  have hA2 : A.sizes.length = 2 := by rw [sA]; cases trans <;> rfl
  induction sched with
  | nil =>
    intro y g wy dy sy hg _ _
    refine ⟨y, rfl, Strided.Frame.refl y, ?_⟩
    simpa using hg
  | cons i sched ih =>
    intro y g wy dy sy hg hb hnd
    have hi := hb i (by simp)
    rw [List.nodup_cons] at hnd
    have step : ∃ y1, tiledGemvStep trans alpha A z y i = .ok y1 ∧ y.Frame y1 ∧
        y1.Represents fun x => if RowIn M i (x.getD 0 0) then
          g x + alpha * (sumTo K.sum fun l => opElem trans fA (x.getD 0 0) l * fz [l]) else g x := by
      unfold tiledGemvStep
      rw [hM]
      by_cases hm : M.getD i 0 = 0
      · rw [if_pos hm]
        refine ⟨y, rfl, Strided.Frame.refl y, ?_⟩
        intro x hx
        rw [hg x hx]
        simp only
        rw [if_neg]
        unfold RowIn
        omega
      · rw [if_neg hm, range_eq wA hM (by rw [hA2]; cases trans <;> simp) hi]
        obtain ⟨v, s1, s2, s3, s4⟩ := segment wy dy hm (tileStart_end hi)
        rw [s1, Outcome.ok_bind]
        have hrv : v.Represents fun x => g [tileStart M i + x.getD 0 0] := by
          intro x hx
          rw [s4.read wy hx]
          have hb := (s4.addr x hx).1
          rw [hg _ hb]
          rw [s2] at hx
          obtain ⟨a, rfl, _⟩ := inBox_one.1 hx
          rfl
        obtain ⟨v', q1, q2, q3⟩ := gemvSegment_ok (alpha := alpha) wA hA sA wz dz sz hx0 hz hi hm (s4.wf wy) s2
          (by rw [s3, sy]) hy0 hrv
        rw [q1, Outcome.ok_bind]
        obtain ⟨p1, p2⟩ := viewFrame_parent wy hg s4 q2 q3
          (h := fun x => if RowIn M i (x.getD 0 0) then
            g x + alpha * (sumTo K.sum fun l => opElem trans fA (x.getD 0 0) l * fz [l]) else g x)
          (by
            intro j hj
            rw [s2] at hj
            obtain ⟨a, rfl, ha⟩ := inBox_one.1 hj
            have : shift [tileStart M i] [a] = [tileStart M i + a] := rfl
            rw [this]
            simp only [List.getD_cons_zero]
            rw [if_pos ⟨by omega, by omega⟩])
          (by
            intro x hx hne
            rw [if_neg]
            rintro ⟨r1, r2⟩
            rw [dy] at hx
            obtain ⟨a, rfl, ha⟩ := inBox_one.1 hx
            simp only [List.getD_cons_zero] at r1 r2
            refine hne [a - tileStart M i] ?_ ?_
            · rw [s2]; exact ⟨by omega, trivial⟩
            · change [tileStart M i + (a - tileStart M i)] = [a]
              congr 1; omega)
        exact ⟨_, rfl, p1, p2⟩
    obtain ⟨y1, e1, f1, r1⟩ := step
    obtain ⟨y2, e2, f2, r2⟩ := ih y1 _ (f1.wf wy) (by rw [f1.dims, dy]) (by rw [f1.strides, sy]) r1
      (fun j hj => hb j (by simp [hj])) hnd.2
    refine ⟨y2, ?_, f1.trans f2, ?_⟩
    · rw [List.foldlM_cons, e1, Outcome.ok_bind, e2]
    · intro x hx
      rw [r2 x hx]
      congr 1
      beta_reduce
      by_cases c : RowIn M i (x.getD 0 0)
      · have c' : ¬ ∃ j ∈ sched, RowIn M j (x.getD 0 0) := by
          rintro ⟨j, hj, h⟩
          have := rowIn_unique hi (hb j (by simp [hj])) c h
          subst this
          exact hnd.1 hj
        rw [if_neg c', if_pos c, if_pos ⟨i, by simp, c⟩]
      · rw [if_neg c]
        by_cases c' : ∃ j ∈ sched, RowIn M j (x.getD 0 0)
        · rw [if_pos c', if_pos (by obtain ⟨j, hj, h⟩ := c'; exact ⟨j, by simp [hj], h⟩)]
        · rw [if_neg c', if_neg]
          rintro ⟨j, hj, h⟩
          rcases List.mem_cons.1 hj with rfl | hj
          · exact c h
          · exact c' ⟨j, hj, h⟩

theorem tiledGemv_ok {trans : Bool} {alpha beta : R} {A : Tiled R} {M K : List Nat} {fA fz fy : List Nat → R} (wA : A.WF)
    (hA : A.Holds fA) (sA : A.sizes = opParts trans M K) {z : Strided R} (wz : z.WF) {incx : Nat}
    (dz : z.dims = [K.sum]) (sz : z.strides = [incx]) (hx0 : incx ≠ 0) (hz : z.Represents fz)
    {y : Strided R} (ty : y.IsTensor) (dy : y.dims = [M.sum]) (hy : y.Represents fy)
    {sched : List Nat} (hp : sched.Perm (List.range M.length)) :
    ∃ y', tiledGemv trans alpha A z beta y sched = .ok y' ∧ y'.IsTensor ∧ y'.dims = [M.sum] ∧
      y'.Represents fun x => beta * fy x + alpha * sumTo K.sum fun l => opElem trans fA (x.getD 0 0) l * fz [l] := by
  have h0 := scaleTile_ok (beta := beta) (created := false) ty hy (by simp)
  unfold scaleTile at h0
  rw [Bool.or_false] at h0
  obtain ⟨t1, d1, r1⟩ := h0
  unfold tiledGemv
  generalize (if (beta == 0) = true then y.zero else { y with data := y.data.map (· * beta) }) = y1 at *
  rw [dy] at d1
  obtain ⟨y', e, f, r⟩ := gemvLoop_ok (alpha := alpha) wA hA sA wz dz sz hx0 hz (incy := 1) (by decide) sched y1 _ t1.wf d1
    (by rw [t1.strides, d1]; simp [dimsToStrides]) r1 (fun i hi => List.mem_range.1 (hp.mem_iff.1 hi))
    (hp.nodup_iff.2 List.nodup_range)
  refine ⟨y', e, f.isTensor t1, by rw [f.dims, d1], ?_⟩
  intro x hx
  rw [r x hx]
  rw [f.dims, d1] at hx
  obtain ⟨a, rfl, ha⟩ := inBox_one.1 hx
  obtain ⟨t, s, h1, h2, h3⟩ := exists_tile ha
  congr 1
  simp only [List.getD_cons_zero]
  rw [if_pos]
  have hl : t < M.length := (List.getElem?_eq_some_iff.1 h1).1
  refine ⟨t, hp.mem_iff.2 (List.mem_range.2 hl), h2, ?_⟩
  have : M.getD t 0 = s := by simp [h1]
  rw [this]; exact h3

end

end Einsums
