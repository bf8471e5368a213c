import Verif.Spec.TileLocks
import Verif.Proofs.TileAlgebra
/-
The interleavings of the parallel loop over tiles: every reachable state is a sequence of whole iterations, plus the iterations
that are at work, each alone on its tile.
-/
namespace Einsums
open Spec Model

section
variable {R σ : Type} [Zero R]

/-- The tile at `k`, a missing tile being one of zeros. -/
def Model.Tiled.base (T : Tiled R) (k : List Nat) : Strided R :=
  (T.tiles.lookup k).getD (Strided.mk' (fun _ => 0) (tileDims T.sizes k))

theorem base_addTile {T : Tiled R} {k : List Nat} (h : T.tiles.lookup k = none) (k' : List Nat) :
    (T.addTile k).base k' = T.base k' := by
  have hs : (T.addTile k).sizes = T.sizes := by unfold Tiled.addTile; rw [h]
  unfold Tiled.base
  rw [lookup_addTile h, hs]
  split
  · next e => subst e; rw [h]; rfl
  · rfl

theorem base_setTile {T : Tiled R} {k : List Nat} (h : (T.tiles.lookup k).isSome) (t : Strided R) (k' : List Nat) :
    (T.setTile k t).base k' = if k' = k then t else T.base k' := by
  obtain ⟨τ, hτ⟩ := Option.isSome_iff_exists.1 h
  unfold Tiled.base
  rw [lookup_setTile]
  change (if k' = k then _ else _ : Option (Strided R)).getD (Strided.mk' _ (tileDims T.sizes k')) = _
  split
  · rw [hτ]; rfl
  · rfl

theorem at_base {T : Tiled R} {k : List Nat} (h : (T.tiles.lookup k).isSome) : T.at k = .ok (T.base k) := by
  obtain ⟨τ, hτ⟩ := Option.isSome_iff_exists.1 h
  unfold Tiled.at Tiled.base
  rw [hτ]; rfl

omit [Zero R] in
/-- Tile numbers that are not negative are not changed by the normalisation. -/
theorem tileCoords_nat {T : Tiled R} {idx k : List Nat} (h : T.tileCoords (toIdx idx) = .ok k) :
    k = idx ∧ InBox k (gridDims T.sizes) := by
  unfold Tiled.tileCoords at h
  have key : ∀ (parts : List (List Nat)) (idx : List Nat), (normIdx (parts.map List.length) (toIdx idx)).length = parts.length →
      ((normIdx (parts.map List.length) (toIdx idx)).zip parts).all
        (fun p => decide (0 ≤ p.1) && decide (p.1 < p.2.length)) = true →
      (normIdx (parts.map List.length) (toIdx idx)).map Int.toNat = idx ∧
        InBox idx (gridDims parts) := by
    intro parts
    induction parts with
    | nil =>
      intro idx hl _
      cases idx with
      | nil => exact ⟨rfl, trivial⟩
      | cons => simp [normIdx, toIdx] at hl
    | cons ss parts ih =>
      intro idx hl ha
      cases idx with
      | nil => simp [normIdx, toIdx] at hl
      | cons i idx =>
        simp only [toIdx, List.map_cons, normIdx, List.length_cons, Nat.add_right_cancel_iff, List.zip_cons_cons, List.all_cons,
          Bool.and_eq_true, decide_eq_true_eq] at hl ha ⊢
        obtain ⟨e1, e2⟩ := ih idx hl ha.2
        simp only [toIdx] at e1
        have := ha.1
        rw [if_neg (by simp)] at this ⊢
        refine ⟨?_, ?_, e2⟩
        · rw [e1]; simp
        · have := this.2
          simpa using this
  simp only at h
  split at h
  · next hc =>
    have hk := Outcome.ok.inj h
    obtain ⟨e1, e2⟩ := key _ _ hc.1 hc.2
    rw [← hk, e1]
    exact ⟨rfl, e2⟩
  · simp at h

/-! ### The invariant -/

omit [Zero R] in
/-- The iteration holds the lock of `C`. -/
def Model.TilePc.holdsC : TilePc R σ → Bool
  | .inC _ | .looked _ _ | .hasRef _ => true
  | _ => false

omit [Zero R] in
/-- The tile the iteration is concerned with. -/
def Model.TilePc.key : TilePc R σ → Option (List Nat)
  | .inC k | .looked k _ | .hasRef k | .outC k | .inTile k _ _ => some k
  | _ => none

omit [Zero R] in
/-- The tile the iteration has a reference to. -/
def Model.TilePc.ref : TilePc R σ → Option (List Nat)
  | .hasRef k | .outC k | .inTile k _ _ => some k
  | _ => none

omit [Zero R] in
/-- The tile the iteration is working on. -/
def Model.TilePc.work : TilePc R σ → Option (List Nat)
  | .inTile k _ _ => some k
  | _ => none

/-- A reachable state: the iterations that have ended, in some order `ord`, give the tensor `S`; the tensor differs from it only
on the tiles that iterations are working on. -/
structure TileInv (loop : TileLoop R σ) (n : Nat) (C : Tiled R) (st : TileState R σ) (ord : List Nat) (S : Tiled R) : Prop where
  ordN : ord.Nodup
  ordm : ∀ s, s ∈ ord ↔ st.pc s = .done
  hS : ord.foldlM (tileWhole loop) C = .ok S
  sT : st.tensor.sizes = C.sizes ∧ st.tensor.offsets = C.offsets ∧ st.tensor.dims = C.dims
  sS : S.sizes = C.sizes ∧ S.offsets = C.offsets ∧ S.dims = C.dims
  keysN : (st.tensor.tiles.map (·.1)).Nodup
  grid : ∀ k, (st.tensor.tiles.lookup k).isSome → InBox k (gridDims C.sizes)
  lock : ∀ s, st.lockC = some s ↔ (st.pc s).holdsC = true
  key : ∀ s k, (st.pc s).key = some k → loop.enter s = .ok (some k)
  look : ∀ s k b, st.pc s = .looked k b → InBox k (gridDims C.sizes) ∧ b = (st.tensor.tiles.lookup k).isSome
  ref : ∀ s k, (st.pc s).ref = some k → (st.tensor.tiles.lookup k).isSome
  excl : ∀ s s' k, (st.pc s).work = some k → (st.pc s').work = some k → s = s'
  tlock : loop.useLock = true → ∀ k s, st.lockTile k = some s ↔ (st.pc s).work = some k
  free : ∀ k, (∀ s, (st.pc s).work ≠ some k) → st.tensor.base k = S.base k
  busy : ∀ s k v todo, st.pc s = .inTile k v todo → ∃ pre, loop.micro s = pre ++ todo ∧
    pre.foldlM (fun p f => f p) (loop.init, S.base k) = .ok (v, st.tensor.base k)
  sub : ∀ k, (S.tiles.lookup k).isSome → (st.tensor.tiles.lookup k).isSome
  small : ∀ s, st.pc s ≠ .start → s < n

theorem tileInv_init {loop : TileLoop R σ} {n : Nat} {C : Tiled R} (w : C.WF) : TileInv loop n C (TileState.init C) [] C where
  ordN := List.nodup_nil
  ordm := by simp [TileState.init]
  hS := rfl
  sT := ⟨rfl, rfl, rfl⟩
  sS := ⟨rfl, rfl, rfl⟩
  keysN := w.nodup
  grid := by
    intro k h
    obtain ⟨τ, hτ⟩ := Option.isSome_iff_exists.1 h
    exact (w.tiles k τ hτ).1
  lock := by simp [TileState.init, TilePc.holdsC]
  key := by simp [TileState.init, TilePc.key]
  look := by simp [TileState.init]
  ref := by simp [TileState.init, TilePc.ref]
  excl := by simp [TileState.init, TilePc.work]
  tlock := by simp [TileState.init, TilePc.work]
  free := fun _ _ => rfl
  busy := by simp [TileState.init]
  sub := fun _ h => h
  small := by simp [TileState.init]

theorem addTile_shape {T : Tiled R} {k : List Nat} (h : T.tiles.lookup k = none) :
    (T.addTile k).sizes = T.sizes ∧ (T.addTile k).offsets = T.offsets ∧ (T.addTile k).dims = T.dims ∧
      (T.addTile k).tiles.map (·.1) = k :: T.tiles.map (·.1) := by
  unfold Tiled.addTile; rw [h]; exact ⟨rfl, rfl, rfl, rfl⟩

omit [Zero R] in
theorem setTile_keys (T : Tiled R) (k : List Nat) (t : Strided R) :
    (T.setTile k t).tiles.map (·.1) = T.tiles.map (·.1) := keys_set k t

/-- A whole iteration: the tile is changed, and nothing else. -/
theorem tileWhole_eq {loop : TileLoop R σ} {S : Tiled R} {s : Nat} {k : List Nat} (he : loop.enter s = .ok (some k))
    (hk : InBox k (gridDims S.sizes)) :
    ∃ S1 : Tiled R, S1.sizes = S.sizes ∧ S1.offsets = S.offsets ∧ S1.dims = S.dims ∧ (S1.tiles.lookup k).isSome ∧
      (∀ k', S1.base k' = S.base k') ∧ (∀ k', (S1.tiles.lookup k').isSome → (S.tiles.lookup k').isSome ∨ k' = k) ∧
      tileWhole loop S s = ((loop.micro s).foldlM (fun p f => f p) (loop.init, S.base k) >>= fun p =>
        .ok (S1.setTile k p.2)) := by
  have hc : S.tileCoords (toIdx k) = .ok k := tileCoords_eq (pyIndices_toIdx hk)
  by_cases h : (S.tiles.lookup k).isSome = true
  · refine ⟨S, rfl, rfl, rfl, h, fun _ => rfl, fun _ h => .inl h, ?_⟩
    unfold tileWhole Tiled.tile
    rw [he, Outcome.ok_bind]
    simp only [hc, Outcome.ok_bind, hasTile_eq hk, h, if_true, Outcome.pure_eq, at_base h]
  · have hn : S.tiles.lookup k = none := Option.not_isSome_iff_eq_none.1 h
    obtain ⟨a1, a2, a3, a4⟩ := addTile_shape hn
    have hs : ((S.addTile k).tiles.lookup k).isSome := by rw [lookup_addTile hn, if_pos rfl]; rfl
    refine ⟨S.addTile k, a1, a2, a3, hs, base_addTile hn, ?_, ?_⟩
    · intro k' h'
      rw [lookup_addTile hn] at h'
      split at h'
      · next e => exact .inr e
      · exact .inl h'
    · unfold tileWhole Tiled.tile
      rw [he, Outcome.ok_bind]
      simp only [hc, Outcome.ok_bind, hasTile_eq hk, h, Bool.false_eq_true, if_false, Outcome.pure_eq, at_base hs,
        base_addTile hn]

omit [Zero R] in
@[simp] theorem goto_pc (st : TileState R σ) (s : Nat) (p : TilePc R σ) (x : Nat) :
    (st.goto s p).pc x = if x = s then p else st.pc x := rfl

omit [Zero R] in
/-- What the parts of a program counter say, for every kind of program counter. -/
theorem work_inTile {p : TilePc R σ} {k : List Nat} (h : p.work = some k) : ∃ v todo, p = .inTile k v todo := by
  cases p <;> simp [TilePc.work] at h
  subst h
  exact ⟨_, _, rfl⟩

/-- A step that only moves an iteration that is not at work, and does not end it. -/
theorem tileInv_goto {loop : TileLoop R σ} {n : Nat} {C : Tiled R} {st st' : TileState R σ} {ord : List Nat}
    {S : Tiled R} (h : TileInv loop n C st ord S) {s : Nat} (hs : s < n) {p : TilePc R σ} (hT : st'.tensor = st.tensor)
    (hL : st'.lockTile = st.lockTile) (hpc : ∀ x, st'.pc x = if x = s then p else st.pc x)
    (w : (st.pc s).work = none) (w' : p.work = none) (d : st.pc s ≠ .done) (d' : p ≠ .done)
    (hlock : ∀ x, st'.lockC = some x ↔ (if x = s then p else st.pc x).holdsC = true)
    (hkey : ∀ k, p.key = some k → loop.enter s = .ok (some k))
    (hlook : ∀ k b, p = .looked k b → InBox k (gridDims C.sizes) ∧ b = (st.tensor.tiles.lookup k).isSome)
    (href : ∀ k, p.ref = some k → (st.tensor.tiles.lookup k).isSome) : TileInv loop n C st' ord S := by
  have hw : ∀ x, (st'.pc x).work = (st.pc x).work := by
    intro x
    rw [hpc]
    split
    · next e => rw [e, w, w']
    · rfl
  constructor
  case ordN => exact h.ordN
  case ordm =>
    intro x
    rw [h.ordm, hpc]
    by_cases e : x = s
    · subst e; simp [d, d']
    · simp [e]
  case hS => exact h.hS
  case sT => rw [hT]; exact h.sT
  case sS => exact h.sS
  case keysN => rw [hT]; exact h.keysN
  case grid => rw [hT]; exact h.grid
  case lock => intro x; rw [hlock, hpc]
  case key =>
    intro x k
    rw [hpc]
    split
    · next e => rw [e]; exact hkey k
    · exact h.key x k
  case look =>
    intro x k b
    rw [hpc, hT]
    split
    · exact hlook k b
    · exact h.look x k b
  case ref =>
    intro x k
    rw [hpc, hT]
    split
    · exact href k
    · exact h.ref x k
  case excl => intro x y k; rw [hw, hw]; exact h.excl x y k
  case tlock => intro u k x; rw [hL, hw]; exact h.tlock u k x
  case free => intro k hk; rw [hT]; exact h.free k fun x => by rw [← hw]; exact hk x
  case busy =>
    intro x k v todo
    rw [hpc, hT]
    split
    · intro e; rw [e] at w'; simp [TilePc.work] at w'
    · exact h.busy x k v todo
  case sub => rw [hT]; exact h.sub
  case small =>
    intro x
    rw [hpc]
    split
    · next e => intro _; rw [e]; exact hs
    · exact h.small x

/-- The end of an iteration. -/
theorem tileInv_done {loop : TileLoop R σ} {n : Nat} {C : Tiled R} {st st' : TileState R σ} {ord : List Nat}
    {S S' : Tiled R} (h : TileInv loop n C st ord S) {s : Nat} (hs : s < n) (hT : st'.tensor = st.tensor)
    (hpc : ∀ x, st'.pc x = if x = s then .done else st.pc x) (d : st.pc s ≠ .done) (hC : (st.pc s).holdsC = false)
    (hlC : st'.lockC = st.lockC) (hS : tileWhole loop S s = .ok S')
    (hsh : S'.sizes = S.sizes ∧ S'.offsets = S.offsets ∧ S'.dims = S.dims)
    (htl : loop.useLock = true → ∀ k x, st'.lockTile k = some x ↔ ((if x = s then .done else st.pc x).work = some k))
    (hb : ∀ k, (st.pc s).work = some k → S'.base k = st.tensor.base k)
    (hb' : ∀ k, (st.pc s).work ≠ some k → S'.base k = S.base k)
    (hsub : ∀ k, (S'.tiles.lookup k).isSome → (S.tiles.lookup k).isSome ∨ (st.tensor.tiles.lookup k).isSome) :
    TileInv loop n C st' (ord ++ [s]) S' := by
  have hns : s ∉ ord := by rw [h.ordm]; exact d
  constructor
  case ordN =>
    rw [List.nodup_append]
    refine ⟨h.ordN, by simp, ?_⟩
    intro a ha b hb e
    rw [List.mem_singleton] at hb
    exact hns (by rw [← hb, ← e]; exact ha)
  case ordm =>
    intro x
    rw [List.mem_append, List.mem_singleton, h.ordm, hpc]
    by_cases e : x = s
    · simp [e]
    · simp [e]
  case hS =>
    rw [List.foldlM_append, h.hS, Outcome.ok_bind, List.foldlM_cons, hS]
    rfl
  case sT => rw [hT]; exact h.sT
  case sS => rw [hsh.1, hsh.2.1, hsh.2.2]; exact h.sS
  case keysN => rw [hT]; exact h.keysN
  case grid => rw [hT]; exact h.grid
  case lock =>
    intro x
    rw [hlC, h.lock, hpc]
    split
    · next e => rw [e, hC]; rfl
    · rfl
  case key =>
    intro x k
    rw [hpc]
    split
    · simp [TilePc.key]
    · exact h.key x k
  case look =>
    intro x k b
    rw [hpc, hT]
    split
    · simp
    · exact h.look x k b
  case ref =>
    intro x k
    rw [hpc, hT]
    split
    · simp [TilePc.ref]
    · exact h.ref x k
  case excl =>
    intro x y k
    rw [hpc, hpc]
    split
    · simp [TilePc.work]
    · split
      · simp [TilePc.work]
      · exact h.excl x y k
  case tlock => intro u k x; rw [htl u, hpc]
  case free =>
    intro k hk
    rw [hT]
    by_cases e : (st.pc s).work = some k
    · exact (hb k e).symm
    · rw [hb' k e]
      apply h.free
      intro x
      by_cases ex : x = s
      · rw [ex]; exact e
      · have := hk x
        rwa [hpc, if_neg ex] at this
  case busy =>
    intro x k v todo
    rw [hpc, hT]
    split
    · simp
    · next e =>
      intro hp
      obtain ⟨pre, h1, h2⟩ := h.busy x k v todo hp
      refine ⟨pre, h1, ?_⟩
      rw [hb' k]
      · exact h2
      · intro hw
        exact e (h.excl x s k (by rw [hp]; rfl) hw)
  case sub =>
    intro k hk
    rw [hT]
    exact (hsub k hk).elim (h.sub k) id
  case small =>
    intro x
    rw [hpc]
    split
    · next e => intro _; rw [e]; exact hs
    · exact h.small x

/-- An iteration starts to work on its tile. -/
theorem tileInv_begin {loop : TileLoop R σ} {n : Nat} {C : Tiled R} {st st' : TileState R σ} {ord : List Nat}
    {S : Tiled R} (h : TileInv loop n C st ord S) {s : Nat} (hs : s < n) {k : List Nat} (hp : st.pc s = .outC k)
    (hT : st'.tensor = st.tensor) (hlC : st'.lockC = st.lockC)
    (hpc : ∀ x, st'.pc x = if x = s then .inTile k loop.init (loop.micro s) else st.pc x)
    (hno : ∀ x, (st.pc x).work ≠ some k)
    (htl : loop.useLock = true → ∀ k' x, st'.lockTile k' = some x ↔ (if x = s then k' = k else (st.pc x).work = some k')) :
    TileInv loop n C st' ord S := by
  have hw : ∀ x k', (st'.pc x).work = some k' ↔ (if x = s then k' = k else (st.pc x).work = some k') := by
    intro x k'
    rw [hpc]
    split
    · simp [TilePc.work, eq_comm]
    · rfl
  constructor
  case ordN => exact h.ordN
  case ordm =>
    intro x
    rw [h.ordm, hpc]
    by_cases e : x = s
    · subst e; simp [hp]
    · simp [e]
  case hS => exact h.hS
  case sT => rw [hT]; exact h.sT
  case sS => exact h.sS
  case keysN => rw [hT]; exact h.keysN
  case grid => rw [hT]; exact h.grid
  case lock =>
    intro x
    rw [hlC, h.lock, hpc]
    split
    · next e => rw [e, hp]; simp [TilePc.holdsC]
    · rfl
  case key =>
    intro x k'
    rw [hpc]
    split
    · next e =>
      intro hk'
      simp only [TilePc.key, Option.some.injEq] at hk'
      rw [e, ← hk']; exact h.key s k (by rw [hp]; rfl)
    · exact h.key x k'
  case look =>
    intro x k' b
    rw [hpc, hT]
    split
    · simp
    · exact h.look x k' b
  case ref =>
    intro x k'
    rw [hpc, hT]
    split
    · intro hk'
      simp only [TilePc.ref, Option.some.injEq] at hk'
      rw [← hk']; exact h.ref s k (by rw [hp]; rfl)
    · exact h.ref x k'
  case excl =>
    intro x y k'
    rw [hw, hw]
    split
    · split
      · next e1 e2 => intros; rw [e1, e2]
      · intro e h'; exact (hno y (e ▸ h')).elim
    · split
      · intro h' e; exact (hno x (e ▸ h')).elim
      · exact h.excl x y k'
  case tlock => intro u k' x; rw [htl u, hw]
  case free =>
    intro k' hk'
    rw [hT]
    apply h.free
    intro x
    by_cases e : x = s
    · rw [e, hp]; simp [TilePc.work]
    · have := hk' x
      rwa [hpc, if_neg e] at this
  case busy =>
    intro x k' v todo
    rw [hpc, hT]
    split
    · next e =>
      intro hp'
      simp only [TilePc.inTile.injEq] at hp'
      obtain ⟨rfl, rfl, rfl⟩ := hp'
      exact ⟨[], by rw [e]; rfl, by rw [h.free k hno]; rfl⟩
    · exact h.busy x k' v todo
  case sub => rw [hT]; exact h.sub
  case small =>
    intro x
    rw [hpc]
    split
    · next e => intro _; rw [e]; exact hs
    · exact h.small x

/-- An iteration changes its tile. -/
theorem tileInv_micro {loop : TileLoop R σ} {n : Nat} {C : Tiled R} {st : TileState R σ} {ord : List Nat}
    {S : Tiled R} (h : TileInv loop n C st ord S) {s : Nat} (hs : s < n) {k : List Nat} {v v' : σ}
    {f : σ × Strided R → Outcome (σ × Strided R)} {todo : List (σ × Strided R → Outcome (σ × Strided R))}
    (hp : st.pc s = .inTile k v (f :: todo)) {t : Strided R} (hf : f (v, st.tensor.base k) = .ok (v', t)) :
    TileInv loop n C ({ st with tensor := st.tensor.setTile k t }.goto s (.inTile k v' todo)) ord S := by
  have hex : (st.tensor.tiles.lookup k).isSome := h.ref s k (by rw [hp]; rfl)
  have hpc : ∀ x, (({ st with tensor := st.tensor.setTile k t } : TileState R σ).goto s (.inTile k v' todo)).pc x
      = if x = s then .inTile k v' todo else st.pc x := fun x => rfl
  have hw : ∀ x, ((({ st with tensor := st.tensor.setTile k t } : TileState R σ).goto s (.inTile k v' todo)).pc x).work
      = (st.pc x).work := by
    intro x
    rw [hpc]
    split
    · next e => rw [e, hp]; rfl
    · rfl
  have hl : ∀ k', ((st.tensor.setTile k t).tiles.lookup k').isSome = (st.tensor.tiles.lookup k').isSome := by
    intro k'
    rw [lookup_setTile]
    split
    · next e => rw [e]; simp
    · rfl
  constructor
  case ordN => exact h.ordN
  case ordm =>
    intro x
    rw [h.ordm, hpc]
    by_cases e : x = s
    · subst e; simp [hp]
    · simp [e]
  case hS => exact h.hS
  case sT => exact h.sT
  case sS => exact h.sS
  case keysN =>
    change ((st.tensor.setTile k t).tiles.map (·.1)).Nodup
    rw [setTile_keys]; exact h.keysN
  case grid => intro k' h'; exact h.grid k' (by rw [← hl]; exact h')
  case lock =>
    intro x
    change st.lockC = some x ↔ _
    rw [h.lock, hpc]
    split
    · next e => rw [e, hp]; simp [TilePc.holdsC]
    · rfl
  case key =>
    intro x k'
    rw [hpc]
    split
    · next e =>
      intro hk'
      simp only [TilePc.key, Option.some.injEq] at hk'
      rw [e, ← hk']; exact h.key s k (by rw [hp]; rfl)
    · exact h.key x k'
  case look =>
    intro x k' b
    rw [hpc]
    split
    · simp
    · intro hpx
      obtain ⟨h1, h2⟩ := h.look x k' b hpx
      exact ⟨h1, h2.trans (hl k').symm⟩
  case ref =>
    intro x k'
    rw [hpc]
    split
    · intro hk'
      simp only [TilePc.ref, Option.some.injEq] at hk'
      rw [← hk']
      exact (hl k).trans hex
    · intro hk'; exact (hl k').trans (h.ref x k' hk')
  case excl => intro x y k'; rw [hw, hw]; exact h.excl x y k'
  case tlock => intro u k' x; rw [hw]; exact h.tlock u k' x
  case free =>
    intro k' hk'
    have hne : k' ≠ k := by
      intro e
      have := hk' s
      rw [hw, hp, e] at this
      exact this rfl
    change (st.tensor.setTile k t).base k' = _
    rw [base_setTile hex, if_neg hne]
    exact h.free k' fun x => by rw [← hw]; exact hk' x
  case busy =>
    intro x k' w todo'
    rw [hpc]
    change _ → ∃ pre, _ ∧ _ = Outcome.ok (w, (st.tensor.setTile k t).base k')
    rw [base_setTile hex]
    split
    · next e =>
      intro hp'
      simp only [TilePc.inTile.injEq] at hp'
      obtain ⟨rfl, rfl, rfl⟩ := hp'
      obtain ⟨pre, h1, h2⟩ := h.busy s k v (f :: todo) hp
      refine ⟨pre ++ [f], by rw [e, h1]; simp, ?_⟩
      rw [List.foldlM_append, h2, Outcome.ok_bind, List.foldlM_cons, hf, if_pos rfl]
      rfl
    · next e =>
      intro hpx
      have hne : k' ≠ k := by
        intro e'
        exact e (h.excl x s k (by rw [hpx, e']; rfl) (by rw [hp]; rfl))
      rw [if_neg hne]
      exact h.busy x k' w todo' hpx
  case sub => intro k' h'; exact (hl k').trans (h.sub k' h')
  case small =>
    intro x
    rw [hpc]
    split
    · next e => intro _; rw [e]; exact hs
    · exact h.small x

/-- One step keeps the invariant. -/
theorem tileInv_step {loop : TileLoop R σ} {n : Nat} {C : Tiled R} (hx : loop.Guarded n) {st st' : TileState R σ} {ord : List Nat}
    {S : Tiled R} (h : TileInv loop n C st ord S) {s : Nat} (hs : s < n) (he : tileStep loop st s = .ok st') :
    ∃ ord' S', TileInv loop n C st' ord' S' := by
  unfold tileStep at he
  split at he
  · next hp =>
    cases hen : loop.enter s with
    | error m => rw [hen] at he; simp at he
    | ub m => rw [hen] at he; simp at he
    | ok key =>
      rw [hen, Outcome.ok_bind] at he
      cases key with
      | none =>
        simp only [Outcome.pure_eq, Outcome.ok.injEq] at he
        subst he
        refine ⟨ord ++ [s], S, tileInv_done h hs rfl (fun x => rfl) (by rw [hp]; simp) (by rw [hp]; rfl) rfl
          (by simp [tileWhole, hen]) ⟨rfl, rfl, rfl⟩ ?_ (by rw [hp]; simp [TilePc.work]) (fun _ _ => rfl) (fun _ h => .inl h)⟩
        intro u k x
        change st.lockTile k = some x ↔ _
        rw [h.tlock u]
        split
        · next e => rw [e, hp]; simp [TilePc.work]
        · rfl
      | some idx =>
        simp only [Outcome.pure_eq] at he
        split at he
        · rw [← Outcome.ok.inj he]; exact ⟨ord, S, h⟩
        · next hl =>
          rw [← Outcome.ok.inj he]
          refine ⟨ord, S, tileInv_goto h hs (p := .inC idx) rfl rfl (fun x => rfl) (by rw [hp]; rfl) rfl (by rw [hp]; simp) (by simp)
            ?_ ?_ (by simp) (by simp [TilePc.ref])⟩
          · intro x
            change some s = some x ↔ _
            split
            · next e => simp [e, TilePc.holdsC]
            · next e =>
              rw [← h.lock]
              have : st.lockC = none := by simpa using hl
              rw [this]
              simp [Ne.symm e]
          · intro k hk
            simp only [TilePc.key, Option.some.injEq] at hk
            rw [hen, hk]
  · next idx hp =>
    cases hc : st.tensor.tileCoords (toIdx idx) with
    | error m => rw [hc] at he; simp at he
    | ub m => rw [hc] at he; simp at he
    | ok k =>
      rw [hc, Outcome.ok_bind] at he
      rw [← Outcome.ok.inj he]
      obtain ⟨e1, e2⟩ := tileCoords_nat hc
      refine ⟨ord, S, tileInv_goto h hs (p := .looked k (st.tensor.hasTile (toIdx k))) rfl rfl (fun x => rfl) (by rw [hp]; rfl) rfl
        (by rw [hp]; simp) (by simp) ?_ ?_ ?_ (by simp [TilePc.ref])⟩
      · intro x
        change st.lockC = some x ↔ _
        rw [h.lock]
        split
        · next e => rw [e, hp]; simp [TilePc.holdsC]
        · rfl
      · intro k' hk'
        simp only [TilePc.key, Option.some.injEq] at hk'
        rw [← hk', e1]
        exact h.key s idx (by rw [hp]; rfl)
      · intro k' b hb
        simp only [TilePc.looked.injEq] at hb
        obtain ⟨rfl, rfl⟩ := hb
        rw [hasTile_eq e2]
        rw [h.sT.1] at e2
        exact ⟨e2, rfl⟩
  · next k found hp =>
    rw [← Outcome.ok.inj he]
    obtain ⟨hk, hf⟩ := h.look s k found hp
    have hother : ∀ x k' b, x ≠ s → st.pc x ≠ .looked k' b := by
      intro x k' b hxs hpx
      have h1 := (h.lock x).2 (by rw [hpx]; rfl)
      have h2 := (h.lock s).2 (by rw [hp]; rfl)
      rw [h1] at h2
      exact hxs (Option.some.inj h2)
    have hkey := h.key s k (by rw [hp]; rfl)
    refine ⟨ord, S, ?_⟩
    obtain ⟨T, hTd⟩ : ∃ T, T = if found then st.tensor else st.tensor.addTile k := ⟨_, rfl⟩
    have hT : T.sizes = st.tensor.sizes ∧ T.offsets = st.tensor.offsets ∧ T.dims = st.tensor.dims ∧
        (T.tiles.map (·.1)).Nodup ∧ (T.tiles.lookup k).isSome ∧ (∀ k', T.base k' = st.tensor.base k') ∧
        (∀ k', (T.tiles.lookup k').isSome → (st.tensor.tiles.lookup k').isSome ∨ k' = k) ∧
        ∀ k', (st.tensor.tiles.lookup k').isSome → (T.tiles.lookup k').isSome := by
      rw [hTd]
      cases found with
      | true => exact ⟨rfl, rfl, rfl, h.keysN, hf.symm, fun _ => rfl, fun _ h => .inl h, fun _ h => h⟩
      | false =>
        have hn : st.tensor.tiles.lookup k = none := by
          apply Option.not_isSome_iff_eq_none.1
          rw [← hf]; simp
        obtain ⟨a1, a2, a3, a4⟩ := addTile_shape hn
        simp only [Bool.false_eq_true, if_false]
        refine ⟨a1, a2, a3, ?_, by rw [lookup_addTile hn, if_pos rfl]; rfl, base_addTile hn, ?_, ?_⟩
        · rw [a4, List.nodup_cons]
          exact ⟨lookup_eq_none.1 hn, h.keysN⟩
        · intro k' h'
          rw [lookup_addTile hn] at h'
          split at h'
          · next e => exact .inr e
          · exact .inl h'
        · intro k' h'
          rw [lookup_addTile hn]
          split
          · rfl
          · exact h'
    rw [← hTd]
    obtain ⟨t1, t2, t3, t4, t5, t6, t7, t8⟩ := hT
    have hpc : ∀ x, (({ st with tensor := T } : TileState R σ).goto s (.hasRef k)).pc x
        = if x = s then .hasRef k else st.pc x := fun x => rfl
    have hw : ∀ x, ((({ st with tensor := T } : TileState R σ).goto s (.hasRef k)).pc x).work = (st.pc x).work := by
      intro x
      rw [hpc]
      split
      · next e => rw [e, hp]; rfl
      · rfl
    constructor
    case ordN => exact h.ordN
    case ordm =>
      intro x
      rw [h.ordm, hpc]
      by_cases e : x = s
      · subst e; simp [hp]
      · simp [e]
    case hS => exact h.hS
    case sT => exact ⟨t1.trans h.sT.1, t2.trans h.sT.2.1, t3.trans h.sT.2.2⟩
    case sS => exact h.sS
    case keysN => exact t4
    case grid => intro k' h'; exact (t7 k' h').elim (h.grid k') fun e => e ▸ hk
    case lock =>
      intro x
      change st.lockC = some x ↔ _
      rw [h.lock, hpc]
      split
      · next e => rw [e, hp]; simp [TilePc.holdsC]
      · rfl
    case key =>
      intro x k'
      rw [hpc]
      split
      · next e =>
        intro hk'
        simp only [TilePc.key, Option.some.injEq] at hk'
        rw [e, ← hk']; exact hkey
      · exact h.key x k'
    case look =>
      intro x k' b
      rw [hpc]
      split
      · simp
      · next e => intro hpx; exact (hother x k' b e hpx).elim
    case ref =>
      intro x k'
      rw [hpc]
      split
      · intro hk'
        simp only [TilePc.ref, Option.some.injEq] at hk'
        rw [← hk']; exact t5
      · intro hk'; exact t8 k' (h.ref x k' hk')
    case excl => intro x y k'; rw [hw, hw]; exact h.excl x y k'
    case tlock => intro u k' x; rw [hw]; exact h.tlock u k' x
    case free => intro k' hk'; exact (t6 k').trans (h.free k' fun x => by rw [← hw]; exact hk' x)
    case busy =>
      intro x k' v todo
      rw [hpc]
      split
      · simp
      · intro hpx
        obtain ⟨pre, h1, h2⟩ := h.busy x k' v todo hpx
        refine ⟨pre, h1, ?_⟩
        rw [h2]
        exact congrArg (fun t => Outcome.ok (v, t)) (t6 k').symm
    case sub => intro k' h'; exact t8 k' (h.sub k' h')
    case small =>
      intro x
      rw [hpc]
      split
      · next e => intro _; rw [e]; exact hs
      · exact h.small x
  · next k hp =>
    rw [← Outcome.ok.inj he]
    refine ⟨ord, S, tileInv_goto h hs (p := .outC k) rfl rfl (fun x => rfl) (by rw [hp]; rfl) rfl
      (by rw [hp]; simp) (by simp) ?_ ?_ (by simp) ?_⟩
    · intro x
      change none = some x ↔ _
      split
      · simp [TilePc.holdsC]
      · next e =>
        rw [← h.lock, (h.lock s).2 (by rw [hp]; rfl)]
        simp [Ne.symm e]
    · intro k' hk'
      simp only [TilePc.key, Option.some.injEq] at hk'
      exact h.key s k' (by rw [hp, ← hk']; rfl)
    · intro k' hk'
      simp only [TilePc.ref, Option.some.injEq] at hk'
      exact h.ref s k' (by rw [hp, ← hk']; rfl)
  · next k hp =>
    split at he
    · next hu =>
      split at he
      · rw [← Outcome.ok.inj he]; exact ⟨ord, S, h⟩
      · next hl =>
        rw [← Outcome.ok.inj he]
        have hl' : st.lockTile k = none := by simpa using hl
        have hno : ∀ x, (st.pc x).work ≠ some k := by
          intro x hw
          rw [← h.tlock hu, hl'] at hw
          simp at hw
        refine ⟨ord, S, tileInv_begin h hs hp rfl rfl (fun x => rfl) hno ?_⟩
        intro _ k' x
        change (if k' = k then some s else st.lockTile k') = some x ↔ _
        by_cases e : k' = k
        · rw [if_pos e]
          by_cases ex : x = s
          · simp [ex, e]
          · rw [if_neg ex, e]
            simp [Ne.symm ex, hno x]
        · rw [if_neg e, h.tlock hu]
          by_cases ex : x = s
          · rw [ex, hp]; simp [e, TilePc.work]
          · rw [if_neg ex]
    · next hu =>
      rw [← Outcome.ok.inj he]
      refine ⟨ord, S, tileInv_begin h hs hp rfl rfl (fun x => rfl) ?_ (fun u => (hu u).elim)⟩
      intro x hw
      rcases hx with hx | hx
      · exact hu hx
      · obtain ⟨v, todo, hpx⟩ := work_inTile hw
        have := hx x s k (h.small x (by rw [hpx]; simp)) hs (h.key x k (by rw [hpx]; rfl)) (h.key s k (by rw [hp]; rfl))
        rw [this, hp] at hpx
        simp at hpx
  · next k v f todo hp =>
    have hex : (st.tensor.tiles.lookup k).isSome := h.ref s k (by rw [hp]; rfl)
    rw [at_base hex, Outcome.ok_bind] at he
    cases hf : f (v, st.tensor.base k) with
    | error m => rw [hf] at he; simp at he
    | ub m => rw [hf] at he; simp at he
    | ok q =>
      rw [hf, Outcome.ok_bind] at he
      rw [← Outcome.ok.inj he]
      exact ⟨ord, S, tileInv_micro h hs hp (v' := q.1) (t := q.2) hf⟩
  · next k v hp =>
    have hex : (st.tensor.tiles.lookup k).isSome := h.ref s k (by rw [hp]; rfl)
    have hk : InBox k (gridDims S.sizes) := by rw [h.sS.1]; exact h.grid k hex
    have hkey := h.key s k (by rw [hp]; rfl)
    obtain ⟨pre, h1, h2⟩ := h.busy s k v [] hp
    rw [List.append_nil] at h1
    obtain ⟨S1, a1, a2, a3, a4, a5, a6, a7⟩ := tileWhole_eq (loop := loop) (S := S) hkey hk
    rw [h1, h2, Outcome.ok_bind] at a7
    have hwk : (st.pc s).work = some k := by rw [hp]; rfl
    have goal : ∀ st' : TileState R σ, st'.tensor = st.tensor → st'.lockC = st.lockC →
        (∀ x, st'.pc x = if x = s then .done else st.pc x) →
        (loop.useLock = true → ∀ k' x, st'.lockTile k' = some x ↔ ((if x = s then .done else st.pc x).work = some k')) →
        ∃ ord' S', TileInv loop n C st' ord' S' := by
      intro st' hT hlC hpc htl
      refine ⟨ord ++ [s], _, tileInv_done h hs hT hpc (by rw [hp]; simp) (by rw [hp]; rfl) hlC a7 ⟨a1, a2, a3⟩ htl ?_ ?_ ?_⟩
      · intro k' hk'
        rw [hwk] at hk'
        obtain rfl := Option.some.inj hk'
        rw [base_setTile a4, if_pos rfl]
      · intro k' hk'
        rw [base_setTile a4, if_neg, a5]
        intro e
        exact hk' (by rw [e]; exact hwk)
      · intro k' hk'
        rw [lookup_setTile] at hk'
        split at hk'
        · next e => rw [e]; exact .inr hex
        · rcases a6 k' hk' with g | g
          · exact .inl g
          · rw [g]; exact .inr hex
    split at he
    · next hu =>
      rw [← Outcome.ok.inj he]
      refine goal _ rfl rfl (fun x => rfl) ?_
      intro _ k' x
      change (if k' = k then none else st.lockTile k') = some x ↔ _
      by_cases e : k' = k
      · rw [if_pos e]
        by_cases ex : x = s
        · simp [ex, TilePc.work]
        · rw [if_neg ex, e]
          simp only [reduceCtorEq, false_iff]
          intro hw
          exact ex (h.excl x s k hw hwk)
      · rw [if_neg e, h.tlock hu]
        by_cases ex : x = s
        · rw [ex, hwk]; simp [TilePc.work, Ne.symm e]
        · rw [if_neg ex]
    · next hu =>
      rw [← Outcome.ok.inj he]
      exact goal _ rfl rfl (fun x => rfl) fun u => (hu u).elim
  · next hp => rw [← Outcome.ok.inj he]; exact ⟨ord, S, h⟩

/-! ### No step fails -/

theorem ord_small {loop : TileLoop R σ} {n : Nat} {C : Tiled R} {st : TileState R σ} {ord : List Nat}
    {S : Tiled R} (h : TileInv loop n C st ord S) : ∀ x ∈ ord, x < n :=
  fun x hx => h.small x (by rw [(h.ordm x).1 hx]; simp)

/-- If no order of whole iterations fails, no step fails. -/
theorem step_ok {loop : TileLoop R σ} {n : Nat} {C : Tiled R} {st : TileState R σ} {ord : List Nat}
    {S : Tiled R} (h : TileInv loop n C st ord S)
    (hseq : ∀ l : List Nat, l.Nodup → (∀ x ∈ l, x < n) → ∃ S, l.foldlM (tileWhole loop) C = .ok S) {s : Nat} (hs : s < n) :
    ∃ st', tileStep loop st s = .ok st' := by
  have next : st.pc s ≠ .done → ∃ S', tileWhole loop S s = .ok S' := by
    intro d
    have hns : s ∉ ord := by rw [h.ordm]; exact d
    obtain ⟨S', h'⟩ := hseq (ord ++ [s]) (by
        rw [List.nodup_append]
        refine ⟨h.ordN, by simp, ?_⟩
        intro a ha b hb e
        rw [List.mem_singleton] at hb
        exact hns (by rw [← hb, ← e]; exact ha)) (by
        intro x hx
        rcases List.mem_append.1 hx with hx | hx
        · exact ord_small h x hx
        · rw [List.mem_singleton.1 hx]; exact hs)
    rw [List.foldlM_append, h.hS, Outcome.ok_bind, List.foldlM_cons] at h'
    cases ht : tileWhole loop S s with
    | ok S2 => exact ⟨S2, rfl⟩
    | error m => rw [ht] at h'; simp at h'
    | ub m => rw [ht] at h'; simp at h'
  unfold tileStep
  split
  · next hp =>
    obtain ⟨S', h'⟩ := next (by rw [hp]; simp)
    unfold tileWhole at h'
    cases hen : loop.enter s with
    | error m => rw [hen] at h'; simp at h'
    | ub m => rw [hen] at h'; simp at h'
    | ok key =>
      rw [Outcome.ok_bind]
      cases key with
      | none => exact ⟨_, rfl⟩
      | some idx =>
        simp only
        split <;> exact ⟨_, rfl⟩
  · next idx hp =>
    obtain ⟨S', h'⟩ := next (by rw [hp]; simp)
    unfold tileWhole Tiled.tile at h'
    rw [h.key s idx (by rw [hp]; rfl), Outcome.ok_bind] at h'
    simp only at h'
    have e : st.tensor.tileCoords (toIdx idx) = S.tileCoords (toIdx idx) := by
      unfold Tiled.tileCoords
      rw [h.sT.1, h.sS.1]
    rw [e]
    cases hc : S.tileCoords (toIdx idx) with
    | error m => rw [hc] at h'; simp at h'
    | ub m => rw [hc] at h'; simp at h'
    | ok k => exact ⟨_, rfl⟩
  · exact ⟨_, rfl⟩
  · exact ⟨_, rfl⟩
  · split
    · split <;> exact ⟨_, rfl⟩
    · exact ⟨_, rfl⟩
  · next k v f todo hp =>
    have hex : (st.tensor.tiles.lookup k).isSome := h.ref s k (by rw [hp]; rfl)
    have hk : InBox k (gridDims S.sizes) := by rw [h.sS.1]; exact h.grid k hex
    obtain ⟨S', h'⟩ := next (by rw [hp]; simp)
    obtain ⟨S1, _, _, _, _, _, _, a7⟩ := tileWhole_eq (loop := loop) (S := S) (h.key s k (by rw [hp]; rfl)) hk
    obtain ⟨pre, h1, h2⟩ := h.busy s k v (f :: todo) hp
    rw [a7, h1, List.foldlM_append, h2, Outcome.ok_bind, List.foldlM_cons] at h'
    rw [at_base hex, Outcome.ok_bind]
    cases hf : f (v, st.tensor.base k) with
    | error m => rw [hf] at h'; simp at h'
    | ub m => rw [hf] at h'; simp at h'
    | ok q => exact ⟨_, rfl⟩
  · split <;> exact ⟨_, rfl⟩
  · exact ⟨_, rfl⟩

/-- Every run from the start: the invariant holds. -/
theorem run_inv {loop : TileLoop R σ} {n : Nat} {C : Tiled R} (hx : loop.Guarded n) (sch : List Nat) (hs : ∀ s ∈ sch, s < n) :
    ∀ {st st' : TileState R σ} {ord : List Nat} {S : Tiled R}, TileInv loop n C st ord S → tileRun loop sch st = .ok st' →
      ∃ ord' S', TileInv loop n C st' ord' S' := by
  induction sch with
  | nil =>
    intro st st' ord S h he
    obtain rfl := Outcome.ok.inj he
    exact ⟨ord, S, h⟩
  | cons s sch ih =>
    intro st st' ord S h he
    unfold tileRun at he
    rw [List.foldlM_cons] at he
    cases h1 : tileStep loop st s with
    | error m => rw [h1] at he; simp at he
    | ub m => rw [h1] at he; simp at he
    | ok st1 =>
      rw [h1, Outcome.ok_bind] at he
      obtain ⟨ord1, S1, h2⟩ := tileInv_step hx h (hs s (by simp)) h1
      exact ih (fun x hx => hs x (by simp [hx])) h2 he

/-- No run fails if no order of whole iterations does. -/
theorem run_ok {loop : TileLoop R σ} {n : Nat} {C : Tiled R} (hx : loop.Guarded n)
    (hseq : ∀ l : List Nat, l.Nodup → (∀ x ∈ l, x < n) → ∃ S, l.foldlM (tileWhole loop) C = .ok S)
    (sch : List Nat) (hs : ∀ s ∈ sch, s < n) :
    ∀ {st : TileState R σ} {ord : List Nat} {S : Tiled R}, TileInv loop n C st ord S → ∃ st', tileRun loop sch st = .ok st' := by
  induction sch with
  | nil => intro st ord S _; exact ⟨st, rfl⟩
  | cons s sch ih =>
    intro st ord S h
    obtain ⟨st1, h1⟩ := step_ok h hseq (hs s (by simp))
    obtain ⟨ord1, S1, h2⟩ := tileInv_step hx h (hs s (by simp)) h1
    obtain ⟨st2, h3⟩ := ih (fun x hx => hs x (by simp [hx])) h2
    refine ⟨st2, ?_⟩
    unfold tileRun
    rw [List.foldlM_cons, h1]
    exact h3

/-! ### Every fair schedule ends -/

omit [Zero R] in
/-- How many steps an iteration has before it. -/
def Model.TilePc.rest (m : Nat) : TilePc R σ → Nat
  | .start => m + 6
  | .inC _ => m + 5
  | .looked _ _ => m + 4
  | .hasRef _ => m + 3
  | .outC _ => m + 2
  | .inTile _ _ todo => todo.length + 1
  | .done => 0

omit [Zero R] in
/-- How many steps are before all iterations. -/
def tileSteps (loop : TileLoop R σ) (n : Nat) (st : TileState R σ) : Nat :=
  ((List.range n).map fun s => (st.pc s).rest (loop.micro s).length).sum

theorem step_rest {loop : TileLoop R σ} {st st' : TileState R σ} {s : Nat} (he : tileStep loop st s = .ok st') :
    st' = st ∨ ∃ p, (∀ x, st'.pc x = if x = s then p else st.pc x) ∧
      p.rest (loop.micro s).length < (st.pc s).rest (loop.micro s).length := by
  unfold tileStep at he
  split at he
  · next hp =>
    cases hen : loop.enter s with
    | error m => rw [hen] at he; simp at he
    | ub m => rw [hen] at he; simp at he
    | ok key =>
      rw [hen, Outcome.ok_bind] at he
      cases key with
      | none =>
        rw [← Outcome.ok.inj he]
        exact .inr ⟨_, fun x => rfl, by rw [hp]; simp [TilePc.rest]⟩
      | some idx =>
        simp only [Outcome.pure_eq] at he
        split at he
        · exact .inl (Outcome.ok.inj he).symm
        · rw [← Outcome.ok.inj he]
          exact .inr ⟨_, fun x => rfl, by rw [hp]; simp [TilePc.rest]⟩
  · next idx hp =>
    cases hc : st.tensor.tileCoords (toIdx idx) with
    | error m => rw [hc] at he; simp at he
    | ub m => rw [hc] at he; simp at he
    | ok k =>
      rw [hc, Outcome.ok_bind] at he
      rw [← Outcome.ok.inj he]
      exact .inr ⟨_, fun x => rfl, by rw [hp]; simp [TilePc.rest]⟩
  · next hp =>
    rw [← Outcome.ok.inj he]
    exact .inr ⟨_, fun x => rfl, by rw [hp]; simp [TilePc.rest]⟩
  · next hp =>
    rw [← Outcome.ok.inj he]
    exact .inr ⟨_, fun x => rfl, by rw [hp]; simp [TilePc.rest]⟩
  · next hp =>
    split at he
    · split at he
      · exact .inl (Outcome.ok.inj he).symm
      · rw [← Outcome.ok.inj he]
        exact .inr ⟨_, fun x => rfl, by rw [hp]; simp [TilePc.rest]⟩
    · rw [← Outcome.ok.inj he]
      exact .inr ⟨_, fun x => rfl, by rw [hp]; simp [TilePc.rest]⟩
  · next k v f todo hp =>
    cases hc : st.tensor.at k with
    | error m => rw [hc] at he; simp at he
    | ub m => rw [hc] at he; simp at he
    | ok t =>
      rw [hc, Outcome.ok_bind] at he
      cases hf : f (v, t) with
      | error m => rw [hf] at he; simp at he
      | ub m => rw [hf] at he; simp at he
      | ok q =>
        rw [hf, Outcome.ok_bind] at he
        rw [← Outcome.ok.inj he]
        exact .inr ⟨_, fun x => rfl, by rw [hp]; simp [TilePc.rest]⟩
  · next hp =>
    split at he
    · rw [← Outcome.ok.inj he]
      exact .inr ⟨_, fun x => rfl, by rw [hp]; simp [TilePc.rest]⟩
    · rw [← Outcome.ok.inj he]
      exact .inr ⟨_, fun x => rfl, by rw [hp]; simp [TilePc.rest]⟩
  · exact .inl (Outcome.ok.inj he).symm

theorem sum_update_lt {n s : Nat} (hs : s < n) {f g : Nat → Nat} (h : f s < g s) (e : ∀ x, x ≠ s → f x = g x) :
    ((List.range n).map f).sum < ((List.range n).map g).sum := by
  induction n with
  | zero => omega
  | succ n ih =>
    rw [List.range_succ, List.map_append, List.map_append, List.sum_append, List.sum_append]
    simp only [List.map_cons, List.map_nil, List.sum_cons, List.sum_nil, Nat.add_zero]
    by_cases c : s = n
    · subst c
      have : (List.range s).map f = (List.range s).map g :=
        List.map_congr_left fun x hx => e x (by have := List.mem_range.1 hx; omega)
      rw [this]
      omega
    · have := ih (by omega)
      rw [e n (Ne.symm c)]
      omega

theorem step_steps {loop : TileLoop R σ} {n : Nat} {st st' : TileState R σ} {s : Nat} (hs : s < n)
    (he : tileStep loop st s = .ok st') : st' = st ∨ tileSteps loop n st' < tileSteps loop n st := by
  rcases step_rest he with h | ⟨p, h1, h2⟩
  · exact .inl h
  · refine .inr (sum_update_lt hs ?_ ?_)
    · rw [h1, if_pos rfl]; exact h2
    · intro x hx; rw [h1, if_neg hx]

/-- Some iteration can move unless all have ended. -/
theorem exists_move {loop : TileLoop R σ} {n : Nat} {C : Tiled R} {st : TileState R σ} {ord : List Nat}
    {S : Tiled R} (h : TileInv loop n C st ord S) (hd : ∃ s, s < n ∧ st.pc s ≠ .done) :
    ∃ e, e < n ∧ tileStep loop st e ≠ .ok st := by
  have move : ∀ (e : Nat) (st' : TileState R σ) (p : TilePc R σ), st'.pc e = p → p.rest (loop.micro e).length ≠
      (st.pc e).rest (loop.micro e).length → Outcome.ok st' ≠ Outcome.ok st := by
    intro e st' p h1 h2 h3
    rw [Outcome.ok.inj h3] at h1
    rw [h1] at h2
    exact h2 rfl
  by_cases hl : ∃ s, st.lockC = some s
  · obtain ⟨s, hl⟩ := hl
    have hh := (h.lock s).1 hl
    have hs : s < n := h.small s (by intro e; rw [e] at hh; simp [TilePc.holdsC] at hh)
    refine ⟨s, hs, ?_⟩
    unfold tileStep
    cases hp : st.pc s with
    | start => rw [hp] at hh; simp [TilePc.holdsC] at hh
    | outC k => rw [hp] at hh; simp [TilePc.holdsC] at hh
    | inTile k v todo => rw [hp] at hh; simp [TilePc.holdsC] at hh
    | done => rw [hp] at hh; simp [TilePc.holdsC] at hh
    | inC idx =>
      simp only
      cases hc : st.tensor.tileCoords (toIdx idx) with
      | error m => simp
      | ub m => simp
      | ok k =>
        rw [Outcome.ok_bind]
        exact move s _ _ (by simp only [goto_pc, if_true]; rfl) (by rw [hp]; simp [TilePc.rest])
    | looked k b => exact move s _ _ (by simp only [goto_pc, if_true]; rfl) (by rw [hp]; simp [TilePc.rest])
    | hasRef k => exact move s _ _ (by simp only [goto_pc, if_true]; rfl) (by rw [hp]; simp [TilePc.rest])
  · have hl' : st.lockC = none := by
      cases hc : st.lockC with
      | none => rfl
      | some s => exact (hl ⟨s, hc⟩).elim
    by_cases hw : ∃ s k, (st.pc s).work = some k
    · obtain ⟨s, k, hw⟩ := hw
      obtain ⟨v, todo, hp⟩ := work_inTile hw
      refine ⟨s, h.small s (by rw [hp]; simp), ?_⟩
      unfold tileStep
      rw [hp]
      cases todo with
      | nil =>
        simp only
        split
        · exact move s _ _ (by simp only [goto_pc, if_true]; rfl) (by rw [hp]; simp [TilePc.rest])
        · exact move s _ _ (by simp only [goto_pc, if_true]; rfl) (by rw [hp]; simp [TilePc.rest])
      | cons f todo =>
        simp only
        rw [at_base (h.ref s k (by rw [hp]; rfl)), Outcome.ok_bind]
        cases hf : f (v, st.tensor.base k) with
        | error m => simp
        | ub m => simp
        | ok q =>
          rw [Outcome.ok_bind]
          exact move s _ _ (by simp only [goto_pc, if_true]; rfl) (by rw [hp]; simp [TilePc.rest])
    · obtain ⟨s, hs, hd⟩ := hd
      refine ⟨s, hs, ?_⟩
      unfold tileStep
      cases hp : st.pc s with
      | done => exact (hd hp).elim
      | inC idx => have := (h.lock s).2 (by rw [hp]; rfl); rw [hl'] at this; simp at this
      | looked k b => have := (h.lock s).2 (by rw [hp]; rfl); rw [hl'] at this; simp at this
      | hasRef k => have := (h.lock s).2 (by rw [hp]; rfl); rw [hl'] at this; simp at this
      | inTile k v todo => exact (hw ⟨s, k, by rw [hp]; rfl⟩).elim
      | start =>
        simp only
        cases hen : loop.enter s with
        | error m => simp
        | ub m => simp
        | ok key =>
          rw [Outcome.ok_bind]
          cases key with
          | none => exact move s _ _ (by simp only [goto_pc, if_true]; rfl) (by rw [hp]; simp [TilePc.rest])
          | some idx =>
            simp only [hl', Option.isSome_none, Bool.false_eq_true, if_false]
            exact move s _ _ (by simp only [goto_pc, if_true]; rfl) (by rw [hp]; simp [TilePc.rest])
      | outC k =>
        simp only
        split
        · next hu =>
          have : st.lockTile k = none := by
            cases hc : st.lockTile k with
            | none => rfl
            | some x => exact (hw ⟨x, k, (h.tlock hu k x).1 hc⟩).elim
          simp only [this, Option.isSome_none, Bool.false_eq_true, if_false]
          exact move s _ _ (by simp only [goto_pc, if_true]; rfl) (by rw [hp]; simp [TilePc.rest])
        · exact move s _ _ (by simp only [goto_pc, if_true]; rfl) (by rw [hp]; simp [TilePc.rest])

/-- A run either leaves fewer steps or no iteration in it could move. -/
theorem run_steps {loop : TileLoop R σ} {n : Nat} (sch : List Nat) (hs : ∀ s ∈ sch, s < n) :
    ∀ {st st' : TileState R σ}, tileRun loop sch st = .ok st' →
      tileSteps loop n st' < tileSteps loop n st ∨ (st' = st ∧ ∀ s ∈ sch, tileStep loop st s = .ok st) := by
  induction sch with
  | nil => intro st st' he; exact .inr ⟨(Outcome.ok.inj he).symm, by simp⟩
  | cons s sch ih =>
    intro st st' he
    unfold tileRun at he
    rw [List.foldlM_cons] at he
    cases h1 : tileStep loop st s with
    | error m => rw [h1] at he; simp at he
    | ub m => rw [h1] at he; simp at he
    | ok st1 =>
      rw [h1, Outcome.ok_bind] at he
      have h2 := ih (fun x hx => hs x (by simp [hx])) he
      rcases step_steps (hs s (by simp)) h1 with rfl | h3
      · rcases h2 with h2 | ⟨h2, h4⟩
        · exact .inl h2
        · refine .inr ⟨h2, ?_⟩
          intro x hx
          rcases List.mem_cons.1 hx with rfl | hx
          · exact h1
          · exact h4 x hx
      · rcases h2 with h2 | ⟨h2, _⟩
        · exact .inl (Nat.lt_trans h2 h3)
        · rw [h2]; exact .inl h3

omit [Zero R] in
theorem done_of_steps {loop : TileLoop R σ} {n : Nat} {st : TileState R σ} (h : tileSteps loop n st = 0) :
    ∀ s, s < n → st.pc s = .done := by
  intro s hs
  have h1 := List.sum_eq_zero_iff_forall_eq_nat.1 h _ (List.mem_map_of_mem (List.mem_range.2 hs))
  cases hp : st.pc s <;> rw [hp] at h1 <;> simp [TilePc.rest] at h1 ⊢

/-- Rounds in which every iteration gets a turn. -/
theorem rounds_end {loop : TileLoop R σ} {n : Nat} {C : Tiled R} (hx : loop.Guarded n) (rounds : List (List Nat))
    (hr : ∀ r ∈ rounds, (∀ s ∈ r, s < n) ∧ ∀ s, s < n → s ∈ r) :
    ∀ {st st' : TileState R σ} {ord : List Nat} {S : Tiled R}, TileInv loop n C st ord S →
      tileRun loop rounds.flatten st = .ok st' → tileSteps loop n st ≤ rounds.length → ∀ s, s < n → st'.pc s = .done := by
  induction rounds with
  | nil =>
    intro st st' ord S h he hl
    obtain rfl := Outcome.ok.inj he
    exact done_of_steps (Nat.le_zero.1 hl)
  | cons r rounds ih =>
    intro st st' ord S h he hl
    unfold tileRun at he
    rw [List.flatten_cons, List.foldlM_append] at he
    obtain ⟨hr1, hr2⟩ := hr r (by simp)
    cases h1 : tileRun loop r st with
    | error m => unfold tileRun at h1; rw [h1] at he; simp at he
    | ub m => unfold tileRun at h1; rw [h1] at he; simp at he
    | ok st1 =>
      obtain ⟨ord1, S1, h2⟩ := run_inv hx r hr1 h h1
      have h3 := run_steps r hr1 h1
      unfold tileRun at h1
      rw [h1, Outcome.ok_bind] at he
      rcases h3 with h3 | ⟨h3, h4⟩
      · exact ih (fun x hx => hr x (by simp [hx])) h2 he (by simp only [List.length_cons] at hl; omega)
      · have hdone : ∀ s, s < n → st.pc s = .done := by
          intro s hs
          by_contra hc
          obtain ⟨e, he1, he2⟩ := exists_move h ⟨s, hs, hc⟩
          exact he2 (h4 e (hr2 e he1))
        have h0 : tileSteps loop n st1 = 0 := by
          rw [h3]
          apply List.sum_eq_zero_iff_forall_eq_nat.2
          intro y hy
          obtain ⟨x, hx', rfl⟩ := List.mem_map.1 hy
          rw [hdone x (List.mem_range.1 hx')]
          rfl
        exact ih (fun x hx => hr x (by simp [hx])) h2 he (by rw [h0]; omega)

/-! ### The final state -/

/-- When all iterations have ended, the tensor is that of some order of whole iterations, up to tiles of zeros. -/
theorem tileInv_final {loop : TileLoop R σ} {n : Nat} {C : Tiled R} {st : TileState R σ} {ord : List Nat}
    {S : Tiled R} (h : TileInv loop n C st ord S) (hd : ∀ s, s < n → st.pc s = .done) :
    ord.Perm (List.range n) ∧ ∀ k, st.tensor.base k = S.base k := by
  constructor
  · apply (List.perm_ext_iff_of_nodup h.ordN List.nodup_range).2
    intro s
    rw [List.mem_range]
    exact ⟨ord_small h s, fun hs => (h.ordm s).2 (hd s hs)⟩
  · intro k
    apply h.free
    intro s hw
    obtain ⟨v, todo, hp⟩ := work_inTile hw
    have := hd s (h.small s (by rw [hp]; simp))
    rw [hp] at this
    simp at this

omit [Zero R] in
theorem tileDims_ne {T : Tiled R} (w : T.sizes ≠ []) {k : List Nat} (hk : InBox k (gridDims T.sizes)) : tileDims T.sizes k ≠ [] := by
  intro e
  have := tileDims_length hk
  rw [e] at this
  exact w (List.length_eq_zero_iff.1 (by simpa using this.symm))

/-- Tensors that agree up to tiles of zeros: what one holds, the other holds. -/
theorem holds_base {T S : Tiled R} (w : S.WF) {f : List Nat → R} (h : S.Holds f) (hT : T.sizes = S.sizes ∧ T.offsets = S.offsets ∧
    T.dims = S.dims) (hn : (T.tiles.map (·.1)).Nodup) (hg : ∀ k, (T.tiles.lookup k).isSome → InBox k (gridDims S.sizes))
    (hb : ∀ k, T.base k = S.base k) (hsub : ∀ k, (S.tiles.lookup k).isSome → (T.tiles.lookup k).isSome) : T.WF ∧ T.Holds f := by
  have key : ∀ k τ, T.tiles.lookup k = some τ → S.tiles.lookup k = some τ ∨
      (S.tiles.lookup k = none ∧ τ = Strided.mk' (fun _ => 0) (tileDims S.sizes k)) := by
    intro k τ hk
    have := hb k
    unfold Tiled.base at this
    rw [hk] at this
    cases hS : S.tiles.lookup k with
    | none => rw [hS] at this; exact .inr ⟨rfl, this⟩
    | some τ' => rw [hS] at this; exact .inl (congrArg some this.symm)
  refine ⟨⟨by rw [hT.1]; exact w.rank, by rw [hT.1, hT.2.1]; exact w.offsets, by rw [hT.1, hT.2.2]; exact w.dims, hn, ?_⟩, ?_⟩
  · intro k τ hk
    rw [hT.1]
    rcases key k τ hk with h1 | ⟨h1, rfl⟩
    · exact w.tiles k τ h1
    · have hk' := hg k (by rw [hk]; rfl)
      exact ⟨hk', isTensor_mk' _ (tileDims_ne w.rank hk'), rfl⟩
  · intro k hk
    rw [hT.1] at hk ⊢
    obtain ⟨h1, h2⟩ := h k hk
    constructor
    · intro τ hτ
      rcases key k τ hτ with h3 | ⟨h3, rfl⟩
      · exact h1 τ h3
      · intro l hl
        rw [zeros_represents (tileDims_ne w.rank hk) l hl]
        exact congrArg _ (h2 h3 l hl).symm
    · intro hn'
      apply h2
      apply Option.not_isSome_iff_eq_none.1
      intro h3
      have := hsub k h3
      rw [hn'] at this
      simp at this

/-- Tensors that agree up to tiles of zeros read the same at every index. -/
theorem get_base {C T S : Tiled R} (w : C.WF) (hT : T.sizes = C.sizes ∧ T.offsets = C.offsets ∧ T.dims = C.dims)
    (hS : S.sizes = C.sizes ∧ S.offsets = C.offsets ∧ S.dims = C.dims)
    (hb : ∀ k, T.base k = S.base k) (hsub : ∀ k, (S.tiles.lookup k).isSome → (T.tiles.lookup k).isSome) (idx : List Int) :
    T.get idx = S.get idx := by
  have e1 : T.tileOf idx = C.tileOf idx := by unfold Tiled.tileOf; rw [hT.2.1, hT.2.2]
  have e2 : S.tileOf idx = C.tileOf idx := by unfold Tiled.tileOf; rw [hS.2.1, hS.2.2]
  cases hi : pyIndices C.dims idx with
  | none =>
    have := tileOf_error w hi
    unfold Tiled.get
    rw [e1, e2]
    cases hc : C.tileOf idx with
    | ok a => rw [hc] at this; simp [Outcome.isError] at this
    | error m => rfl
    | ub m => rfl
  | some j =>
    obtain ⟨t, h1, h2⟩ := tileOf_tile w hi
    have hk := inTile_grid h2
    unfold Tiled.get
    rw [e1, e2, h1, Outcome.ok_bind, Outcome.ok_bind, hasTile_eq (T := T) (by rw [hT.1]; exact hk),
      hasTile_eq (T := S) (by rw [hS.1]; exact hk)]
    have lT : T.localIdx idx t = C.localIdx idx t := by unfold Tiled.localIdx; rw [hT.2.1, hT.2.2]
    have lS : S.localIdx idx t = C.localIdx idx t := by unfold Tiled.localIdx; rw [hS.2.1, hS.2.2]
    have cT : ∀ {X : Tiled R}, X.sizes = C.sizes → (X.tiles.lookup t).isSome → X.tileConst (toIdx t) = .ok (X.base t) := by
      intro X hX hs
      unfold Tiled.tileConst
      rw [tileCoords_eq (pyIndices_toIdx (by rw [hX]; exact hk)), Outcome.ok_bind, at_base hs]
    by_cases c1 : (T.tiles.lookup t).isSome = true
    · rw [if_pos c1, cT hT.1 c1, Outcome.ok_bind, lT]
      by_cases c2 : (S.tiles.lookup t).isSome = true
      · rw [if_pos c2, cT hS.1 c2, Outcome.ok_bind, lS, hb]
      · rw [if_neg c2, hb]
        have : S.base t = Strided.mk' (fun _ => 0) (tileDims C.sizes t) := by
          unfold Tiled.base
          rw [Option.not_isSome_iff_eq_none.1 c2, hS.1]; rfl
        rw [this, localIdx_tile w hi h2]
        exact zeros_represents (tileDims_ne w.rank hk) _ (inTile_local h2).1
    · have c2 : ¬ (S.tiles.lookup t).isSome = true := fun h => c1 (hsub t h)
      rw [if_neg c1, if_neg c2]

end

/-! ### The loops of `einsum` and `direct_product` -/

section
variable {R σ : Type} [Zero R]

theorem tile_base {S : Tiled R} {k : List Nat} (hk : InBox k (gridDims S.sizes)) :
    ∃ S1, S.tile (toIdx k) = .ok (S1, k) ∧ S1.at k = .ok (S.base k) := by
  have hc : S.tileCoords (toIdx k) = .ok k := tileCoords_eq (pyIndices_toIdx hk)
  unfold Tiled.tile
  rw [hc, Outcome.ok_bind, hasTile_eq hk]
  by_cases h : (S.tiles.lookup k).isSome = true
  · rw [if_pos h]; exact ⟨S, rfl, at_base h⟩
  · have hn := Option.not_isSome_iff_eq_none.1 h
    rw [if_neg h]
    refine ⟨_, rfl, ?_⟩
    rw [at_base (by rw [lookup_addTile hn, if_pos rfl]; rfl), base_addTile hn]

theorem base_isTensor {S : Tiled R} (w : S.WF) {k : List Nat} (hk : InBox k (gridDims S.sizes)) :
    (S.base k).IsTensor ∧ (S.base k).dims = tileDims S.sizes k := by
  unfold Tiled.base
  cases h : S.tiles.lookup k with
  | none => exact ⟨isTensor_mk' _ (tileDims_ne w.rank hk), rfl⟩
  | some τ => exact (w.tiles k τ h).2

/-- A whole iteration with `update` in place of its steps. -/
theorem tileWhole_update {loop : TileLoop R σ} {n : Nat} {sizes : List (List Nat)} {update : Nat → Strided R → Outcome (Strided R)}
    (hm : loop.Splits n sizes update) {S : Tiled R} (w : S.WF) (hS : S.sizes = sizes) {s : Nat} (hs : s < n) {k : List Nat}
    (he : loop.enter s = .ok (some k)) :
    tileWhole loop S s = (S.tile (toIdx k) >>= fun r => r.1.at r.2 >>= fun t => update s t >>= fun t => .ok (r.1.setTile r.2 t)) := by
  unfold tileWhole
  rw [he, Outcome.ok_bind]
  simp only
  cases hc : S.tileCoords (toIdx k) with
  | error m => unfold Tiled.tile; rw [hc]; rfl
  | ub m => unfold Tiled.tile; rw [hc]; rfl
  | ok k' =>
    obtain ⟨rfl, hk⟩ := tileCoords_nat hc
    obtain ⟨S1, h1, h2⟩ := tile_base hk
    obtain ⟨h3, h4⟩ := base_isTensor w hk
    rw [h1, Outcome.ok_bind, Outcome.ok_bind]
    simp only
    rw [h2, Outcome.ok_bind, Outcome.ok_bind, ← hm s k' hs he _ h3 (by rw [h4, hS]), bind_assoc]
    rfl

end

section
variable {L : Type} [DecidableEq L] {R σ : Type} [CommSemiring R] [BEq R] [LawfulBEq R] [Div R]

omit [LawfulBEq R] in
/-- A whole iteration of the loop of `einsum`. -/
theorem whole_einsum {Al Bl Cl : List L} {og check : Bool} {A B C S : Tiled R} {ab : R} {n : Nat}
    {micro : Nat → List (σ × Strided R → Outcome (σ × Strided R))} {init : σ}
    (hm : (tiledEinsumThreads Cl C Al A Bl B micro init).Splits n C.sizes
      (tiledEinsumUpdate og check (uniqueLabels Cl Al Bl) (gridRanges Cl C.grid Al A.grid Bl B.grid) Cl ab Al A Bl B))
    (w : S.WF) (hS : S.sizes = C.sizes) {s : Nat} (hs : s < n) :
    tileWhole (tiledEinsumThreads Cl C Al A Bl B micro init) S s
      = tiledEinsumStep og check (uniqueLabels Cl Al Bl) (gridRanges Cl C.grid Al A.grid Bl B.grid) Cl ab Al A Bl B S s := by
  have hz : ∀ k, S.hasZeroSize k = C.hasZeroSize k := fun k => by unfold Tiled.hasZeroSize; rw [hS]
  cases hen : (tiledEinsumThreads Cl C Al A Bl B micro init).enter s with
  | error m =>
    have h := hen
    unfold tileWhole
    rw [hen]
    simp only [tiledEinsumThreads, tiledEinsumEnter] at h
    unfold tiledEinsumStep
    cases h1 : tileOfSentinel (uniqueLabels Cl Al Bl) (gridRanges Cl C.grid Al A.grid Bl B.grid) Al s with
    | error e => rw [h1] at h; simpa using h.symm
    | ub e => rw [h1] at h; simp at h
    | ok kA =>
      rw [h1, Outcome.ok_bind] at h
      cases h2 : tileOfSentinel (uniqueLabels Cl Al Bl) (gridRanges Cl C.grid Al A.grid Bl B.grid) Bl s with
      | error e => rw [h2] at h; simpa using h.symm
      | ub e => rw [h2] at h; simp at h
      | ok kB =>
        rw [h2, Outcome.ok_bind] at h
        cases h3 : tileOfSentinel (uniqueLabels Cl Al Bl) (gridRanges Cl C.grid Al A.grid Bl B.grid) Cl s with
        | error e => rw [h3] at h; simpa using h.symm
        | ub e => rw [h3] at h; simp at h
        | ok kC => rw [h3, Outcome.ok_bind] at h; split at h <;> simp at h
  | ub m =>
    have h := hen
    unfold tileWhole
    rw [hen]
    simp only [tiledEinsumThreads, tiledEinsumEnter] at h
    unfold tiledEinsumStep
    cases h1 : tileOfSentinel (uniqueLabels Cl Al Bl) (gridRanges Cl C.grid Al A.grid Bl B.grid) Al s with
    | error e => rw [h1] at h; simp at h
    | ub e => rw [h1] at h; simpa using h.symm
    | ok kA =>
      rw [h1, Outcome.ok_bind] at h
      cases h2 : tileOfSentinel (uniqueLabels Cl Al Bl) (gridRanges Cl C.grid Al A.grid Bl B.grid) Bl s with
      | error e => rw [h2] at h; simp at h
      | ub e => rw [h2] at h; simpa using h.symm
      | ok kB =>
        rw [h2, Outcome.ok_bind] at h
        cases h3 : tileOfSentinel (uniqueLabels Cl Al Bl) (gridRanges Cl C.grid Al A.grid Bl B.grid) Cl s with
        | error e => rw [h3] at h; simp at h
        | ub e => rw [h3] at h; simpa using h.symm
        | ok kC => rw [h3, Outcome.ok_bind] at h; split at h <;> simp at h
  | ok key =>
    have h := hen
    simp only [tiledEinsumThreads, tiledEinsumEnter] at h
    cases h1 : tileOfSentinel (uniqueLabels Cl Al Bl) (gridRanges Cl C.grid Al A.grid Bl B.grid) Al s with
    | error e => rw [h1] at h; simp at h
    | ub e => rw [h1] at h; simp at h
    | ok kA =>
      rw [h1, Outcome.ok_bind] at h
      cases h2 : tileOfSentinel (uniqueLabels Cl Al Bl) (gridRanges Cl C.grid Al A.grid Bl B.grid) Bl s with
      | error e => rw [h2] at h; simp at h
      | ub e => rw [h2] at h; simp at h
      | ok kB =>
        rw [h2, Outcome.ok_bind] at h
        cases h3 : tileOfSentinel (uniqueLabels Cl Al Bl) (gridRanges Cl C.grid Al A.grid Bl B.grid) Cl s with
        | error e => rw [h3] at h; simp at h
        | ub e => rw [h3] at h; simp at h
        | ok kC =>
          rw [h3, Outcome.ok_bind] at h
          unfold tiledEinsumStep
          rw [h1, h2, h3, Outcome.ok_bind, Outcome.ok_bind, Outcome.ok_bind, hz]
          split at h
          · next c =>
            have hk := Outcome.ok.inj h
            subst hk
            unfold tileWhole
            rw [if_pos c, hen]
            rfl
          · next c =>
            have hk := Outcome.ok.inj h
            subst hk
            rw [if_neg c, tileWhole_update hm w hS hs hen]
            cases hc : S.tileCoords (toIdx kC) with
            | error m => unfold Tiled.tile; rw [hc]; rfl
            | ub m => unfold Tiled.tile; rw [hc]; rfl
            | ok k' =>
              obtain ⟨rfl, hk⟩ := tileCoords_nat hc
              obtain ⟨S1, g1, g2⟩ := tile_base hk
              rw [g1, Outcome.ok_bind, Outcome.ok_bind]
              simp only
              rw [g2, Outcome.ok_bind]
              unfold tiledEinsumUpdate
              rw [h1, h2, Outcome.ok_bind, Outcome.ok_bind, bind_assoc]
              cases A.tileConst (toIdx kA) with
              | error m => rfl
              | ub m => rfl
              | ok a =>
                cases B.tileConst (toIdx kB) with
                | error m => rfl
                | ub m => rfl
                | ok b => rfl

omit [LawfulBEq R] [Div R] in
/-- A whole iteration of the loop of `direct_product`. -/
theorem whole_direct {A B C S : Tiled R} {alpha beta : R} {n : Nat}
    {micro : Nat → List (σ × Strided R → Outcome (σ × Strided R))} {init : σ}
    (hm : (tiledDirectThreads A B micro init).Splits n C.sizes (tiledDirectUpdate alpha A B beta))
    (w : S.WF) (hS : S.sizes = C.sizes) {s : Nat} (hs : s < n) :
    tileWhole (tiledDirectThreads A B micro init) S s = tiledDirectStep alpha A B beta S s := by
  unfold tiledDirectStep
  simp only
  split
  · next c =>
    have hen : (tiledDirectThreads A B micro init).enter s = .ok (some (gridIndex (A.sizes.map List.length) s)) := by
      simp only [tiledDirectThreads, tiledDirectEnter]; rw [if_pos c]
    rw [tileWhole_update hm w hS hs hen]
    cases hc : S.tileCoords (toIdx (gridIndex (A.sizes.map List.length) s)) with
    | error m => unfold Tiled.tile; rw [hc]; rfl
    | ub m => unfold Tiled.tile; rw [hc]; rfl
    | ok k' =>
      obtain ⟨e, hk⟩ := tileCoords_nat hc
      rw [e] at hk
      obtain ⟨S1, g1, g2⟩ := tile_base hk
      rw [g1, Outcome.ok_bind, Outcome.ok_bind]
      simp only
      rw [g2, Outcome.ok_bind]
      unfold tiledDirectUpdate
      rw [bind_assoc]
      cases A.tileConst (toIdx (gridIndex (A.sizes.map List.length) s)) with
      | error m => rfl
      | ub m => rfl
      | ok a =>
        cases B.tileConst (toIdx (gridIndex (A.sizes.map List.length) s)) with
        | error m => rfl
        | ub m => rfl
        | ok b => rfl
  · next c =>
    have hen : (tiledDirectThreads A B micro init).enter s = .ok none := by
      simp only [tiledDirectThreads, tiledDirectEnter]; rw [if_neg c]
    unfold tileWhole
    rw [hen]
    rfl

end
end Einsums
