import Verif.Proofs.TileLocks
import Verif.Props.TileAlgebra
/-
Property theorem C156: the interleavings of the parallel loops over tiles.
-/
namespace Einsums.Props
open Einsums Spec Model

section
variable {R σ : Type} [Zero R]

/-- **C156.** A parallel loop over tiles whose iterations take the lock of the tensor to find or create their tile, and the
lock of the tile while they work on it unless no two of them work on one tile.  However the steps of its iterations interleave,
once all have ended every element of the tensor is what it would be had the iterations run one after the other in some order,
each exactly once. -/
theorem C156_serial (loop : TileLoop R σ) (n : Nat) (hx : loop.Guarded n) (C : Tiled R) (w : C.WF) (sch : List Nat)
    (hs : ∀ s ∈ sch, s < n) (st : TileState R σ) (hr : tileRun loop sch (TileState.init C) = .ok st) (hd : st.Finished n) :
    ∃ (ord : List Nat) (S : Tiled R), ord.Perm (List.range n) ∧ ord.foldlM (tileWhole loop) C = .ok S ∧ st.tensor.sizes = S.sizes ∧
      st.tensor.dims = S.dims ∧ ∀ idx, st.tensor.get idx = S.get idx := by
  obtain ⟨ord, S, h⟩ := run_inv hx sch hs (tileInv_init w) hr
  obtain ⟨h1, h2⟩ := tileInv_final h hd
  exact ⟨ord, S, h1, h.hS, h.sT.1.trans h.sS.1.symm, h.sT.2.2.trans h.sS.2.2.symm, get_base w h.sT h.sS h2 h.sub⟩

/-- **C156.** If iterations that run one after the other do not fail, in whatever order, then no interleaving of their steps
does, and every schedule that goes on giving each iteration its turn ends: there is no deadlock. -/
theorem C156_ends (loop : TileLoop R σ) (n : Nat) (hx : loop.Guarded n) (C : Tiled R) (w : C.WF)
    (hseq : ∀ l : List Nat, l.Nodup → (∀ s ∈ l, s < n) → ∃ S, l.foldlM (tileWhole loop) C = .ok S)
    (sch : List Nat) (hs : ∀ s ∈ sch, s < n) :
    ∃ st, tileRun loop sch (TileState.init C) = .ok st ∧
      (FairFor n ((List.range n).map fun s => (loop.micro s).length + 6).sum sch → st.Finished n) := by
  obtain ⟨st, h⟩ := run_ok hx hseq sch hs (tileInv_init w)
  refine ⟨st, h, ?_⟩
  rintro ⟨rounds, rfl, h1, h2⟩
  exact rounds_end hx rounds (fun r hr => ⟨fun s hs' => hs s (List.mem_flatten.2 ⟨r, hr, hs'⟩), h2 r hr⟩) (tileInv_init w) h h1

end

section
variable {L : Type} [DecidableEq L] {R σ : Type} [CommSemiring R] [BEq R] [LawfulBEq R]

omit [BEq R] [LawfulBEq R] in
/-- A final state with the elements of the sequential one. -/
theorem final_holds {loop : TileLoop R σ} {n : Nat} (hx : loop.Guarded n) {C : Tiled R} (w : C.WF) {sch : List Nat}
    (hs : ∀ s ∈ sch, s < n) {st : TileState R σ} (hr : tileRun loop sch (TileState.init C) = .ok st) (hd : st.Finished n) :
    ∃ (ord : List Nat) (S : Tiled R), ord.Perm (List.range n) ∧ ord.foldlM (tileWhole loop) C = .ok S ∧ st.tensor.sizes = C.sizes ∧
      ∀ f, S.WF → S.Holds f → st.tensor.WF ∧ st.tensor.Holds f := by
  obtain ⟨ord, S, h⟩ := run_inv hx sch hs (tileInv_init w) hr
  obtain ⟨h1, h2⟩ := tileInv_final h hd
  refine ⟨ord, S, h1, h.hS, h.sT.1, ?_⟩
  intro f wS hf
  exact holds_base wS hf ⟨h.sT.1.trans h.sS.1.symm, h.sT.2.1.trans h.sS.2.1.symm, h.sT.2.2.trans h.sS.2.2.symm⟩ h.keysN
    (fun k hk => by rw [h.sS.1]; exact h.grid k hk) h2 h.sub

variable [Div R]

/-- **C156.** `einsum` on three tiled tensors, under the conditions of `C91_einsum_partial`: however the parallel loop
interleaves the steps of its iterations, it does not fail, it ends if every iteration goes on getting its turn, and in the end
every element satisfies `C(ρ) := cp*C(ρ) + ab*Σ A*B`.  The steps are any steps that do, taken together, what the `einsum` of the
tile does. -/
theorem C156_einsum (P : L → List Nat) (Al Bl Cl ls : List L) (og check : Bool) (A B C : Tiled R)
    (fA fB fC : List Nat → R) (cp ab : R) (hAn : Al.Nodup) (hA0 : Al ≠ []) (hB0 : Bl ≠ []) (hC0 : Cl ≠ [])
    (wA : A.WF) (wB : B.WF) (wC : C.WF) (sA : A.sizes = Al.map P) (sB : B.sizes = Bl.map P) (sC : C.sizes = Cl.map P)
    (hA : A.Represents fA) (hB : B.Represents fB) (hC : C.Represents fC)
    (coverA : ∀ l ∈ Al, l ∈ Cl ∨ l ∈ Bl) (coverB : ∀ l ∈ Bl, l ∈ Cl ∨ l ∈ Al) (coverC : ∀ l ∈ Cl, l ∈ Al ∨ l ∈ Bl)
    (noTriple : choosePath og Al Bl Cl = .gemm → ∀ l ∈ Cl, ¬(l ∈ Al ∧ l ∈ Bl))
    (order : choosePath og Al Bl Cl = .outer → Cl = Al ++ Bl ∨ Cl = Bl ++ Al)
    (hls : Contracted Al Bl Cl ls) (micro : Nat → List (σ × Strided R → Outcome (σ × Strided R))) (init : σ)
    (hm : (tiledEinsumThreads Cl C Al A Bl B micro init).Splits (tiledEinsumCount Cl C Al A Bl B) C.sizes
      (tiledEinsumUpdate og check (uniqueLabels Cl Al Bl) (gridRanges Cl C.grid Al A.grid Bl B.grid) Cl ab Al A Bl B))
    (sch : List Nat) (hs : ∀ s ∈ sch, s < tiledEinsumCount Cl C Al A Bl B) :
    ∃ st, tileRun (tiledEinsumThreads Cl C Al A Bl B micro init) sch (TileState.init (C.prescale cp)) = .ok st ∧
      (FairFor (tiledEinsumCount Cl C Al A Bl B)
        ((List.range (tiledEinsumCount Cl C Al A Bl B)).map fun s => (micro s).length + 6).sum sch →
        st.Finished (tiledEinsumCount Cl C Al A Bl B)) ∧
      (st.Finished (tiledEinsumCount Cl C Al A Bl B) → st.tensor.WF ∧ st.tensor.sizes = C.sizes ∧
        ∀ ρ, InRange (fun l => (P l).sum) Cl ρ → st.tensor.get (toIdx (Cl.map ρ))
          = .ok (cp * fC (Cl.map ρ) + ab * contraction (fun l => (P l).sum) ls Al Bl fA fB ρ)) := by
  have hA' := (represents_holds wA).1 hA
  have hB' := (represents_holds wB).1 hB
  obtain ⟨w0, s0, h0⟩ := prescale_holds wC ((represents_holds wC).1 hC) cp
  have g : ∀ {T : Tiled R} {Xl : List L}, T.sizes = Xl.map P → T.grid = Xl.map fun l => (P l).length := by
    intro T Xl h
    unfold Tiled.grid
    rw [h, List.map_map]
    rfl
  have hgr : gridRanges Cl C.grid Al A.grid Bl B.grid = (uniqueLabels Cl Al Bl).map fun l => (P l).length := by
    rw [g sA, g sB, g sC, gridRanges_eq (fun l => (P l).length)]
  have hU : (uniqueLabels Cl Al Bl).map (fun l => (P l).length) ≠ [] := by
    obtain ⟨l, hl⟩ := List.exists_mem_of_ne_nil Cl hC0
    intro h
    have := mem_uniqueLabels (Al := Al) (Bl := Bl).2 (.inl hl)
    rw [List.map_eq_nil_iff.1 h] at this
    simp at this
  have hn : tiledEinsumCount Cl C Al A Bl B = numel ((uniqueLabels Cl Al Bl).map fun l => (P l).length) := by
    unfold tiledEinsumCount
    rw [hgr, gridCount_eq hU]
  have fold : ∀ (l : List Nat), (∀ s ∈ l, s < tiledEinsumCount Cl C Al A Bl B) → ∀ (S : Tiled R) (f : List Nat → R), S.WF →
      S.Holds f → S.sizes = C.sizes → l.foldlM (tileWhole (tiledEinsumThreads Cl C Al A Bl B micro init)) S
        = l.foldlM (tiledEinsumStep og check (uniqueLabels Cl Al Bl) ((uniqueLabels Cl Al Bl).map fun l => (P l).length) Cl ab
            Al A Bl B) S := by
    intro l
    induction l with
    | nil => intros; rfl
    | cons s l ih =>
      intro hl S f wS hS sS
      obtain ⟨S1, f1, e1, w1, s1, h1, _⟩ := tiledEinsumStep_ok (og := og) (check := check) (ab := ab) wA wB wS hA' hB' hS sA sB
        (sS.trans sC) hAn hA0 hB0 hC0 coverA coverB coverC noTriple order hls (s := s) (by rw [← hn]; exact hl s (by simp))
      rw [List.foldlM_cons, List.foldlM_cons, whole_einsum hm wS sS (hl s (by simp)), hgr, e1, Outcome.ok_bind, Outcome.ok_bind]
      exact ih (fun x hx => hl x (by simp [hx])) S1 f1 w1 h1 (s1.trans sS)
  have loopOk := tiledEinsum_loop (og := og) (check := check) (ab := ab) wA wB hA' hB' sA sB hAn hA0 hB0 hC0
    coverA coverB coverC noTriple order hls
  obtain ⟨st, h1, h2⟩ := C156_ends (tiledEinsumThreads Cl C Al A Bl B micro init) (tiledEinsumCount Cl C Al A Bl B) (.inl rfl)
    (C.prescale cp) w0 (by
      intro l _ hl
      obtain ⟨S, f, e, _⟩ := loopOk l (fun s h => by rw [← hn]; exact hl s h) _ _ w0 h0 (s0.trans sC)
      exact ⟨S, by rw [fold l hl _ _ w0 h0 s0]; exact e⟩) sch hs
  refine ⟨st, h1, h2, ?_⟩
  intro hd
  obtain ⟨ord, S, p1, p2, p3, p4⟩ := final_holds (.inl rfl) w0 hs h1 hd
  have hord : ∀ s ∈ ord, s < tiledEinsumCount Cl C Al A Bl B := fun s h => List.mem_range.1 (p1.mem_iff.1 h)
  obtain ⟨S', f', e, w', s', h', v⟩ := loopOk ord (fun s h => by rw [← hn]; exact hord s h) _ _ w0 h0 (s0.trans sC)
  rw [fold ord hord _ _ w0 h0 s0, e] at p2
  obtain rfl := Outcome.ok.inj p2
  obtain ⟨q1, q2⟩ := p4 f' w' h'
  refine ⟨q1, p3.trans s0, ?_⟩
  intro ρ hρ
  rw [(represents_holds q1).2 q2 _ (by rw [p3, s0, sC, fullDims_labels]; exact inBox_map hρ), v ρ hρ]
  rw [hn] at p1
  rw [(p1.map _).sum_eq, ← sum_tileParts P coverA coverB hls hρ, box_eq_map, List.map_map]
  rfl

omit [Div R] in
/-- One iteration of `direct_product` keeps the tensor well formed. -/
theorem directStep_ok {A B S : Tiled R} {alpha beta : R} {fA fB f : List Nat → R} (wA : A.WF) (wB : B.WF) (wS : S.WF)
    (hA : A.Holds fA) (hB : B.Holds fB) (hS : S.Holds f) (sB : B.sizes = A.sizes) (sS : S.sizes = A.sizes) {s : Nat}
    (hs : s < A.gridSize) :
    ∃ S' f', tiledDirectStep alpha A B beta S s = .ok S' ∧ S'.WF ∧ S'.sizes = S.sizes ∧ S'.Holds f' := by
  classical
  rw [gridSize_eq] at hs
  have hk := gridIndex_inBox hs
  generalize hkk : gridIndex (gridDims A.sizes) s = k at hk
  have hkB : InBox k (gridDims B.sizes) := by rw [sB]; exact hk
  have hkC : InBox k (gridDims S.sizes) := by rw [sS]; exact hk
  have hkk' : gridIndex (A.sizes.map List.length) s = k := hkk
  unfold tiledDirectStep
  simp only [hkk']
  rw [hasTileContainer_eq hk, hasTileContainer_eq hkB]
  by_cases c : ((A.tiles.lookup k).isSome && (B.tiles.lookup k).isSome && !A.hasZeroSize k && !B.hasZeroSize k) = true
  · rw [if_pos c]
    simp only [Bool.and_eq_true, Bool.not_eq_true'] at c
    obtain ⟨⟨⟨c1, c2⟩, c3⟩, c4⟩ := c
    obtain ⟨α, ha⟩ := Option.isSome_iff_exists.1 c1
    obtain ⟨β, hb⟩ := Option.isSome_iff_exists.1 c2
    obtain ⟨C2, τ, q1, q2, q3, q4, q5, q6, q7, q8, q9, q10, q11⟩ := tile_at wS hS hkC
    rw [sS] at q4 q9 q10
    have eα : A.at k = .ok α := by unfold Tiled.at; rw [ha]
    have eβ : B.at k = .ok β := by unfold Tiled.at; rw [hb]
    obtain ⟨_, tα, dα⟩ := wA.tiles _ _ ha
    obtain ⟨_, tβ, dβ⟩ := wB.tiles _ _ hb
    have rα := (hA _ hk).1 _ ha
    have rβ := (hB _ hkB).1 _ hb
    rw [sB] at dβ rβ
    obtain ⟨t', g1, g2, g3⟩ := directProduct_eq alpha beta (by rw [q9, dα]) (by rw [q9, dβ]) q8 rα rβ q10
    obtain ⟨w3, h3⟩ := setTile_update q3 q7 (k := k) (by rw [q4]; exact hk) (by rw [q11]; rfl)
      (g2.isTensor q8) (by rw [g2.dims, q9, q4]) (g := fun x => beta * f x + alpha * (fA x * fB x))
      (by rw [q4]; exact g3)
    refine ⟨_, _, ?_, w3, q4.trans sS.symm, h3⟩
    rw [q1, Outcome.ok_bind]
    simp only
    rw [tileConst_eq hk, tileConst_eq hkB, eα, Outcome.ok_bind, eβ, Outcome.ok_bind, q2, Outcome.ok_bind, g1]
    rfl
  · rw [if_neg c]
    exact ⟨S, f, rfl, wS, rfl, hS⟩

omit [Div R] in
/-- **C156.** `direct_product` of tiled tensors, under the conditions of `C53_direct_partial`.  The lock of the tile is not taken:
no two iterations work on one tile. -/
theorem C156_direct (alpha beta : R) (A B C : Tiled R) (fA fB fC : List Nat → R) (wA : A.WF) (wB : B.WF)
    (wC : C.WF) (hA : A.Represents fA) (hB : B.Represents fB) (hC : C.Represents fC) (sB : B.sizes = A.sizes)
    (sC : C.sizes = A.sizes)
    (h : beta = 1 ∨ ∀ k, InBox k (gridDims A.sizes) → A.hasTile (toIdx k) = true ∧ B.hasTile (toIdx k) = true)
    (micro : Nat → List (σ × Strided R → Outcome (σ × Strided R))) (init : σ)
    (hm : (tiledDirectThreads A B micro init).Splits A.gridSize C.sizes (tiledDirectUpdate alpha A B beta))
    (sch : List Nat) (hs : ∀ s ∈ sch, s < A.gridSize) :
    ∃ st, tileRun (tiledDirectThreads A B micro init) sch (TileState.init C) = .ok st ∧
      (FairFor A.gridSize ((List.range A.gridSize).map fun s => (micro s).length + 6).sum sch → st.Finished A.gridSize) ∧
      (st.Finished A.gridSize → st.tensor.WF ∧ st.tensor.sizes = C.sizes ∧
        st.tensor.Represents fun x => beta * fC x + alpha * (fA x * fB x)) := by
  have hA' := (represents_holds wA).1 hA
  have hB' := (represents_holds wB).1 hB
  have hC' := (represents_holds wC).1 hC
  have guard : (tiledDirectThreads A B micro init).Guarded A.gridSize := by
    right
    intro s s' k h1 h2 e1 e2
    simp only [tiledDirectThreads, tiledDirectEnter, Outcome.ok.injEq, Option.ite_none_right_eq_some] at e1 e2
    rw [gridSize_eq] at h1 h2
    exact gridIndex_inj h1 h2 ((Option.some.inj e1.2).trans (Option.some.inj e2.2).symm)
  have fold : ∀ (l : List Nat), (∀ s ∈ l, s < A.gridSize) → ∀ (S : Tiled R) (f : List Nat → R), S.WF →
      S.Holds f → S.sizes = C.sizes → ∃ S', l.foldlM (tileWhole (tiledDirectThreads A B micro init)) S = .ok S' ∧
        l.foldlM (tiledDirectStep alpha A B beta) S = .ok S' := by
    intro l
    induction l with
    | nil => intro _ S _ _ _ _; exact ⟨S, rfl, rfl⟩
    | cons s l ih =>
      intro hl S f wS hS sS
      obtain ⟨S1, f1, e1, w1, s1, h1⟩ := directStep_ok (alpha := alpha) (beta := beta) wA wB wS hA' hB' hS sB (sS.trans sC)
        (hl s (by simp))
      rw [List.foldlM_cons, List.foldlM_cons, whole_direct hm wS sS (hl s (by simp)), e1, Outcome.ok_bind, Outcome.ok_bind]
      exact ih (fun x hx => hl x (by simp [hx])) S1 f1 w1 h1 (s1.trans sS)
  obtain ⟨st, h1, h2⟩ := C156_ends (tiledDirectThreads A B micro init) A.gridSize guard C wC (by
      intro l _ hl
      obtain ⟨S, e, _⟩ := fold l hl _ _ wC hC' rfl
      exact ⟨S, e⟩) sch hs
  refine ⟨st, h1, h2, ?_⟩
  intro hd
  obtain ⟨ord, S, p1, p2, p3, p4⟩ := final_holds guard wC hs h1 hd
  obtain ⟨C', g1, g2, g3, g4⟩ := C53_direct_partial alpha beta A B C fA fB fC wA wB wC hA hB hC sB sC ord p1 h
  obtain ⟨S', e1, e2⟩ := fold ord (fun s h => List.mem_range.1 (p1.mem_iff.1 h)) _ _ wC hC' rfl
  rw [e1] at p2
  obtain rfl := Outcome.ok.inj p2
  unfold tiledDirectProduct at g1
  rw [g1] at e2
  obtain rfl := Outcome.ok.inj e2
  obtain ⟨q1, q2⟩ := p4 _ g2 ((represents_holds g2).1 g4)
  exact ⟨q1, p3, (represents_holds q1).2 q2⟩

end

/-! ### Cases that meet the hypotheses, and what the locks are for -/

/-- Steps: compute the new tile, then store it. -/
def computeThenStore (update : Nat → Strided Int → Outcome (Strided Int)) (s : Nat) :
    List (Option (Strided Int) × Strided Int → Outcome (Option (Strided Int) × Strided Int)) :=
  [fun p => do
      let t ← update s p.2
      return (some t, p.2),
    fun p => match p.1 with
      | some t => .ok (some t, t)
      | none => .error "nothing computed"]

/-- These steps do what `update` does. -/
theorem computeThenStore_splits (loop : TileLoop Int (Option (Strided Int))) (n : Nat) (sizes : List (List Nat))
    (update : Nat → Strided Int → Outcome (Strided Int)) (h : loop.micro = computeThenStore update) :
    loop.Splits n sizes update := by
  intro s k _ _ t _ _
  rw [h]
  unfold computeThenStore
  simp only [List.foldlM_cons, List.foldlM_nil, bind_assoc]
  cases update s t with
  | ok t' => rfl
  | error m => rfl
  | ub m => rfl

/-- Rounds of turns: upwards, then downwards, and so on. -/
def zigzag (n m : Nat) : List Nat := (List.replicate m (List.range n ++ (List.range n).reverse)).flatten

theorem zigzag_fair (n m : Nat) : FairFor n m (zigzag n m) ∧ ∀ s ∈ zigzag n m, s < n := by
  constructor
  · refine ⟨_, rfl, by simp, ?_⟩
    intro r hr s hs
    rw [(List.mem_replicate.1 hr).2]
    simp [hs]
  · intro s hs
    obtain ⟨r, hr, hs⟩ := List.mem_flatten.1 hs
    rw [(List.mem_replicate.1 hr).2] at hs
    simpa using hs

-- `C(i,j) = 3 C(i,j) + 2 A(i,k) B(k,j)` of `C91_einsum_partial`'s example, with the turns taken upwards and downwards.
example : ∃ A B C : Tiled Int, A.WF ∧ B.WF ∧ C.WF ∧ A.sizes = [0, 1].map examplePartition ∧
    B.sizes = [1, 2].map examplePartition ∧ C.sizes = [0, 2].map examplePartition ∧
    tiledEinsumCount [0, 2] C [0, 1] A [1, 2] B = 6 ∧
    ∃ st : TileState Int (Option (Strided Int)), tileRun (tiledEinsumThreads [0, 2] C [0, 1] A [1, 2] B (computeThenStore
        (tiledEinsumUpdate false true (uniqueLabels [0, 2] [0, 1] [1, 2]) (gridRanges [0, 2] C.grid [0, 1] A.grid [1, 2] B.grid)
          [0, 2] 2 [0, 1] A [1, 2] B)) none) (zigzag 6 6) (TileState.init (C.prescale 3)) = .ok st ∧
      st.tensor.get [1, 1] = .ok 30 ∧ st.tensor.get [0, 0] = .ok 21 :=
  ⟨tiledOf [[1, 1], [1, 0, 2]] [.set [1, 2] 3], tiledOf [[1, 0, 2], [2]] [.set [2, 1] 5],
    tiledOf [[1, 1], [2]] [.set [0, 0] 7],
    (tiledOf_ok _ (by simp) _ (by simp [TiledOp.Valid])).1, (tiledOf_ok _ (by simp) _ (by simp [TiledOp.Valid])).1,
    (tiledOf_ok _ (by simp) _ (by simp [TiledOp.Valid])).1, by decide, by decide, by decide, by decide, _, rfl, by decide,
    by decide⟩

/-- A loop of which every iteration adds one to the only element of tile 0: read it, then write it. -/
def countLoop (useLock : Bool) : TileLoop Int Int :=
  { enter := fun _ => .ok (some [0])
    micro := fun _ => [fun p => .ok (p.2.data.getD 0 0, p.2), fun p => .ok (p.1, { p.2 with data := [p.1 + 1] })]
    init := 0
    useLock := useLock }

-- With the lock, two iterations count to two.
example : (countLoop true).Guarded 2 ∧ (tiledOf [[1]] [] : Tiled Int).WF ∧
    ∃ st, tileRun (countLoop true) (zigzag 2 16) (TileState.init (tiledOf [[1]] [])) = .ok st ∧ st.Finished 2 ∧
      st.tensor.get [0] = .ok 2 := by
  obtain ⟨st, h1, h2⟩ := C156_ends (countLoop true) 2 (.inl rfl) (tiledOf [[1]] []) (tiledOf_ok _ (by simp) _ (by simp)).1 (by
    intro l hn hl
    have key : ∀ (l : List Nat) (S : Tiled Int), S.sizes = [[1]] → ∃ S', l.foldlM (tileWhole (countLoop true)) S = .ok S' := by
      intro l
      induction l with
      | nil => intro S _; exact ⟨S, rfl⟩
      | cons a l ih =>
        intro S hS
        obtain ⟨S1, a1, _, _, _, _, _, a7⟩ := tileWhole_eq (loop := countLoop true) (S := S) (s := a) (k := [0]) rfl
          (by rw [hS]; decide)
        rw [List.foldlM_cons, a7]
        exact ih _ (a1.trans hS)
    exact key l _ (by decide)) (zigzag 2 16) (zigzag_fair 2 16).2
  refine ⟨.inl rfl, (tiledOf_ok _ (by simp) _ (by simp)).1, st, h1, h2 (zigzag_fair 2 16).1, ?_⟩
  have : ∃ st, tileRun (countLoop true) (zigzag 2 16) (TileState.init (tiledOf [[1]] [])) = .ok st ∧
      st.tensor.get [0] = .ok 2 := ⟨_, rfl, by decide⟩
  obtain ⟨st', h3, h4⟩ := this
  rw [h1] at h3
  rw [Outcome.ok.inj h3]
  exact h4

-- Without the lock of the tile an update is lost: both iterations end, and the count is one.
example : ¬ (countLoop false).Guarded 2 ∧ ∃ st, tileRun (countLoop false)
    [0, 0, 0, 0, 0, 1, 1, 1, 1, 1, 0, 1, 0, 1, 0, 1] (TileState.init (tiledOf [[1]] [])) = .ok st ∧
    (match st.pc 0, st.pc 1 with | .done, .done => true | _, _ => false) = true ∧ st.tensor.get [0] = .ok 1 := by
  refine ⟨?_, _, rfl, by decide, by decide⟩
  rintro (h | h)
  · simp [countLoop] at h
  · have := h 0 1 [0] (by omega) (by omega) rfl rfl
    omega

end Einsums.Props
