import Verif.Proofs.TiledOps
import Verif.Model.TiledLinAlg
import Verif.Props.LinAlg
import Mathlib.Data.List.ProdSigma
import Mathlib.Tactic.Ring
/-
Products of tiled matrices.
-/
namespace Einsums
open Spec Model

variable {R : Type}

/-! ### Sums over a partitioned axis -/

theorem sumTo_succ_shift [AddCommMonoid R] (a b : Nat) (g : Nat → R) :
    sumTo (a + b) g = sumTo a g + sumTo b fun l => g (a + l) := by
  unfold sumTo
  rw [List.range_add, List.map_append, List.sum_append, List.map_map]
  rfl

/-- A sum over an axis is the sum over its intervals of the sums over each interval. -/
theorem sumTo_split [AddCommMonoid R] (ss : List Nat) (g : Nat → R) :
    sumTo ss.sum g = sumTo ss.length fun t => sumTo (ss.getD t 0) fun l => g (tileStart ss t + l) := by
  induction ss generalizing g with
  | nil => rfl
  | cons a ss ih =>
    rw [List.sum_cons, sumTo_succ_shift, List.length_cons, Nat.add_comm ss.length 1, sumTo_succ_shift, ih]
    congr 1
    · simp [sumTo, tileStart]
    · unfold sumTo
      congr 1
      apply List.map_congr_left
      intro t _
      simp only [tileStart, Nat.add_comm 1 t, List.take_succ_cons, List.sum_cons, List.getD_cons_succ, Nat.add_assoc]

theorem sumTo_congr [AddCommMonoid R] {n : Nat} {f g : Nat → R} (h : ∀ l, l < n → f l = g l) : sumTo n f = sumTo n g := by
  unfold sumTo
  rw [List.map_congr_left fun l hl => h l (List.mem_range.1 hl)]

theorem sumTo_zero' [AddCommMonoid R] (n : Nat) {f : Nat → R} (h : ∀ l, l < n → f l = 0) : sumTo n f = 0 := by
  rw [sumTo_congr h]
  unfold sumTo
  exact List.sum_eq_zero (by simp)

/-! ### gemm -/

theorem hasZeroSize_two {T : Tiled R} {M N : List Nat} (hs : T.sizes = [M, N]) (i j : Nat) :
    T.hasZeroSize [i, j] = (M.getD i 0 == 0 || N.getD j 0 == 0) := by
  unfold Tiled.hasZeroSize
  rw [hs]
  simp

theorem hasZeroSize_op {T : Tiled R} {M N : List Nat} {tr : Bool} (hs : T.sizes = opParts tr M N) (i j : Nat) :
    T.hasZeroSize (opTile tr i j) = (M.getD i 0 == 0 || N.getD j 0 == 0) := by
  cases tr
  · exact hasZeroSize_two hs i j
  · simp only [opTile, if_true]
    rw [hasZeroSize_two (M := N) (N := M) hs j i, Bool.or_comm]

theorem opTile_inBox {tr : Bool} {M N : List Nat} {i j : Nat} (hi : i < M.length) (hj : j < N.length) :
    InBox (opTile tr i j) (gridDims (opParts tr M N)) := by
  cases tr
  · exact ⟨hi, hj, trivial⟩
  · exact ⟨hj, hi, trivial⟩

theorem opTile_dims {tr : Bool} {M N : List Nat} {i j : Nat} :
    tileDims (opParts tr M N) (opTile tr i j) = opDims tr (M.getD i 0) (N.getD j 0) := by
  cases tr <;> rfl

theorem opElem_tile {tr : Bool} {M N : List Nat} {i j : Nat} (f : List Nat → R) (a b : Nat) :
    opElem tr (fun l => f (tileGlobal (opParts tr M N) (opTile tr i j) l)) a b
      = opElem tr f (tileStart M i + a) (tileStart N j + b) := by
  cases tr <;> rfl

theorem matrix_strides {t : Strided R} (h : t.IsTensor) {m n : Nat} (hd : t.dims = [m, n]) : t.strides = [n, 1] := by
  rw [h.strides, hd]
  simp [dimsToStrides]

theorem tileConst_eq {T : Tiled R} {k : List Nat} (hk : InBox k (gridDims T.sizes)) :
    T.tileConst (toIdx k) = T.at k := by
  unfold Tiled.tileConst
  rw [tileCoords_eq (pyIndices_toIdx hk), Outcome.ok_bind]

section
variable [CommSemiring R] [BEq R] [LawfulBEq R]

omit [BEq R] [LawfulBEq R] in
/-- A term that is skipped contributes nothing. -/
theorem inactive_zero {ta tb : Bool} {A B : Tiled R} {M N K : List Nat} {fA fB : List Nat → R} (hA : A.Holds fA)
    (hB : B.Holds fB) (sA : A.sizes = opParts ta M K) (sB : B.sizes = opParts tb K N)
    {i j k : Nat} (hi : i < M.length) (hj : j < N.length) (hk : k < K.length) (hm : M.getD i 0 ≠ 0) (hn : N.getD j 0 ≠ 0)
    (h : gemmActive ta tb A B i j k = false) {a b : Nat} (ha : a < M.getD i 0) (hb : b < N.getD j 0) :
    (sumTo (K.getD k 0) fun l => opElem ta fA (tileStart M i + a) (tileStart K k + l)
      * opElem tb fB (tileStart K k + l) (tileStart N j + b)) = 0 := by
  have kA : InBox (opTile ta i k) (gridDims A.sizes) := by rw [sA]; exact opTile_inBox hi hk
  have kB : InBox (opTile tb k j) (gridDims B.sizes) := by rw [sB]; exact opTile_inBox hk hj
  apply sumTo_zero'
  intro l hl
  unfold gemmActive at h
  rw [hasTile_eq kA, hasTile_eq kB, hasZeroSize_op sA, hasZeroSize_op sB] at h
  have hk0 : K.getD k 0 ≠ 0 := by omega
  rw [beq_false_of_ne hm, beq_false_of_ne hk0, beq_false_of_ne hn] at h
  simp only [Bool.or_self, Bool.not_false, Bool.and_true, Bool.and_eq_false_iff] at h
  rw [← opElem_tile (M := M) (N := K) (i := i) (j := k), ← opElem_tile (M := K) (N := N) (i := k) (j := j)]
  rcases h with h | h
  · have hz := (hA _ kA).2 (by simpa using h)
    rw [sA] at hz
    have : opElem ta (fun l => fA (tileGlobal (opParts ta M K) (opTile ta i k) l)) a l = 0 := by
      cases ta
      · exact hz [a, l] ⟨ha, hl, trivial⟩
      · exact hz [l, a] ⟨hl, ha, trivial⟩
    rw [this, zero_mul]
  · have hz := (hB _ kB).2 (by simpa using h)
    rw [sB] at hz
    have : opElem tb (fun l => fB (tileGlobal (opParts tb K N) (opTile tb k j) l)) l b = 0 := by
      cases tb
      · exact hz [l, b] ⟨hl, hb, trivial⟩
      · exact hz [b, l] ⟨hb, hl, trivial⟩
    rw [this, mul_zero]

/-- The products added to one tile. -/
theorem gemmTile_ok {ta tb : Bool} {alpha : R} {A B : Tiled R} {M N K : List Nat} {fA fB : List Nat → R} (wA : A.WF) (wB : B.WF)
    (hA : A.Holds fA) (hB : B.Holds fB) (sA : A.sizes = opParts ta M K) (sB : B.sizes = opParts tb K N)
    {i j : Nat} (hi : i < M.length) (hj : j < N.length) (hm : M.getD i 0 ≠ 0) (hn : N.getD j 0 ≠ 0)
    (z : Nat) (hz : z ≤ K.length) {t : Strided R} (ht : t.IsTensor) (hd : t.dims = [M.getD i 0, N.getD j 0])
    {h : List Nat → R} (hr : t.Represents h) :
    ∃ t', gemmTile ta tb alpha A B z i j t = .ok t' ∧ t'.IsTensor ∧ t'.dims = t.dims ∧
      t'.Represents fun x => h x + alpha * sumTo z fun k => sumTo (K.getD k 0) fun l =>
        opElem ta fA (tileStart M i + x.getD 0 0) (tileStart K k + l)
          * opElem tb fB (tileStart K k + l) (tileStart N j + x.getD 1 0) := by
  induction z with
  | zero =>
    refine ⟨t, rfl, ht, rfl, ?_⟩
    intro x hx
    rw [hr x hx]
    simp [sumTo]
  | succ z ih =>
    obtain ⟨t1, e1, ht1, hd1, hr1⟩ := ih (by omega)
    rw [hd] at hd1
    have hrec : gemmTile ta tb alpha A B (z + 1) i j t = gemmTile ta tb alpha A B z i j t >>= fun t =>
        if gemmActive ta tb A B i j z then do
          let a ← A.tileConst (toIdx (opTile ta i z))
          let b ← B.tileConst (toIdx (opTile tb z j))
          gemm ta tb alpha a b 1 t
        else .ok t := by
      unfold gemmTile
      rw [List.range_succ, List.foldlM_append]
      simp only [List.foldlM_cons, List.foldlM_nil]
      congr 1
      funext t
      exact bind_pure _
    rw [hrec, e1, Outcome.ok_bind]
    have hzl : z < K.length := by omega
    have kA : InBox (opTile ta i z) (gridDims A.sizes) := by rw [sA]; exact opTile_inBox hi hzl
    have kB : InBox (opTile tb z j) (gridDims B.sizes) := by rw [sB]; exact opTile_inBox hzl hj
    have hsum : ∀ g : Nat → R, sumTo (z + 1) g = sumTo z g + g z := by
      intro g; simp [sumTo, List.range_succ]
    cases hact : gemmActive ta tb A B i j z with
    | false =>
      rw [if_neg (by simp)]
      refine ⟨t1, rfl, ht1, by rw [hd1, hd], ?_⟩
      intro x hx
      rw [hr1 x hx]
      rw [hd1] at hx
      obtain ⟨a, b, rfl, ha, hb⟩ := inBox_two.1 hx
      simp only
      rw [hsum, inactive_zero hA hB sA sB hi hj hzl hm hn hact (by simpa using ha) (by simpa using hb), add_zero]
    | true =>
      rw [if_pos rfl, tileConst_eq kA, tileConst_eq kB]
      unfold gemmActive at hact
      rw [hasTile_eq kA, hasTile_eq kB, hasZeroSize_op sA, hasZeroSize_op sB] at hact
      simp only [Bool.and_eq_true, Bool.not_eq_true', Bool.or_eq_false_iff, beq_eq_false_iff_ne] at hact
      obtain ⟨⟨⟨h1, h2⟩, ⟨h3, h4⟩⟩, ⟨_, h5⟩⟩ := hact
      obtain ⟨α, hα⟩ := Option.isSome_iff_exists.1 h1
      obtain ⟨β, hβ⟩ := Option.isSome_iff_exists.1 h2
      have eα : A.at (opTile ta i z) = .ok α := by unfold Tiled.at; rw [hα]
      have eβ : B.at (opTile tb z j) = .ok β := by unfold Tiled.at; rw [hβ]
      rw [eα, eβ, Outcome.ok_bind, Outcome.ok_bind]
      obtain ⟨_, tα, dα⟩ := wA.tiles _ _ hα
      obtain ⟨_, tβ, dβ⟩ := wB.tiles _ _ hβ
      have rα := (hA _ kA).1 _ hα
      have rβ := (hB _ kB).1 _ hβ
      rw [sA] at dα rα
      rw [sB] at dβ rβ
      rw [opTile_dims] at dα dβ
      obtain ⟨C', g1, g2, g3⟩ := Props.C25_gemm_partial ta tb (M.getD i 0) (N.getD j 0) (K.getD z 0) alpha 1 α β t1
        (if ta then M.getD i 0 else K.getD z 0) (if tb then K.getD z 0 else N.getD j 0) (N.getD j 0) _ _ _ dα dβ hd1
        (by cases ta <;> exact matrix_strides tα dα) (by cases tb <;> exact matrix_strides tβ dβ)
        (matrix_strides ht1 hd1) le_rfl le_rfl le_rfl rα rβ ht1.wf hr1 h4
      refine ⟨C', g1, g2.isTensor ht1, by rw [g2.dims, hd1, hd], ?_⟩
      intro x hx
      rw [g2.dims, hd1] at hx
      obtain ⟨a, b, rfl, ha, hb⟩ := inBox_two.1 hx
      have := g3 a b ha hb
      simp only [toIdx, List.map_cons, List.map_nil, Int.ofNat_eq_natCast] at *
      rw [this]
      congr 1
      simp only [hsum, List.getD_cons_zero, List.getD_cons_succ, opElem_tile]
      ring

omit [BEq R] [LawfulBEq R] in
theorem zero_tile {t : Strided R} (ht : t.IsTensor) : t.zero.IsTensor ∧ t.zero.Represents fun _ => 0 := by
  have h : t.zero.IsTensor := ⟨ht.off, ht.strides, by simpa [Strided.zero] using ht.length⟩
  refine ⟨h, ?_⟩
  rw [h.represents_iff]
  apply List.ext_getElem
  · rw [List.length_map, length_box, h.length]
  · intro n h1 h2
    simp [Strided.zero]

theorem scaleTile_ok {beta : R} {created : Bool} {t : Strided R} (ht : t.IsTensor) {f : List Nat → R} (hf : t.Represents f)
    (hc : created = true → ∀ l, InBox l t.dims → f l = 0) :
    (scaleTile beta created t).IsTensor ∧ (scaleTile beta created t).dims = t.dims ∧
      (scaleTile beta created t).Represents fun l => beta * f l := by
  unfold scaleTile
  by_cases c : (beta == 0 || created) = true
  · rw [if_pos c]
    obtain ⟨z1, z2⟩ := zero_tile ht
    refine ⟨z1, rfl, ?_⟩
    intro l hl
    rw [z2 l hl]
    congr 1
    simp only [Bool.or_eq_true, beq_iff_eq] at c
    change 0 = beta * f l
    rcases c with rfl | c
    · simp
    · rw [hc c l hl, mul_zero]
  · rw [if_neg c]
    obtain ⟨m1, m2⟩ := map_data_represents ht hf (· * beta)
    refine ⟨m1, rfl, ?_⟩
    intro l hl
    rw [m2 l hl]
    simp only [mul_comm]

/-- gemm of tiled matrices. -/
theorem tiledGemm_ok {ta tb : Bool} {alpha beta : R} {A B C : Tiled R} {M N K : List Nat} {fA fB fC : List Nat → R}
    (wA : A.WF) (wB : B.WF) (wC : C.WF) (hA : A.Holds fA) (hB : B.Holds fB) (hC : C.Holds fC)
    (sA : A.sizes = opParts ta M K) (sB : B.sizes = opParts tb K N) (sC : C.sizes = [M, N])
    {sched : List (Nat × Nat)} (hs : sched.Perm (List.range M.length ×ˢ List.range N.length)) :
    ∃ C', tiledGemm ta tb alpha A B beta C sched = .ok C' ∧ C'.WF ∧ C'.sizes = C.sizes ∧
      C'.Holds fun x => beta * fC x + alpha * sumTo K.sum fun l =>
        opElem ta fA (x.getD 0 0) l * opElem tb fB l (x.getD 1 0) := by
  classical
  have e0 : C.tileSize 0 = M ∧ C.tileSize 1 = N ∧ A.tileSize (if ta then 1 else 0) = M ∧
      A.tileSize (if ta then 0 else 1) = K ∧ B.tileSize (if tb then 1 else 0) = K ∧
      B.tileSize (if tb then 0 else 1) = N := by
    unfold Tiled.tileSize
    rw [sA, sB, sC]
    cases ta <;> cases tb <;> simp [opParts]
  obtain ⟨e1, e2, e3, e4, e5, e6⟩ := e0
  unfold tiledGemm
  simp only [e1, e2, e3, e4, e5, e6, ne_eq, not_true_eq_false, or_self, if_false]
  have hmem : ∀ p ∈ sched, p.1 < M.length ∧ p.2 < N.length := by
    intro p hp
    have := hs.mem_iff.1 hp
    rw [List.mem_product] at this
    exact ⟨List.mem_range.1 this.1, List.mem_range.1 this.2⟩
  have hnd : (sched.map fun p => [p.1, p.2]).Nodup := by
    refine List.Nodup.map ?_ (hs.nodup_iff.2 (List.nodup_range.product List.nodup_range))
    rintro ⟨a, b⟩ ⟨c, d⟩ e
    simpa using e
  let S : List Nat → R := fun x => sumTo K.sum fun l => opElem ta fA (x.getD 0 0) l * opElem tb fB l (x.getD 1 0)
  have hS : ∀ i j a b, S (tileGlobal [M, N] [i, j] [a, b]) = sumTo K.length fun k => sumTo (K.getD k 0) fun l =>
        opElem ta fA (tileStart M i + a) (tileStart K k + l)
          * opElem tb fB (tileStart K k + l) (tileStart N j + b) := by
    intro i j a b
    simp only [S, tileGlobal, List.getD_cons_zero, List.getD_cons_succ]
    exact sumTo_split K _
  obtain ⟨C', f', h1, w', s', _, h', k1, k2⟩ := tileLoop wC hC (fun _ => True) trivial
    (fun p : Nat × Nat => [p.1, p.2]) (tiledGemmStep ta tb alpha A B beta K.length)
    (fun x v => beta * v + alpha * S x) sched hnd (by
      intro p hp C1 f1 s1 w1 _ h1 _
      obtain ⟨hi, hj⟩ := hmem p hp
      have s1' : C1.sizes = [M, N] := s1.trans sC
      have hk : InBox [p.1, p.2] (gridDims C1.sizes) := by rw [s1']; exact ⟨hi, hj, trivial⟩
      rw [sC]
      unfold tiledGemmStep
      rw [hasZeroSize_two s1']
      by_cases hz : (M.getD p.1 0 == 0 || N.getD p.2 0 == 0) = true
      · rw [if_pos hz]
        have hno : ∀ x, ¬ InTile [M, N] [p.1, p.2] x := by
          intro x hx
          obtain ⟨b, _⟩ := inTile_local hx
          obtain ⟨a, b', _, ha, hb⟩ := inBox_two.1 b
          simp only [Bool.or_eq_true, beq_iff_eq] at hz
          omega
        exact ⟨C1, f1, rfl, w1, s1', trivial, h1, fun x hx => (hno x hx).elim, fun _ _ _ => rfl⟩
      · rw [if_neg hz]
        simp only [Bool.or_eq_true, beq_iff_eq, not_or] at hz
        obtain ⟨hm, hn⟩ := hz
        by_cases hmod : (List.range K.length).any (gemmActive ta tb A B p.1 p.2) = true
        · rw [if_pos hmod]
          obtain ⟨C2, τ, q1, q2, q3, q4, q5, q6, q7, q8, q9, q10, q11⟩ := tile_at w1 h1 hk
          rw [s1'] at q9 q10 q4
          have hsc := scaleTile_ok (beta := beta) (created := !C1.hasTile (toIdx [p.1, p.2])) q8 q10 (by
            intro hc l hl
            rw [hasTile_eq hk] at hc
            have := (h1 _ hk).2 (by simpa using hc) l (by rw [s1', ← q9]; exact hl)
            rw [s1'] at this
            exact this)
          obtain ⟨t', g1, g2, g3, g4⟩ := gemmTile_ok (alpha := alpha) wA wB hA hB sA sB hi hj hm hn K.length le_rfl hsc.1
            (by rw [hsc.2.1, q9]; rfl) hsc.2.2
          obtain ⟨w3, h3⟩ := setTile_update q3 q7 (k := [p.1, p.2]) (by rw [q4]; exact ⟨hi, hj, trivial⟩)
            (by rw [q11]; rfl) g2 (by rw [g3, hsc.2.1, q9, q4]) (g := fun x => beta * f1 x + alpha * S x) (by
              rw [q4]
              intro l hl
              rw [g4 l hl]
              rw [g3, hsc.2.1, q9] at hl
              obtain ⟨a, b, rfl, ha, hb⟩ := inBox_two.1 hl
              simp only [hS, List.getD_cons_zero, List.getD_cons_succ])
          refine ⟨_, _, ?_, w3, q4, trivial, h3, ?_, ?_⟩
          · rw [q1, Outcome.ok_bind]
            simp only
            rw [q2, Outcome.ok_bind, g1]
            rfl
          · intro x hx
            rw [q4, if_pos hx]
          · intro x _ hx
            rw [q4, if_neg hx]
        · rw [if_neg hmod]
          have hS0 : ∀ x, InTile [M, N] [p.1, p.2] x → S x = 0 := by
            intro x hx
            obtain ⟨b, e⟩ := inTile_local hx
            obtain ⟨a, b', eq, ha, hb⟩ := inBox_two.1 b
            rw [← e, eq, hS]
            apply sumTo_zero'
            intro k hk'
            refine inactive_zero hA hB sA sB hi hj hk' hm hn ?_ (by simpa using ha) (by simpa using hb)
            have := List.any_eq_false.1 (by simpa using hmod) k (List.mem_range.2 hk')
            simpa using this
          cases hl : C1.tiles.lookup [p.1, p.2] with
          | some τ =>
            rw [hasTile_eq hk, hl]
            have hz' : (M.getD p.1 0 == 0 || N.getD p.2 0 == 0) = false := by
              simp [beq_false_of_ne hm, beq_false_of_ne hn, -List.getD_eq_getElem?_getD]
            rw [hz', if_pos (by rfl)]
            obtain ⟨_, t2, t3⟩ := w1.tiles _ τ hl
            have tr := (h1 _ hk).1 τ hl
            have hsc := scaleTile_ok (beta := beta) (created := false) t2 tr (by simp)
            obtain ⟨w3, h3⟩ := setTile_update w1 h1 hk (by rw [hl]; rfl) hsc.1 (by rw [hsc.2.1, t3])
              (g := fun x => beta * f1 x) hsc.2.2
            refine ⟨_, _, ?_, w3, s1', trivial, h3, ?_, ?_⟩
            · unfold Tiled.at
              rw [hl]
              rfl
            · intro x hx
              rw [s1', if_pos hx, hS0 x hx, mul_zero, add_zero]
            · intro x _ hx
              rw [s1', if_neg hx]
          | none =>
            rw [hasTile_eq hk, hl, if_neg (by simp)]
            refine ⟨C1, f1, rfl, w1, s1', trivial, h1, ?_, fun _ _ _ => rfl⟩
            intro x hx
            obtain ⟨b, e⟩ := inTile_local hx
            have := (h1 _ hk).2 hl (tileLocal [M, N] [p.1, p.2] x) (by rw [s1']; exact b)
            rw [s1', e] at this
            rw [hS0 x hx, this, mul_zero, mul_zero, add_zero])
  refine ⟨C', h1, w', s', holds_congr w' h' ?_⟩
  intro x hx
  rw [s', sC] at hx
  obtain ⟨t, ht⟩ := exists_inTile hx
  obtain ⟨i, j, rfl, hi, hj⟩ := inBox_two.1 (inTile_grid ht)
  have : (i, j) ∈ sched := hs.mem_iff.2 (List.mem_product.2 ⟨List.mem_range.2 hi, List.mem_range.2 hj⟩)
  exact k1 (i, j) this x (by rw [sC]; exact ht)

end
end Einsums
