import Verif.Proofs.TiledDot
import Verif.Props.Tiled
import Mathlib.NumberTheory.Zsqrtd.GaussianInt
/-
Property theorems C32, C33, C53–C55: linear algebra on tiled tensors, and the conjugating dot product.
-/
namespace Einsums.Props
open Einsums Spec Model

variable {R : Type}

/-! ### C32: product of tiled matrices -/

section
variable [CommSemiring R] [BEq R] [LawfulBEq R]

/-- **C32.** For tiled matrices with op(A) partitioned (M, K), op(B) partitioned (K, N) and C partitioned (M, N),
whatever tiles exist, whatever the order of the parallel loop over the tiles of C, every element satisfies
`C(i,j) := beta*C(i,j) + alpha*Σ_l op(A)(i,l)*op(B)(l,j)`, and the layout of C is kept. -/
theorem C32_gemm (ta tb : Bool) (alpha beta : R) (A B C : Tiled R) (M N K : List Nat) (fA fB fC : List Nat → R)
    (wA : A.WF) (wB : B.WF) (wC : C.WF) (hA : A.Represents fA) (hB : B.Represents fB) (hC : C.Represents fC)
    (sA : A.sizes = opParts ta M K) (sB : B.sizes = opParts tb K N) (sC : C.sizes = [M, N])
    (sched : List (Nat × Nat)) (hs : sched.Perm (List.range M.length ×ˢ List.range N.length)) :
    ∃ C', tiledGemm ta tb alpha A B beta C sched = .ok C' ∧ C'.WF ∧ C'.sizes = C.sizes ∧
      C'.Represents fun x => beta * fC x + alpha * sumTo K.sum fun l =>
        opElem ta fA (x.getD 0 0) l * opElem tb fB l (x.getD 1 0) := by
  obtain ⟨C', h1, h2, h3, h4⟩ := tiledGemm_ok wA wB wC ((represents_holds wA).1 hA) ((represents_holds wB).1 hB)
    ((represents_holds wC).1 hC) sA sB sC hs
  exact ⟨C', h1, h2, h3, (represents_holds h2).2 h4⟩

omit [LawfulBEq R] in
/-- **C32 (incompatible partitions).** If the partitions do not match, the call throws. -/
theorem C32_gemm_throws (ta tb : Bool) (alpha beta : R) (A B C : Tiled R) (MA KA KB NB MC NC : List Nat)
    (sA : A.sizes = opParts ta MA KA) (sB : B.sizes = opParts tb KB NB) (sC : C.sizes = [MC, NC])
    (h : MA ≠ MC ∨ NB ≠ NC ∨ KA ≠ KB) (sched : List (Nat × Nat)) :
    (tiledGemm ta tb alpha A B beta C sched).isError = true := by
  have e0 : C.tileSize 0 = MC ∧ C.tileSize 1 = NC ∧ A.tileSize (if ta then 1 else 0) = MA ∧
      A.tileSize (if ta then 0 else 1) = KA ∧ B.tileSize (if tb then 1 else 0) = KB ∧
      B.tileSize (if tb then 0 else 1) = NB := by
    unfold Tiled.tileSize
    rw [sA, sB, sC]
    cases ta <;> cases tb <;> simp [opParts]
  obtain ⟨e1, e2, e3, e4, e5, e6⟩ := e0
  unfold tiledGemm
  rw [e1, e2, e3, e4, e5, e6]
  simp only
  split
  · rfl
  · split
    · rfl
    · split
      · rfl
      · split
        · rfl
        · split
          · rfl
          · rename_i h3 h4 h5
            simp only [ne_eq, Decidable.not_not] at h3 h4 h5
            rcases h with h | h | h
            · exact (h h3.symm).elim
            · exact (h h4.symm).elim
            · exact (h h5).elim

/-- Tiled matrices built from a list of assignments, for the examples. -/
def tiledOf (parts : List (List Nat)) (ops : List (TiledOp Int)) : Tiled Int :=
  match runTiled ops (Tiled.mk' parts) with
  | .ok T => T
  | _ => Tiled.mk' parts

theorem tiledOf_ok (parts : List (List Nat)) (h : parts ≠ []) (ops : List (TiledOp Int))
    (hv : ∀ op ∈ ops, op.Valid (gridDims parts)) :
    (tiledOf parts ops).WF ∧ (tiledOf parts ops).sizes = parts ∧
      (tiledOf parts ops).Represents (ops.foldl (TiledOp.dense (fullDims parts)) fun _ => 0) := by
  obtain ⟨T, h1, h2, h3, h4⟩ := history ops (wf_mk' h) (holds_mk' parts) hv
  unfold tiledOf
  rw [h1]
  exact ⟨h2, h3, (represents_holds h2).2 h4⟩

/-- A case with rectangular tiles, an empty interval, missing tiles on both sides and a transposed factor. -/
example : ∃ C', tiledGemm true false 2 (tiledOf [[1, 0, 2], [2, 1]] [.set [0, 0] 1, .set [2, 1] 3, .set [1, 2] 4])
      (tiledOf [[1, 0, 2], [2]] [.set [0, 1] 5, .set [2, 0] 6]) 3 (tiledOf [[2, 1], [2]] [.set [0, 0] 7])
      [(1, 0), (0, 0)] = .ok C' ∧ C'.get [0, 0] = .ok 21 ∧ C'.get [0, 1] = .ok 10 ∧ C'.get [1, 0] = .ok 36 ∧
      C'.get [2, 0] = .ok 0 := ⟨_, rfl, by decide, by decide, by decide, by decide⟩

example : (tiledOf [[1, 0, 2], [2, 1]] [.set [0, 0] 1, .set [2, 1] 3, .set [1, 2] 4]).WF ∧
    (tiledOf [[1, 0, 2], [2, 1]] [.set [0, 0] 1, .set [2, 1] 3, .set [1, 2] 4]).sizes
      = opParts true [2, 1] [1, 0, 2] :=
  ⟨(tiledOf_ok _ (by simp) _ (by simp [TiledOp.Valid])).1, (tiledOf_ok _ (by simp) _ (by simp [TiledOp.Valid])).2.1⟩

example : [(1, 0), (0, 0)].Perm (List.range [2, 1].length ×ˢ List.range [2].length) := by decide

/-! ### C33: dot of tiled tensors -/

omit [LawfulBEq R] in
/-- **C33 (dot, partial).** If the numbers of tiles along the axes read the same forwards and backwards (any
vector, any square grid), `dot(A, B)` is the sum over all elements of `A(i)*B(i)`, whatever tiles exist and
whatever the order of the reduction.  Missing: other grids, see `C33_dot_visited` and `C33_dot_refuted`. -/
theorem C33_dot_partial (A B : Tiled R) (fA fB : List Nat → R) (wA : A.WF) (wB : B.WF) (hA : A.Represents fA)
    (hB : B.Represents fB) (hs : B.sizes = A.sizes) (hg : (gridDims A.sizes).reverse = gridDims A.sizes)
    (sched : List Nat) (hp : sched.Perm (List.range A.gridSize)) :
    tiledDot A B sched = .ok ((box (fullDims A.sizes)).map fun i => fA i * fB i).sum := by
  rw [tiledDot_ok wA wB ((represents_holds wA).1 hA) ((represents_holds wB).1 hB) hs hp, hg, ← sum_tiles A.sizes]
  congr 2
  apply List.map_congr_left
  intro k hk
  rw [if_pos hk]

omit [LawfulBEq R] in
/-- **C33 (dot, exactly).** In general the positions visited are those of the grid with its axes reversed:
only the tiles that lie in both grids are counted. -/
theorem C33_dot_visited (A B : Tiled R) (fA fB : List Nat → R) (wA : A.WF) (wB : B.WF) (hA : A.Represents fA)
    (hB : B.Represents fB) (hs : B.sizes = A.sizes) (sched : List Nat) (hp : sched.Perm (List.range A.gridSize)) :
    tiledDot A B sched = .ok (((box (gridDims A.sizes).reverse).filter (· ∈ box (gridDims A.sizes))).map fun k =>
      ((box (tileDims A.sizes k)).map fun l => fA (tileGlobal A.sizes k l) * fB (tileGlobal A.sizes k l)).sum).sum := by
  rw [tiledDot_ok wA wB ((represents_holds wA).1 hA) ((represents_holds wB).1 hB) hs hp]
  congr 1
  induction box (gridDims A.sizes).reverse with
  | nil => rfl
  | cons k ks ih =>
    rw [List.map_cons, List.sum_cons, ih]
    by_cases c : k ∈ box (gridDims A.sizes)
    · rw [if_pos c, List.filter_cons_of_pos (by simpa using c), List.map_cons, List.sum_cons]
    · rw [if_neg c, List.filter_cons_of_neg (by simpa using c), zero_add]

omit [BEq R] [LawfulBEq R] in
/-- **C33 (dot, different grids).** Tensors with different numbers of tiles along an axis are rejected. -/
theorem C33_dot_throws (conj : R → R) (A B : Tiled R) (h : gridDims A.sizes ≠ gridDims B.sizes) (sched : List Nat) :
    (tiledDot A B sched).isError = true ∧ (tiledTrueDot conj A B sched).isError = true := by
  unfold tiledDot tiledTrueDot
  change A.sizes.map List.length ≠ B.sizes.map List.length at h
  rw [if_pos h, if_pos h]
  exact ⟨rfl, rfl⟩

omit [LawfulBEq R] in
/-- **C33 (true_dot, partial).** The same for `true_dot`, which conjugates its first argument, up to rank 2.
Missing: as for `dot`, and rank 3 and higher, see `C33_true_dot_refuted`. -/
theorem C33_true_dot_partial (conj : R →+* R) (A B : Tiled R) (fA fB : List Nat → R) (wA : A.WF) (wB : B.WF)
    (hA : A.Represents fA) (hB : B.Represents fB) (hs : B.sizes = A.sizes)
    (hg : (gridDims A.sizes).reverse = gridDims A.sizes) (hr : A.sizes.length ≤ 2)
    (sched : List Nat) (hp : sched.Perm (List.range A.gridSize)) :
    tiledTrueDot conj A B sched = .ok ((box (fullDims A.sizes)).map fun i => conj (fA i) * fB i).sum := by
  rw [tiledTrueDot_eq _ _ _ _ hr]
  have w := mapTiles_wf wA conj
  exact C33_dot_partial (A.mapTiles conj) B (fun i => conj (fA i)) fB w wB
    ((represents_holds w).2 (mapTiles_holds wA conj (map_zero conj) ((represents_holds wA).1 hA))) hB hs hg sched hp

end

/-- **C33 (dot, refuted).** On a grid of 1×2 tiles the second tile is never visited: the dot product of the
matrix `[0 5]` (tiles of one element) with itself is 0 instead of 25. -/
theorem C33_dot_refuted : ∃ A : Tiled Int, A.WF ∧ A.get [0, 0] = .ok 0 ∧ A.get [0, 1] = .ok 5 ∧
    fullDims A.sizes = [1, 2] ∧ tiledDot A A (List.range A.gridSize) = .ok 0 :=
  ⟨tiledOf [[1], [1, 1]] [.set [0, 1] 5], (tiledOf_ok _ (by simp) _ (by simp [TiledOp.Valid])).1, by decide, by decide,
    by decide, by decide⟩

/-- **C33 (true_dot, refuted).** On a cubic grid of 2×2×2 tiles `true_dot` decodes the tile number wrongly:
tile (0,1,0) is never visited and (0,0,0) twice. -/
theorem C33_true_dot_refuted : ∃ A : Tiled Int, A.WF ∧ fullDims A.sizes = [2, 2, 2] ∧
    A.get [0, 0, 0] = .ok 1 ∧ A.get [0, 1, 0] = .ok 3 ∧ A.get [1, 1, 1] = .ok 0 ∧
    tiledDot A A (List.range A.gridSize) = .ok 10 ∧ tiledTrueDot id A A (List.range A.gridSize) = .ok 2 :=
  ⟨tiledOf [[1, 1], [1, 1], [1, 1]] [.set [0, 0, 0] 1, .set [0, 1, 0] 3],
    (tiledOf_ok _ (by simp) _ (by simp [TiledOp.Valid])).1, by decide, by decide, by decide, by decide, by decide, by decide⟩

example : (gridDims [[1, 2], [3, 0]]).reverse = gridDims [[1, 2], [3, 0]] := by decide

example : tiledDot (tiledOf [[1, 2], [3, 0]] [.set [0, 1] 5, .set [2, 2] 4])
    (tiledOf [[1, 2], [3, 0]] [.set [0, 1] 6, .set [2, 2] 3, .set [1, 0] 8]) [2, 0, 3, 1] = .ok 42 := by decide

/-! ### C53: direct_product of tiled tensors -/

section
variable [CommSemiring R] [BEq R] [LawfulBEq R]

/-- **C53 (partial).** `direct_product(alpha, A, B, beta, &C)` gives `C(i) := beta*C(i) + alpha*A(i)*B(i)` for
every element if beta is one or if every tile of A and of B exists, in any order of the parallel loop.
Missing: a missing tile of A or B with beta ≠ 1, see `C53_direct_refuted`. -/
theorem C53_direct_partial (alpha beta : R) (A B C : Tiled R) (fA fB fC : List Nat → R) (wA : A.WF) (wB : B.WF)
    (wC : C.WF) (hA : A.Represents fA) (hB : B.Represents fB) (hC : C.Represents fC) (sB : B.sizes = A.sizes)
    (sC : C.sizes = A.sizes) (sched : List Nat) (hp : sched.Perm (List.range A.gridSize))
    (h : beta = 1 ∨ ∀ k, InBox k (gridDims A.sizes) → A.hasTile (toIdx k) = true ∧ B.hasTile (toIdx k) = true) :
    ∃ C', tiledDirectProduct alpha A B beta C sched = .ok C' ∧ C'.WF ∧ C'.sizes = C.sizes ∧
      C'.Represents fun x => beta * fC x + alpha * (fA x * fB x) := by
  have hA' := (represents_holds wA).1 hA
  have hB' := (represents_holds wB).1 hB
  obtain ⟨C', f', h1, h2, h3, h4, h5⟩ := directTile_ok (alpha := alpha) (beta := beta) wA wB wC hA' hB'
    ((represents_holds wC).1 hC) sB sC hp
  refine ⟨C', h1, h2, h3, ?_⟩
  intro x hx
  rw [(represents_holds h2).2 h4 x hx]
  congr 1
  rw [h3, sC] at hx
  obtain ⟨k, hk⟩ := exists_inTile hx
  rw [h5 k x hk]
  have hkg := inTile_grid hk
  have hkB : InBox k (gridDims B.sizes) := by rw [sB]; exact hkg
  by_cases c : (A.tiles.lookup k).isSome ∧ (B.tiles.lookup k).isSome
  · rw [if_pos c]
  · rw [if_neg c]
    rcases h with rfl | h
    · obtain ⟨b, e⟩ := inTile_local hk
      have hz : fA x * fB x = 0 := by
        by_cases ca : (A.tiles.lookup k).isSome = true
        · have hn : B.tiles.lookup k = none := by
            cases hb : B.tiles.lookup k with
            | none => rfl
            | some β => exact (c ⟨ca, by simp [hb]⟩).elim
          have := (hB' k hkB).2 hn _ (by rw [sB]; exact b)
          rw [sB, e] at this
          rw [this, mul_zero]
        · have hn : A.tiles.lookup k = none := by
            cases ha : A.tiles.lookup k with
            | none => rfl
            | some β => simp [ha] at ca
          have := (hA' k hkg).2 hn _ b
          rw [e] at this
          rw [this, zero_mul]
      change fC x = 1 * fC x + alpha * (fA x * fB x)
      rw [hz, mul_zero, add_zero, one_mul]
    · exact (c (by rw [← hasTile_eq hkg, ← hasTile_eq hkB]; exact h k hkg)).elim

/-- **C53 (exactly).** In general exactly the elements in tiles that exist in both A and B are updated. -/
theorem C53_direct_updated (alpha beta : R) (A B C : Tiled R) (fA fB fC : List Nat → R) (wA : A.WF) (wB : B.WF)
    (wC : C.WF) (hA : A.Represents fA) (hB : B.Represents fB) (hC : C.Represents fC) (sB : B.sizes = A.sizes)
    (sC : C.sizes = A.sizes) (sched : List Nat) (hp : sched.Perm (List.range A.gridSize)) :
    ∃ C', tiledDirectProduct alpha A B beta C sched = .ok C' ∧ C'.WF ∧ C'.sizes = C.sizes ∧
      ∀ k x, InTile A.sizes k x → C'.get (toIdx x) = .ok
        (if A.hasTile (toIdx k) = true ∧ B.hasTile (toIdx k) = true then beta * fC x + alpha * (fA x * fB x)
          else fC x) := by
  obtain ⟨C', f', h1, h2, h3, h4, h5⟩ := directTile_ok (alpha := alpha) (beta := beta) wA wB wC
    ((represents_holds wA).1 hA) ((represents_holds wB).1 hB) ((represents_holds wC).1 hC) sB sC hp
  refine ⟨C', h1, h2, h3, ?_⟩
  intro k x hk
  have hkg := inTile_grid hk
  have hkB : InBox k (gridDims B.sizes) := by rw [sB]; exact hkg
  rw [(represents_holds h2).2 h4 x (by rw [h3, sC]; exact inTile_full hk), h5 k x hk, hasTile_eq hkg, hasTile_eq hkB]

/-- **C53 (refuted).** With beta = 0 and a tile of A missing, C keeps its old elements there. -/
theorem C53_direct_refuted : ∃ A B C C' : Tiled Int, A.WF ∧ B.WF ∧ C.WF ∧ A.sizes = [[1, 1]] ∧ B.sizes = [[1, 1]] ∧
    C.sizes = [[1, 1]] ∧ A.get [1] = .ok 0 ∧ B.get [1] = .ok 2 ∧
    tiledDirectProduct 1 A B 0 C (List.range A.gridSize) = .ok C' ∧ C'.get [1] = .ok 7 :=
  ⟨tiledOf [[1, 1]] [.set [0] 3], tiledOf [[1, 1]] [.set [0] 4, .set [1] 2], tiledOf [[1, 1]] [.set [1] 7], _,
    (tiledOf_ok _ (by simp) _ (by simp [TiledOp.Valid])).1, (tiledOf_ok _ (by simp) _ (by simp [TiledOp.Valid])).1,
    (tiledOf_ok _ (by simp) _ (by simp [TiledOp.Valid])).1, by decide, by decide, by decide, by decide, by decide, rfl,
    by decide⟩

example : ∃ C', tiledDirectProduct 2 (tiledOf [[1, 2]] [.set [0] 3, .set [2] 5])
    (tiledOf [[1, 2]] [.set [0] 4, .set [2] 6]) 3 (tiledOf [[1, 2]] [.set [1] 7]) [1, 0] = .ok C' ∧
    C'.get [0] = .ok 24 ∧ C'.get [1] = .ok 21 ∧ C'.get [2] = .ok 60 := ⟨_, rfl, by decide, by decide, by decide⟩

/-! ### C54: tiled matrix times dense vector -/

/-- **C54.** For a tiled matrix with op(A) partitioned (M, K), a dense vector z with any positive stride and a
dense tensor y: `y(i) := beta*y(i) + alpha*Σ_l op(A)(i,l)*z(l)`, in any order of the parallel loop. -/
theorem C54_gemv (trans : Bool) (alpha beta : R) (A : Tiled R) (M K : List Nat) (fA fz fy : List Nat → R) (wA : A.WF)
    (hA : A.Represents fA) (sA : A.sizes = opParts trans M K) (z : Strided R) (wz : z.WF) (incx : Nat)
    (dz : z.dims = [K.sum]) (sz : z.strides = [incx]) (hx0 : incx ≠ 0) (hz : z.Represents fz)
    (y : Strided R) (ty : y.IsTensor) (dy : y.dims = [M.sum]) (hy : y.Represents fy)
    (sched : List Nat) (hp : sched.Perm (List.range M.length)) :
    ∃ y', tiledGemv trans alpha A z beta y sched = .ok y' ∧ y'.IsTensor ∧ y'.dims = [M.sum] ∧
      y'.Represents fun x => beta * fy x + alpha * sumTo K.sum fun l => opElem trans fA (x.getD 0 0) l * fz [l] :=
  tiledGemv_ok wA ((represents_holds wA).1 hA) sA wz dz sz hx0 hz ty dy hy hp

example : tiledGemv true 2 (tiledOf [[1, 0, 2], [2, 1]] [.set [0, 0] 1, .set [2, 1] 3, .set [1, 2] 4])
    ⟨[1, 0, 2, 0, 3, 0], 0, [3], [2]⟩ 10 ⟨[1, 1, 1], 0, [3], [1]⟩ [1, 0]
    = .ok ⟨[12, 28, 26], 0, [3], [1]⟩ := by decide

end

/-! ### C55: true_dot conjugates its first argument -/

/-- **C55.** `true_dot(A, B)` is the sum over all elements of `conj(A(i))*B(i)`, for tensors and for views, on
every path of the code. -/
theorem C55_true_dot [CommSemiring R] (conj : R → R) (A B : Operand R) (fA fB : List Nat → R)
    (hd : B.t.dims = A.t.dims) (h0 : A.t.dims ≠ []) (vA : A.Valid) (vB : B.Valid)
    (hA : A.t.Represents fA) (hB : B.t.Represents fB) :
    trueDotOp conj A B = .ok ((box A.t.dims).map fun i => conj (fA i) * fB i).sum := by
  have : BEq R := ⟨fun _ _ => true⟩
  rw [trueDotOp_eq]
  exact dotOp_eq (A := { A with t := A.t.mapData conj }) hd h0 (mapData_wf vA.wf conj) vB.wf
    (fun h => ⟨(vA.full h).1, by simpa [Strided.mapData] using (vA.full h).2⟩) vB.full
    (mapData_represents hA conj) hB

/-- The conjugation is seen on complex integers, on a vector and on a strided view. -/
example : trueDotOp (R := GaussianInt) star ⟨⟨[⟨0, 1⟩, ⟨2, 3⟩], 0, [2], [1]⟩, false, true⟩
    ⟨⟨[⟨0, 1⟩, ⟨1, 0⟩], 0, [2], [1]⟩, false, true⟩ = .ok ⟨3, -3⟩ ∧
    trueDotOp (R := GaussianInt) star ⟨⟨[⟨0, 1⟩, ⟨9, 9⟩, ⟨2, 3⟩, ⟨9, 9⟩], 0, [2, 1], [2, 1]⟩, true, false⟩
    ⟨⟨[⟨0, 1⟩, ⟨9, 9⟩, ⟨1, 0⟩, ⟨9, 9⟩], 0, [2, 1], [2, 1]⟩, true, false⟩ = .ok ⟨3, -3⟩ := by decide

end Einsums.Props
