import Verif.Props.PrintTensor
import Verif.Model.PrintParts
import Verif.Spec.PrintParts
import Verif.Spec.TiledTensor
import Verif.Proofs.TiledOps
import Verif.Proofs.TiledLinAlg
import Mathlib.Algebra.Order.BigOperators.Group.List
/-
C161: printed block tensors and tiled tensors.
-/
namespace Einsums.Props
open Spec Model

variable {R : Type}

/-- The grid is run through with the first coordinate fastest. -/
theorem map_gridIndex_eq (gs : List Nat) : (List.range (numel gs)).map (gridIndex gs) = positions gs := by
  induction gs with
  | nil => simp [numel, positions, gridIndex]
  | cons g gs ih =>
    rw [positions, ← ih, List.flatMap_map]
    rcases Nat.eq_zero_or_pos g with rfl | hg
    · simp [numel]
    · have key : ∀ n, (List.range (g * n)).map (gridIndex (g :: gs)) =
          (List.range n).flatMap fun q => (List.range g).map (· :: gridIndex gs q) := by
        intro n
        induction n with
        | zero => simp
        | succ n ihn =>
          rw [Nat.mul_succ, List.range_add, List.map_append, ihn, List.range_succ, List.flatMap_append]
          simp only [List.flatMap_cons, List.flatMap_nil, List.append_nil, List.map_map]
          congr 1
          apply List.map_congr_left
          intro i hi
          have hi := List.mem_range.1 hi
          simp only [Function.comp, gridIndex, Nat.mul_add_mod, Nat.mod_eq_of_lt hi]
          rw [Nat.mul_add_div hg, Nat.div_eq_of_lt hi, Nat.add_zero]
      exact key _

theorem mem_positions {gs k : List Nat} : k ∈ positions gs ↔ InBox k gs := by
  rw [← map_gridIndex_eq, (map_gridIndex_perm gs).mem_iff, mem_box]

/-- **C161 (block tensors).** After any history of indentations `println` of a block tensor writes its name and, one level deeper,
`Block Tensor`, the type of the elements, and the blocks, each as a tensor by itself, in their order. -/
theorem C161_block (F : NumText R) (ops : List IndentOp) (par : Bool) (thread : Nat) (name dataType kind : List UInt8)
    (names : Nat → List UInt8) (w : Nat) (full : Bool) (T : Block R) (fs : Nat → List Nat → R)
    (hA : ∀ (b : Nat) (t : Strided R), T.blocks[b]? = some t → t.Represents (fs b)) (hw : 0 < w) (hF : OneLine F)
    (h1 : (10 : UInt8) ∉ name) (h2 : (10 : UInt8) ∉ kind) (h3 : (10 : UInt8) ∉ dataType) (h4 : ∀ b, (10 : UInt8) ∉ names b) :
    ∃ (level level1 level2 : Nat) (header : List UInt8), (runIndent ops .init).indentLevel = 4 * level ∧
      (par = false → header = []) ∧
      (level1 = if thread = 0 then level + 1 else level) ∧ (level2 = if thread = 0 then level1 + 1 else level1) ∧
      printBlock F (runIndent ops .init) par thread name dataType names kind ⟨w, full⟩ T = .ok (
        indented header level (ascii ['N', 'a', 'm', 'e', ':', ' '] ++ name) ++
        indented header level1 (ascii ['B', 'l', 'o', 'c', 'k', ' ', 'T', 'e', 'n', 's', 'o', 'r']) ++
        indented header level1 (ascii ['D', 'a', 't', 'a', ' ', 'T', 'y', 'p', 'e', ':', ' '] ++ dataType) ++
        ((List.range T.blocks.length).flatMap fun b => match T.blocks[b]? with
          | some t => tensorText F header level1 level2 (names b) kind dataType w full t.dims t.strides (fs b)
          | none => [])) := by
  obtain ⟨k, inv, hs, _⟩ := indentInv_run ops 0 _ indentInv_init
  have inv' := indentInv_indent inv thread
  have hs' := suppress_indent hs thread
  refine ⟨k, _, _, threadHeader par thread, inv.level, by rintro rfl; rfl, rfl, rfl, ?_⟩
  generalize (if thread = 0 then k + 1 else k) = k1 at *
  unfold printBlock
  simp only
  rw [println_one inv hs par thread _ _ (by decide) h1 (by decide),
    println_one inv' hs' par thread _ _ (by decide) (by decide) (by decide),
    println_one inv' hs' par thread _ _ (by decide) h3 (by decide)]
  rw [foldlM_texts (t := fun b => match T.blocks[b]? with
    | some t => tensorText F (threadHeader par thread) k1
      (if thread = 0 then k1 + 1 else k1) (names b) kind dataType w full t.dims t.strides (fs b)
    | none => [])]
  · simp only [List.append_assoc]
    rfl
  · intro s b hb
    have hb := List.mem_range.1 hb
    simp only [Block.at, List.getElem?_eq_getElem hb, Outcome.ok_bind]
    rw [printTensor_eq F inv' hs' par thread _ _ _ w full _ (fs b) (hA b _ (List.getElem?_eq_getElem hb)) hw hF (h4 b) h2 h3]
    rfl

/-- The text of a tiled tensor. -/
def tiledText (F : NumText R) (header : List UInt8) (level level1 level2 : Nat) (name dataType kind : List UInt8)
    (names : List Nat → List UInt8) (w : Nat) (full : Bool) (T : Tiled R) (fs : List Nat → List Nat → R) : List UInt8 :=
  indented header level (ascii ['N', 'a', 'm', 'e', ':', ' '] ++ name) ++
  indented header level1 (ascii ['T', 'i', 'l', 'e', 'd', ' ', 'T', 'e', 'n', 's', 'o', 'r']) ++
  indented header level1 (ascii ['D', 'a', 't', 'a', ' ', 'T', 'y', 'p', 'e', ':', ' '] ++ dataType) ++
  indented header level1 (ascii ['D', 'i', 'm', 's', '{'] ++ (fullDims T.sizes).flatMap (fun n => decimal n ++ [32]) ++
    ascii ['}']) ++
  ((positions (gridDims T.sizes)).flatMap fun k => match T.tiles.lookup k with
    | some t => tensorText F header level1 level2 (names k) kind dataType w full t.dims t.strides (fs k)
    | none => [])

theorem printTiled_eq (d : PrintTarget) (F : NumText R) {k : Nat} {st : PrintState} (inv : IndentInv k st)
    (hs : st.suppress = false) (par : Bool) (thread : Nat)
    (name dataType kind : List UInt8) (names : List Nat → List UInt8) (w : Nat) (full : Bool) (o : PrintOptions)
    (ho : d.options o = ⟨w, full⟩) (T : Tiled R) (wf : T.WF)
    (fs : List Nat → List Nat → R) (hA : ∀ k t, T.tiles.lookup k = some t → t.Represents (fs k)) (hw : 0 < w)
    (hF : OneLine F) (h1 : (10 : UInt8) ∉ name) (h2 : (10 : UInt8) ∉ kind)
    (h3 : (10 : UInt8) ∉ dataType) (h4 : ∀ b, (10 : UInt8) ∉ names b) :
    printTiled d F st par thread name dataType names kind o T =
      .ok (tiledText F (threadHeader par thread) k (if thread = 0 then k + 1 else k)
        (if thread = 0 then (if thread = 0 then k + 1 else k) + 1 else (if thread = 0 then k + 1 else k)) name dataType kind names
        w full T fs) := by
  have inv' := indentInv_indent inv thread
  have hs' := suppress_indent hs thread
  generalize (if thread = 0 then k + 1 else k) = k1 at *
  have hlen : T.offsets.map List.length = gridDims T.sizes := by
    rw [wf.offsets, List.map_map, gridDims]
    apply List.map_congr_left
    intro s _
    simp
  have hdims : T.dims ≠ [] := by
    rw [wf.dims]
    simpa [fullDims] using wf.rank
  unfold printTiled tiledText
  simp only
  rw [println_one inv hs par thread _ _ (by decide) h1 (by decide),
    println_one inv' hs' par thread _ _ (by decide) (by decide) (by decide),
    println_one inv' hs' par thread _ _ (by decide) h3 (by decide), if_pos (List.length_pos_iff.2 hdims),
    println_one inv' hs' par thread _ _ (by decide) (by
      simp only [List.mem_append, not_or]; exact ⟨numbersText_no_nl _, by decide⟩) (by decide), ho]
  unfold printTiles
  rw [foldlM_texts (t := fun i => match T.tiles.lookup (gridIndex (gridDims T.sizes) i) with
    | some t => tensorText F (threadHeader par thread) k1
      (if thread = 0 then k1 + 1 else k1) (names (gridIndex (gridDims T.sizes) i)) kind dataType w full t.dims t.strides
        (fs (gridIndex (gridDims T.sizes) i))
    | none => [])]
  · rw [← map_gridIndex_eq, List.flatMap_map, numTiles_eq wf, ← wf.dims]
    simp only [numbersText, List.append_assoc]
    rfl
  · intro s i hi
    rw [hlen]
    have hi : InBox (gridIndex (gridDims T.sizes) i) (gridDims T.sizes) :=
      gridIndex_inBox (by rw [← numTiles_eq wf]; exact List.mem_range.1 hi)
    generalize gridIndex (gridDims T.sizes) i = p at *
    rw [hasTileContainer_eq hi, tileConst_eq hi]
    unfold Tiled.at
    cases hl : T.tiles.lookup p with
    | none => simp [Pure.pure]
    | some t =>
      simp only [Option.isSome_some, if_true, Outcome.ok_bind]
      rw [printTensor_eq F inv' hs' par thread _ _ _ w full _ (fs p) (hA p t hl) hw hF (h4 p) h2 h3]
      rfl

/-- **C161 (tiled tensors).** After any history of indentations `println` of a tiled tensor writes its name and, one level deeper,
`Tiled Tensor`, the type of the elements, the dimensions, and every stored tile, as a tensor by itself, in the order of the
positions with the first coordinate running fastest.  This holds with the options of the call for `println` and for streams; for
`FILE *` with the default options. -/
theorem C161_tiled_partial (d : PrintTarget) (F : NumText R) (ops : List IndentOp) (par : Bool) (thread : Nat)
    (name dataType kind : List UInt8) (names : List Nat → List UInt8) (w : Nat) (full : Bool) (T : Tiled R) (wf : T.WF)
    (fs : List Nat → List Nat → R) (hA : ∀ k t, T.tiles.lookup k = some t → t.Represents (fs k)) (hw : 0 < w)
    (hd : d = .file → w = 5 ∧ full = true) (hF : OneLine F) (h1 : (10 : UInt8) ∉ name) (h2 : (10 : UInt8) ∉ kind)
    (h3 : (10 : UInt8) ∉ dataType) (h4 : ∀ b, (10 : UInt8) ∉ names b) :
    ∃ (level level1 level2 : Nat) (header : List UInt8), (runIndent ops .init).indentLevel = 4 * level ∧
      (par = false → header = []) ∧
      (level1 = if thread = 0 then level + 1 else level) ∧ (level2 = if thread = 0 then level1 + 1 else level1) ∧
      printTiled d F (runIndent ops .init) par thread name dataType names kind ⟨w, full⟩ T = .ok (
        indented header level (ascii ['N', 'a', 'm', 'e', ':', ' '] ++ name) ++
        indented header level1 (ascii ['T', 'i', 'l', 'e', 'd', ' ', 'T', 'e', 'n', 's', 'o', 'r']) ++
        indented header level1 (ascii ['D', 'a', 't', 'a', ' ', 'T', 'y', 'p', 'e', ':', ' '] ++ dataType) ++
        indented header level1 (ascii ['D', 'i', 'm', 's', '{'] ++ (fullDims T.sizes).flatMap (fun n => decimal n ++ [32]) ++
          ascii ['}']) ++
        ((positions (gridDims T.sizes)).flatMap fun k => match T.tiles.lookup k with
          | some t => tensorText F header level1 level2 (names k) kind dataType w full t.dims t.strides (fs k)
          | none => [])) := by
  obtain ⟨k, inv, hs, _⟩ := indentInv_run ops 0 _ indentInv_init
  refine ⟨k, _, _, threadHeader par thread, inv.level, by rintro rfl; rfl, rfl, rfl, ?_⟩
  refine printTiled_eq d F inv hs par thread name dataType kind names w full _ ?_ T wf fs hA hw hF h1 h2 h3 h4
  cases d <;> simp [PrintTarget.options]
  obtain ⟨rfl, rfl⟩ := hd rfl
  simp

/-- **C161 (refuted for `FILE *`).** For every tiled tensor with a tile, `fprintln(FILE *, A, options)` with `full_output = false`
writes the elements nevertheless: not what the same call writes to a stream. -/
theorem C161_file_options_refuted (F : NumText R) (ops : List IndentOp) (par : Bool) (thread : Nat)
    (name dataType kind : List UInt8) (names : List Nat → List UInt8) (w : Nat) (T : Tiled R) (wf : T.WF) (ht : T.tiles ≠ [])
    (fs : List Nat → List Nat → R) (hA : ∀ k t, T.tiles.lookup k = some t → t.Represents (fs k)) (hw : 0 < w)
    (hF : OneLine F) (h1 : (10 : UInt8) ∉ name) (h2 : (10 : UInt8) ∉ kind)
    (h3 : (10 : UInt8) ∉ dataType) (h4 : ∀ b, (10 : UInt8) ∉ names b) :
    ∃ s s', printTiled .file F (runIndent ops .init) par thread name dataType names kind ⟨w, false⟩ T = .ok s ∧
      printTiled .stream F (runIndent ops .init) par thread name dataType names kind ⟨w, false⟩ T = .ok s' ∧
      s'.length < s.length := by
  obtain ⟨k, inv, hs, _⟩ := indentInv_run ops 0 _ indentInv_init
  refine ⟨_, _, printTiled_eq .file F inv hs par thread name dataType kind names 5 true _ rfl T wf fs hA (by decide) hF h1 h2 h3 h4,
    printTiled_eq .stream F inv hs par thread name dataType kind names w false _ rfl T wf fs hA hw hF h1 h2 h3 h4, ?_⟩
  unfold tiledText
  simp only [List.length_append, List.length_flatMap]
  apply Nat.add_lt_add_left
  have longer : ∀ (hd : List UInt8) (a b : Nat) (n : List UInt8) (ds ss : List Nat) (f : List Nat → R),
      (tensorText F hd a b n kind dataType w false ds ss f).length < (tensorText F hd a b n kind dataType 5 true ds ss f).length := by
    intro hd a b n ds ss f
    simp [tensorText, tensorLines, indented]
    omega
  obtain ⟨p, hp⟩ := List.exists_mem_of_ne_nil _ ht
  have hl := lookup_of_mem (k := p.1) (t := p.2) wf.nodup hp
  apply List.sum_lt_sum
  · intro i _
    cases T.tiles.lookup i with
    | none => simp
    | some t => exact (longer _ _ _ _ _ _ _).le
  · refine ⟨p.1, mem_positions.2 (wf.tiles _ _ hl).1, ?_⟩
    rw [hl]
    exact longer _ _ _ _ _ _ _

example : positions [2, 3] = [[0, 0], [1, 0], [0, 1], [1, 1], [0, 2], [1, 2]] := by decide

/-- A tiled tensor with one of two tiles. -/
def oneOfTwo : Tiled Nat := (Tiled.mk' [[2], [1, 3]]).addTile [0, 1]

theorem oneOfTwo_wf : oneOfTwo.WF :=
  (addTile_wf (T := Tiled.mk' [[2], [1, 3]]) (k := [0, 1]) (wf_mk' (by decide)) (by simp [InBox, Tiled.mk', gridDims]) (by decide)).1

theorem oneOfTwo_represents (k : List Nat) (t : Strided Nat) (h : oneOfTwo.tiles.lookup k = some t) : t.Represents fun _ => 0 := by
  have hk := lookup_mem h
  have : (k, t) = ([0, 1], Strided.mk' (fun _ => 0) [2, 3]) := by simpa [oneOfTwo, Tiled.addTile, Tiled.mk'] using hk
  obtain ⟨rfl, rfl⟩ := Prod.mk.inj this
  have t : (Strided.mk' (fun _ => 0) [2, 3] : Strided Nat).IsTensor := ⟨rfl, rfl, rfl⟩
  exact t.represents_iff.2 (by decide)

example : ∃ s, printTiled .stream natText (runIndent [.indent 0] .init) false 0 [65] [66] (fun k => 67 :: commaList k) [68] ⟨2, true⟩
    oneOfTwo = .ok s := by
  obtain ⟨_, _, _, _, _, _, _, _, h⟩ := C161_tiled_partial .stream natText [.indent 0] false 0 [65] [66] [68]
    (fun k => 67 :: commaList k) 2 true oneOfTwo oneOfTwo_wf (fun _ _ => 0) oneOfTwo_represents (by decide) (by simp)
    (fun v => ⟨decimal_no_nl v, decimal_no_nl v⟩) (by decide) (by decide) (by decide)
    (fun k => by simpa using commaList_no_nl k)
  exact ⟨_, h⟩

example : ∃ s s', printTiled .file natText (runIndent [] .init) false 0 [65] [66] (fun _ => [67]) [68] ⟨2, false⟩ oneOfTwo = .ok s ∧
    printTiled .stream natText (runIndent [] .init) false 0 [65] [66] (fun _ => [67]) [68] ⟨2, false⟩ oneOfTwo = .ok s' ∧
    s'.length < s.length :=
  C161_file_options_refuted natText [] false 0 [65] [66] [68] (fun _ => [67]) 2 oneOfTwo oneOfTwo_wf (by decide) (fun _ _ => 0)
    oneOfTwo_represents (by decide) (fun v => ⟨decimal_no_nl v, decimal_no_nl v⟩) (by decide) (by decide) (by decide)
    (fun _ => by decide)

example : ∃ s, printBlock natText (runIndent [] .init) true 3 [65] [66] (fun b => 67 :: decimal b) [68] ⟨5, true⟩
    ⟨2, [⟨[1, 2, 3, 4], 0, [2, 2], [2, 1]⟩], [(0, 2)], [2], 2, 0⟩ = .ok s := by
  obtain ⟨_, _, _, _, _, _, _, _, h⟩ := C161_block natText [] true 3 [65] [66] [68] (fun b => 67 :: decimal b) 5 true
    ⟨2, [⟨[1, 2, 3, 4], 0, [2, 2], [2, 1]⟩], [(0, 2)], [2], 2, 0⟩
    (fun _ i => [1, 2, 3, 4].getD (rowMajor i [2, 2]) 0) (by
      intro b t h
      have ht : t = ⟨[1, 2, 3, 4], 0, [2, 2], [2, 1]⟩ := by
        have := List.mem_of_getElem? h
        simpa using this
      subst ht
      have t : (⟨[1, 2, 3, 4], 0, [2, 2], [2, 1]⟩ : Strided Nat).IsTensor := ⟨rfl, rfl, rfl⟩
      exact t.represents_iff.2 (by decide))
    (by decide) (fun v => ⟨decimal_no_nl v, decimal_no_nl v⟩) (by decide) (by decide) (by decide)
    (fun b => by simpa using decimal_no_nl b)
  exact ⟨_, h⟩

end Einsums.Props
