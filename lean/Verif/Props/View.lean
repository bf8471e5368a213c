import Verif.Proofs.SubView
import Verif.Proofs.Schedule
import Verif.Proofs.Size
import Verif.Props.Tensor
/-
Properties C08–C14: views, copying and assignment, compound assignment, flattening.
-/
namespace Einsums.Props
open Spec Model

/-- **C08 (partial).** `T(args...)` with integers, `All` and `Range`s: the view has the stated shape, and
its element `j` is the stated element of the parent.
Missing: argument lists where an integer precedes a `Range` (refuted below), and empty views. -/
theorem C08_sub_partial (t : Strided α) (w : t.WF) (args pre post : List Sel) (vd : List Nat)
    (h : selDims t.dims args = some vd) (hne : numel vd ≠ 0) (e : args = pre ++ post)
    (hpre : ∀ k, Sel.at k ∉ pre) (hpost : ∀ a b, Sel.range a b ∉ post) :
    ∃ v, t.sub args = .ok v ∧ v.dims = vd ∧ v.data = t.data ∧ v.WF ∧
      ∀ j, InBox j vd → InBox (selIndex t.dims args j) t.dims ∧
        v.read (toIdx j) = t.read (toIdx (selIndex t.dims args j)) := by
  obtain ⟨v, h1, h2, h3⟩ := sub_viewOf w h hne e
    (by intro a ha; cases a <;> simp_all [isAt]) (by intro a ha; cases a <;> simp_all [isRange])
  refine ⟨v, h1, h2, h3.data, h3.wf w, ?_⟩
  intro j hj
  rw [← h2] at hj
  exact ⟨(h3.addr j hj).1, h3.read w hj⟩

/-- **C08 (writes).** Writing through such a view writes exactly the stated element of the parent. -/
theorem C08_sub_write_partial (t : Strided α) (w : t.WF) (args pre post : List Sel) (vd : List Nat)
    (h : selDims t.dims args = some vd) (hne : numel vd ≠ 0) (e : args = pre ++ post)
    (hpre : ∀ k, Sel.at k ∉ pre) (hpost : ∀ a b, Sel.range a b ∉ post) (v : Strided α)
    (hv : t.sub args = .ok v) (j : List Nat) (hj : InBox j vd) (x : α) :
    ∃ v' t', v.write (toIdx j) x = .ok v' ∧ t.write (toIdx (selIndex t.dims args j)) x = .ok t' ∧
      v'.data = t'.data := by
  obtain ⟨v2, h1, h2, h3⟩ := sub_viewOf w h hne e
    (by intro a ha; cases a <;> simp_all [isAt]) (by intro a ha; cases a <;> simp_all [isRange])
  rw [hv] at h1
  cases h1
  obtain ⟨v', t', g1, g2, g3, _⟩ := h3.write w (j := j) (by rw [h2]; exact hj) x
  exact ⟨v', t', g1, g2, by rw [g3]⟩

/-- A 2×3 tensor holding 0..5, for the examples. -/
def t23 : Strided Nat := { data := [0, 1, 2, 3, 4, 5], off := 0, dims := [2, 3], strides := [3, 1] }

/-- A 2×2×3 tensor holding 0..11, for the examples. -/
def t223 : Strided Nat :=
  { data := List.range 12, off := 0, dims := [2, 2, 3], strides := [6, 3, 1] }

theorem t223_isTensor : t223.IsTensor := ⟨rfl, by decide, by decide⟩

/-- `T(Range{0,2}, -1, All)` on a 2×2×3 tensor meets the hypotheses of C08. -/
example : selDims t223.dims [.range 0 2, .at (-1), .all] = some [2, 3] ∧
    selIndex t223.dims [.range 0 2, .at (-1), .all] [1, 2] = [1, 1, 2] ∧
    ∃ v, t223.sub [.range 0 2, .at (-1), .all] = .ok v ∧ v.read [1, 2] = .ok 11 := by
  refine ⟨by decide, by decide, _, rfl, by decide⟩

/-- **C08 (refuted as stated).** `T(1, Range{0,2}, All)` on a 2×2×3 tensor: all arguments are in range,
the code returns a view of the stated shape, but its element (0,0) is T(0,0,0), not T(1,0,0).
The range start is stored in `offsets[counter]` and overwrites the integer. -/
theorem C08_sub_refuted : ∃ v, selDims t223.dims [.at 1, .range 0 2, .all] = some [2, 3] ∧
    t223.sub [.at 1, .range 0 2, .all] = .ok v ∧ v.dims = [2, 3] ∧
    selIndex t223.dims [.at 1, .range 0 2, .all] [0, 0] = [1, 0, 0] ∧
    v.read [0, 0] = .ok 0 ∧ t223.read [1, 0, 0] = .ok 6 :=
  ⟨_, by decide, rfl, by decide, by decide, by decide, by decide⟩

/-- **C09 (reads).** A view made of one `Range` per axis, each starting inside its axis and ending
at or after its start and no later than the axis: the stated shape, inside the parent's storage, and
element `j` is the parent's element `start + j`. -/
theorem C09_box_read (t : Strided α) (w : t.WF) (rs : List (Int × Int)) (bs : List (Nat × Nat))
    (hd : Denotes t.dims rs bs) (hb : BoxIn t.dims bs) :
    ∃ v, t.ranges rs = .ok v ∧ v.dims = bs.map (fun r => r.2 - r.1) ∧ v.data = t.data ∧ v.WF ∧
      ∀ j, InBox j v.dims → InBox (shift (bs.map (·.1)) j) t.dims ∧
        v.read (toIdx j) = t.read (toIdx (shift (bs.map (·.1)) j)) := by
  obtain ⟨v, h1, h2, h3⟩ := boxView w hb
  refine ⟨v, by rw [ranges_eq hd hb, h1], by rw [h2], h3.data, h3.wf w, ?_⟩
  intro j hj
  exact ⟨(h3.addr j hj).1, h3.read w hj⟩

/-- **C09 (histories of writes).** After any sequence of writes through the view, the parent has at each
index the last value written to it through the view, or its old value: in particular an element
outside the box never changes. -/
theorem C09_box_writes (t : Strided α) (w : t.WF) (f : List Nat → α) (hf : t.Represents f)
    (rs : List (Int × Int)) (bs : List (Nat × Nat))
    (hd : Denotes t.dims rs bs) (hb : BoxIn t.dims bs) (v : Strided α) (hv : t.ranges rs = .ok v)
    (ws : List (List Nat × α)) (hws : ∀ x ∈ ws, InBox x.1 v.dims) :
    ∃ v', writeAll v (ws.map fun x => (toIdx x.1, x.2)) = .ok v' ∧
      ∀ i, InBox i t.dims → ({ t with data := v'.data } : Strided α).read (toIdx i) =
        .ok (afterWrites f (ws.map fun x => (shift (bs.map (·.1)) x.1, x.2)) i) := by
  obtain ⟨v2, h1, h2, h3⟩ := boxView w hb
  rw [ranges_eq hd hb, h1] at hv
  cases hv
  clear h1 hd h2
  induction ws generalizing t f v with
  | nil => exact ⟨v, rfl, by rw [h3.data]; exact hf⟩
  | cons x ws ih =>
    have hx := hws x (by simp)
    obtain ⟨v1, t1, g1, g2, g3, g4, g5, g6, g7⟩ := h3.write w hx x.2
    obtain ⟨t1', k1, k2, k3⟩ := write_represents w hf (h3.addr x.1 hx).1 x.2
    rw [g2] at k1; cases k1
    obtain ⟨v', m1, m2⟩ := ih t1 g7 _ k3 (by rw [g6]; exact hb) v1
      (by intro y hy; rw [g5]; exact hws y (by simp [hy])) g4
    refine ⟨v', ?_, ?_⟩
    · simp only [List.map_cons, writeAll]
      rw [g1]; exact m1
    · intro i hi
      have := m2 i (by rw [g6]; exact hi)
      rw [g3] at this
      exact this

/-- An element outside the box is not changed by any history of writes through the view. -/
theorem C09_box_outside (f : List Nat → α) (starts : List Nat) (ws : List (List Nat × α)) (i : List Nat)
    (h : ∀ x ∈ ws, shift starts x.1 ≠ i) :
    afterWrites f (ws.map fun x => (shift starts x.1, x.2)) i = f i := by
  induction ws generalizing f with
  | nil => rfl
  | cons x ws ih =>
    simp only [List.map_cons, afterWrites]
    rw [ih _ (fun y hy => h y (by simp [hy])), if_neg (fun e => h x (by simp) e.symm)]

example : Denotes t23.dims [(0, 2), (1, -1)] [(0, 2), (1, 2)] ∧ BoxIn t23.dims [(0, 2), (1, 2)] ∧
    ∃ v, t23.ranges [(0, 2), (1, -1)] = .ok v ∧ v.read [1, 0] = .ok 4 := by
  refine ⟨by simp [Denotes, t23, rangeEnd], by simp [BoxIn, t23], _, rfl, by decide⟩

/-- The start must lie inside the axis: `T(Range{2,2}, Range{2,3})` on a 2×3 tensor denotes an empty
region with `0 ≤ a ≤ b ≤ d`, but the code forms a pointer outside the storage. -/
theorem C09_empty_at_end_ub : (t23.ranges [(2, 2), (2, 3)]).isUb = true := by decide

/-- **C10.** Taking a box of a box (`TensorView(view, Dim, Offset)`, Tensor.hpp 1040) is the same as
taking the composed box of the parent: same dimensions, same strides, same first element. -/
theorem C10_view_of_view (t : Strided α) (w : t.WF) (rs1 : List (Int × Int))
    (bs1 bs2 : List (Nat × Nat)) (v1 : Strided α)
    (hd1 : Denotes t.dims rs1 bs1) (hb1 : BoxIn t.dims bs1) (hv1 : t.ranges rs1 = .ok v1)
    (hb2 : BoxIn v1.dims bs2) :
    let composed : List (Int × Int) := (bs1.zip bs2).map fun p =>
      (((p.1.1 + p.2.1 : Nat) : Int), ((p.1.1 + p.2.2 : Nat) : Int))
    ∃ v2, mkView v1 (toIdx (bs2.map fun r => r.2 - r.1)) (toIdx (bs2.map (·.1))) v1.strides = .ok v2 ∧
      t.ranges composed = .ok v2 ∧
      ∀ j, InBox j v2.dims → v2.read (toIdx j)
        = t.read (toIdx (shift (bs1.map (·.1)) (shift (bs2.map (·.1)) j))) := by
  intro composed
  obtain ⟨v, h1, h2, h3⟩ := boxView w hb1
  rw [ranges_eq hd1 hb1, h1] at hv1
  cases hv1
  obtain ⟨v2, g1, g2, g3⟩ := boxView (h3.wf w) hb2
  have key : ∀ (ds : List Nat) (a b : List (Nat × Nat)), BoxIn ds a →
      BoxIn (a.map fun r => r.2 - r.1) b →
      let c : List (Nat × Nat) := (a.zip b).map fun p => (p.1.1 + p.2.1, p.1.1 + p.2.2)
      BoxIn ds c ∧ Denotes ds (c.map fun r => ((r.1 : Int), (r.2 : Int))) c ∧
        c.map (·.1) = shift (a.map (·.1)) (b.map (·.1)) ∧
        (c.map fun r => r.2 - r.1) = b.map fun r => r.2 - r.1 := by
    intro ds
    induction ds with
    | nil =>
      intro a b ha hb
      cases a with
      | cons x a => exact ha.elim
      | nil => cases b with
        | cons y b => exact hb.elim
        | nil => simp [BoxIn, Denotes, shift]
    | cons d ds ih =>
      intro a b ha hb
      cases a with
      | nil => exact ha.elim
      | cons x a => cases b with
        | nil => exact hb.elim
        | cons y b =>
          obtain ⟨x1, x2⟩ := x
          obtain ⟨y1, y2⟩ := y
          obtain ⟨a1, a2, a3, a4⟩ := ha
          simp only [List.map_cons] at hb
          obtain ⟨b1, b2, b3, b4⟩ := hb
          obtain ⟨i1, i2, i3, i4⟩ := ih a b a4 b4
          refine ⟨⟨by simp only; omega, by simp only; omega, by simp only; omega, i1⟩, ⟨rfl, ?_, i2⟩, ?_, ?_⟩
          · simp only [rangeEnd]; split <;> omega
          · simp only [List.zip_cons_cons, List.map_cons, shift, i3]
          · simp only [List.zip_cons_cons, List.map_cons, i4, List.cons.injEq, and_true]; omega
  obtain ⟨c1, c2, c3, c4⟩ := key t.dims bs1 bs2 hb1 (by rw [h2] at hb2; exact hb2)
  obtain ⟨v3, k1, k2, k3⟩ := boxView w c1
  have hc : composed = ((bs1.zip bs2).map fun p => (p.1.1 + p.2.1, p.1.1 + p.2.2)).map
      fun r => ((r.1 : Int), (r.2 : Int)) := by
    simp only [composed, List.map_map]; rfl
  have hl : (bs1.map (·.1)).length = (bs2.map (·.1)).length := by
    have := hb2.length; rw [h2] at this; simpa using this.symm
  have he : v2 = v3 := by
    rw [g2, k2, c3, c4, dot_shift hl, h2]
    simp [Nat.add_assoc]
  refine ⟨v2, g1, ?_, ?_⟩
  · rw [hc, ranges_eq c2 c1, k1, he]
  · intro j hj
    rw [g3.read (h3.wf w) hj, h3.read w (g3.addr j hj).1]

example : Denotes t23.dims [(0, 2), (1, 3)] [(0, 2), (1, 3)] ∧ BoxIn t23.dims [(0, 2), (1, 3)] ∧
    ∃ v, t23.ranges [(0, 2), (1, 3)] = .ok v ∧ BoxIn v.dims [(1, 2), (1, 2)] := by
  refine ⟨by simp [Denotes, t23, rangeEnd], by simp [BoxIn, t23], _, rfl, by simp [BoxIn, t23]⟩

/-! ### C11, C12: copying and assignment -/

theorem zip_any_false {a b : List Nat} (h : a.length = b.length)
    (hf : ((a.zip b).any fun p => p.1 == 0 || p.1 != p.2) = false) : a = b := by
  induction a generalizing b with
  | nil => cases b <;> simp_all
  | cons x a ih => cases b with
    | nil => simp at h
    | cons y b =>
      simp only [List.zip_cons_cons, List.any_cons, Bool.or_eq_false_iff, bne_eq_false_iff_eq] at hf
      rw [hf.1.2, ih (by simpa using h) hf.2]

/-- **C11 (same element type).** After `dst = src` the destination is a tensor with the source's shape
and exactly the source's elements, whatever its shape was. -/
theorem C11_assign (z : Nat → α) (dst src : Strided α) (hd : dst.IsTensor) (hs : src.IsTensor)
    (hr : dst.dims.length = src.dims.length) (h0 : src.dims ≠ []) :
    ∃ t', dst.assign z src = .ok t' ∧ t'.IsTensor ∧ t'.dims = src.dims ∧
      ∀ i, InBox i src.dims → t'.read (toIdx i) = src.read (toIdx i) := by
  have fin : ∀ d : Strided α, d.IsTensor → d.dims = src.dims →
      ∃ t', (if src.data.length ≤ d.data.length then
        (Outcome.ok { d with data := src.data ++ d.data.drop src.data.length } : Outcome (Strided α))
        else .ub "std::copy past the end") = .ok t' ∧ t'.IsTensor ∧ t'.dims = src.dims ∧
        ∀ i, InBox i src.dims → t'.read (toIdx i) = src.read (toIdx i) := by
    intro d ht e
    have hl : d.data.length = src.data.length := by rw [ht.length, hs.length, e]
    rw [if_pos (by omega)]
    have e2 : ({ d with data := src.data ++ d.data.drop src.data.length } : Strided α) = src := by
      rw [List.drop_eq_nil_of_le (by omega)]
      have h1 := ht.off
      have h2 := ht.strides
      have h3 := hs.off
      have h4 := hs.strides
      cases d; cases src
      simp_all
    exact ⟨_, rfl, by rw [e2]; exact hs, e, by rw [e2]; simp⟩
  unfold Strided.assign
  simp only
  cases hre : ((dst.dims.zip src.dims).any fun p => p.1 == 0 || p.1 != p.2)
  · exact fin dst hd (zip_any_false hr hre)
  · refine fin _ ⟨rfl, transformStrides_eq _, ?_⟩ rfl
    simp [vecResize_length, linearSize_eq h0]

example : (t23.assign (fun _ => 0) { data := [7, 8], off := 0, dims := [2, 1], strides := [1, 1] })
    = .ok { data := [7, 8], off := 0, dims := [2, 1], strides := [1, 1] } := by decide

theorem scan_spec (rank : Nat) (ps : List (Nat × Nat)) (r : Bool) :
    (assignOtherScan rank ps r).isError = true ↔ (rank ≠ 1 ∧ ∃ p ∈ ps, p.1 ≠ 0 ∧ p.1 ≠ p.2) := by
  induction ps generalizing r with
  | nil => simp [assignOtherScan, Outcome.isError]
  | cons p ps ih =>
    obtain ⟨d, o⟩ := p
    simp only [assignOtherScan]
    split
    · rename_i h; rw [ih]; simp [h]
    · rename_i h
      split
      · rename_i h2
        split
        · rename_i h3; simp [Outcome.isError, h3, h, h2]
        · rename_i h3; rw [ih]; simp [h3]
      · rename_i h2; rw [ih]; simp [h2]

theorem scan_cases (rank : Nat) (ps : List (Nat × Nat)) (r : Bool) :
    (assignOtherScan rank ps r).isError = true ∨
    assignOtherScan rank ps r = .ok (r || ps.any fun p => p.1 == 0 || p.1 != p.2) := by
  induction ps generalizing r with
  | nil => simp [assignOtherScan]
  | cons p ps ih =>
    obtain ⟨d, o⟩ := p
    simp only [assignOtherScan, List.any_cons]
    split
    · rename_i h; rcases ih true with h1 | h1
      · exact .inl h1
      · right; rw [h1]; simp [h]
    · rename_i h
      split
      · rename_i h2
        split
        · left; rfl
        · rcases ih true with h1 | h1
          · exact .inl h1
          · right; rw [h1]; simp [h2]
      · rename_i h2
        rcases ih r with h1 | h1
        · exact .inl h1
        · right; rw [h1]
          simp only [ne_eq, Decidable.not_not] at h2
          simp [h2, show (o == 0) = false by simp; omega]

/-- Elements of `src` converted by `conv`. -/
theorem map_represents {src : Strided β} (hs : src.IsTensor) (conv : β → α) {g : List Nat → β}
    (hg : src.Represents g) :
    ({ data := src.data.map conv, off := src.off, dims := src.dims, strides := src.strides } :
      Strided α).Represents (fun i => conv (g i)) := by
  have ht : ({ data := src.data.map conv, off := src.off, dims := src.dims, strides := src.strides } :
      Strided α).IsTensor := ⟨hs.off, hs.strides, by simp [hs.length]⟩
  rw [ht.represents_iff]
  simp only
  rw [hs.represents_iff.1 hg]; simp

/-- **C11 (other element type).** `dst = src` with an element conversion throws exactly when the rank is
not one and some non-zero destination dimension differs from the source's; otherwise the destination
gets the source's shape and all converted elements. -/
theorem C11_assign_other [Inhabited α] (z : Nat → α) (conv : β → α) (dst : Strided α) (src : Strided β)
    (hd : dst.IsTensor) (hs : src.IsTensor) (hr : dst.dims.length = src.dims.length)
    (h0 : src.dims ≠ []) (g : List Nat → β) (hg : src.Represents g) :
    ((dst.assignOther z conv src).isError = true ∧
      (dst.dims.length ≠ 1 ∧ ∃ p ∈ dst.dims.zip src.dims, p.1 ≠ 0 ∧ p.1 ≠ p.2)) ∨
    (¬ (dst.dims.length ≠ 1 ∧ ∃ p ∈ dst.dims.zip src.dims, p.1 ≠ 0 ∧ p.1 ≠ p.2) ∧
      ∃ t', dst.assignOther z conv src = .ok t' ∧ t'.IsTensor ∧ t'.dims = src.dims ∧
        ∀ i, InBox i src.dims → t'.read (toIdx i) = .ok (conv (g i))) := by
  have fin : ∀ d : Strided α, d.IsTensor → d.dims = src.dims →
      ∃ t', copyLoop { src with data := src.data.map conv } (cartesian d.dims) d = .ok t' ∧
        t'.IsTensor ∧ t'.dims = src.dims ∧
        ∀ i, InBox i src.dims → t'.read (toIdx i) = .ok (conv (g i)) := by
    intro d ht e
    obtain ⟨f, hf⟩ := exists_represents ht.wf
    obtain ⟨t', k1, k2, k3⟩ := copyLoop_represents (map_represents hs conv hg) ht.wf hf
      (cartesian d.dims) (by
        intro i hi; rw [cartesian_eq_box, mem_box] at hi
        exact ⟨by rw [← e]; exact hi, hi⟩)
    refine ⟨t', k1, ⟨by rw [k2.off, ht.off], by rw [k2.strides, k2.dims, ht.strides],
      by rw [k2.length, k2.dims, ht.length]⟩, by rw [k2.dims, e], ?_⟩
    intro i hi
    rw [k3 i (by rw [k2.dims, e]; exact hi)]
    simp only
    rw [if_pos]
    rw [cartesian_eq_box, mem_box, e]; exact hi
  rcases scan_cases dst.dims.length (dst.dims.zip src.dims) false with h | h
  · left
    refine ⟨?_, (scan_spec _ _ _).1 h⟩
    unfold Strided.assignOther
    cases hh : assignOtherScan dst.dims.length (dst.dims.zip src.dims) false <;> rw [hh] at h <;>
      simp_all [Outcome.isError]
  · right
    refine ⟨fun hc => ?_, ?_⟩
    · have := (scan_spec dst.dims.length (dst.dims.zip src.dims) false).2 hc
      rw [h] at this; simp [Outcome.isError] at this
    · unfold Strided.assignOther
      rw [h]
      simp only [Bool.false_or, Outcome.ok_bind]
      cases hre : ((dst.dims.zip src.dims).any fun p => p.1 == 0 || p.1 != p.2)
      · exact fin dst hd (zip_any_false hr hre)
      · refine fin _ ⟨rfl, transformStrides_eq _, ?_⟩ rfl
        simp [vecResize_length, linearSize_eq h0]

example : (t23.assignOther (fun _ => 0) (fun x : Int => x.toNat)
      { data := [7, 8], off := 0, dims := [2, 1], strides := [1, 1] }).isError = true ∧
    (({ data := [1], off := 0, dims := [1], strides := [1] } : Strided Nat).assignOther (fun _ => 0)
      (fun x : Int => x.toNat) { data := [7, 8], off := 0, dims := [2], strides := [1] })
    = .ok { data := [7, 8], off := 0, dims := [2], strides := [1] } := by decide

/-- **C11 (tensor from view).** Constructing a tensor from a view gives a tensor with the view's shape
and the view's elements. -/
theorem C11_of_view (z : Nat → α) (v : Strided α) (g : List Nat → α) (hg : v.Represents g) (h0 : v.dims ≠ []) :
    ∃ t', Strided.ofView z v = .ok t' ∧ t'.IsTensor ∧ t'.dims = v.dims ∧ t'.Represents g := by
  have ht := isTensor_mk' z h0
  obtain ⟨f, hf⟩ := (C04_constructed z v.dims h0).2
  obtain ⟨t', k1, k2, k3⟩ := copyLoop_represents hg ht.wf (f := f) hf
    (cartesian v.dims) (by
      intro i hi; rw [cartesian_eq_box, mem_box] at hi; exact ⟨hi, hi⟩)
  refine ⟨t', k1, ⟨by rw [k2.off, ht.off], by rw [k2.strides, k2.dims, ht.strides],
    by rw [k2.length, k2.dims, ht.length]⟩, k2.dims, ?_⟩
  intro i hi
  rw [k3 i hi]
  simp only
  rw [if_pos]
  rw [cartesian_eq_box, mem_box]
  rw [k2.dims] at hi; exact hi

example : ∃ v, t23.ranges [(0, 2), (1, 3)] = .ok v ∧
    Strided.ofView (fun _ => 0) v = .ok { data := [1, 2, 4, 5], off := 0, dims := [2, 2], strides := [2, 1] } :=
  ⟨_, rfl, by decide⟩

/-- **C12 (partial).** When the destination already has the view's shape, `tensor = view` makes it equal
to the view. Missing: destinations of another shape (refuted below). -/
theorem C12_assign_view_partial [Inhabited α] (dst v : Strided α) (hd : dst.IsTensor)
    (g : List Nat → α) (hg : v.Represents g) (he : dst.dims = v.dims) :
    ∃ t', dst.assignView v = .ok t' ∧ t'.IsTensor ∧ t'.dims = v.dims ∧ t'.Represents g := by
  obtain ⟨f, hf⟩ := exists_represents hd.wf
  obtain ⟨t', k1, k2, k3⟩ := copyLoop_represents hg hd.wf hf (cartesian dst.dims) (by
      intro i hi; rw [cartesian_eq_box, mem_box] at hi; exact ⟨by rw [← he]; exact hi, hi⟩)
  refine ⟨t', k1, ⟨by rw [k2.off, hd.off], by rw [k2.strides, k2.dims, hd.strides],
    by rw [k2.length, k2.dims, hd.length]⟩, by rw [k2.dims, he], ?_⟩
  intro i hi
  rw [k3 i hi]
  simp only
  rw [if_pos]
  rw [cartesian_eq_box, mem_box]
  rw [k2.dims] at hi; exact hi

/-- **C12 (what the code does for a smaller destination).** The destination keeps its shape, and gets
the corner of the view it has room for. -/
theorem C12_assign_view_smaller [Inhabited α] (dst v : Strided α) (hd : dst.IsTensor)
    (g : List Nat → α) (hg : v.Represents g) (hle : ∀ i, InBox i dst.dims → InBox i v.dims) :
    ∃ t', dst.assignView v = .ok t' ∧ t'.dims = dst.dims ∧ t'.Represents g := by
  obtain ⟨f, hf⟩ := exists_represents hd.wf
  obtain ⟨t', k1, k2, k3⟩ := copyLoop_represents hg hd.wf hf (cartesian dst.dims) (by
      intro i hi; rw [cartesian_eq_box, mem_box] at hi; exact ⟨hle i hi, hi⟩)
  refine ⟨t', k1, k2.dims, ?_⟩
  intro i hi
  rw [k3 i hi]
  simp only
  rw [if_pos]
  rw [cartesian_eq_box, mem_box]
  rw [k2.dims] at hi; exact hi

/-- **C12 (refuted as stated).** Assigning a 2×3 view to a 1×2 tensor succeeds without changing the
tensor's shape, so most elements of the view are lost; assigning a 1×2 view to a 2×3 tensor reads
outside the view's storage. -/
theorem C12_assign_view_refuted :
    (∃ dst v t' : Strided Nat, dst.IsTensor ∧ v.dims = [2, 3] ∧ dst.assignView v = .ok t' ∧
      t'.dims = [1, 2]) ∧
    ∃ dst v : Strided Nat, dst.IsTensor ∧ v.WF ∧ (dst.assignView v).isUb = true := by
  refine ⟨⟨Strided.mk' (fun _ => 0) [1, 2], t23, { data := [0, 1], off := 0, dims := [1, 2], strides := [2, 1] },
    isTensor_mk' _ (by decide), rfl, by decide, rfl⟩, t23, Strided.mk' (fun _ => 0) [1, 2],
    ⟨rfl, by decide, by decide⟩, (isTensor_mk' _ (by decide)).wf, by decide⟩

example : (t23.assignView { t23 with data := [9, 8, 7, 6, 5, 4] }) =
    .ok { t23 with data := [9, 8, 7, 6, 5, 4] } := by decide

/-! ### C13: compound assignment -/

/-- **C13 (scalar).** For every thread count `n ≥ 1` and every interleaving of the threads' element
updates, `t OP= b` applies the operation exactly once to every element. -/
theorem C13_scalar (op : α → α → α) (t : Strided α) (b : α) (n : Nat) (hn : 0 < n) (sched : List Nat)
    (hs : Schedule (compoundThreads t.data.length n) sched) :
    t.compoundScalar op b sched = { t with data := t.data.map fun x => op x b } := by
  have hp := hs.perm
  rw [compoundThreads, chunks_flatten _ _ hn] at hp
  have := modifyAll_full (fun _ x => op x b) sched t.data hp
  unfold Strided.compoundScalar
  rw [modifyAll] at this
  rw [this]
  congr 1
  apply List.ext_getElem?
  simp

theorem compoundLoop_eq (op : α → α → α) (u d : List α) (s : List Nat) (h : ∀ p ∈ s, p < u.length)
    [Inhabited α] :
    compoundLoop op u s d = .ok (modifyAll (fun p x => op x (u.getD p default)) s d) := by
  induction s generalizing d with
  | nil => rfl
  | cons p s ih =>
    have hp := h p (by simp)
    simp only [compoundLoop, List.getElem?_eq_getElem hp, modifyAll, List.foldl_cons]
    rw [ih _ (fun q hq => h q (by simp [hq])), modifyAll]
    simp [List.getD_eq_getElem?_getD, List.getElem?_eq_getElem hp]

/-- **C13 (tensor operand).** For tensors with the same number of elements, any thread count and any
interleaving, `t OP= u` combines each element of `t` with the element of `u` at the same row-major
position. -/
theorem C13_tensor [Inhabited α] (op : α → α → α) (t u : Strided α) (ht : t.IsTensor) (hu : u.IsTensor)
    (he : numel t.dims = numel u.dims) (n : Nat) (hn : 0 < n) (sched : List Nat)
    (hs : Schedule (compoundThreads t.data.length n) sched) :
    t.compoundTensor op u sched = .ok { t with data := t.data.zipWith op u.data } := by
  have hp := hs.perm
  rw [compoundThreads, chunks_flatten _ _ hn] at hp
  unfold Strided.compoundTensor
  have hl : t.data.length = u.data.length := by rw [ht.length, hu.length, he]
  rw [if_neg (by simp [sizeMethod_eq, he]), compoundLoop_eq]
  · simp only [Outcome.ok_bind]
    rw [modifyAll_full _ _ _ hp]
    congr 2
    apply List.ext_getElem?
    intro p
    rw [List.getElem?_mapIdx, List.getElem?_zipWith]
    by_cases h : p < t.data.length
    · simp [List.getElem?_eq_getElem h, List.getElem?_eq_getElem (hl ▸ h), List.getD_eq_getElem?_getD]
    · rw [List.getElem?_eq_none (by omega : t.data.length ≤ p)]; rfl
  · intro p hp'
    rw [← hl]
    exact List.mem_range.1 (hp.mem_iff.1 hp')

/-- **C13 (elementwise reading).** With equal shapes, the result of `t OP= u` at every index is the
operation applied to the two elements there. -/
theorem C13_tensor_elements [Inhabited α] (op : α → α → α) (t u : Strided α) (ht : t.IsTensor)
    (hu : u.IsTensor) (he : t.dims = u.dims) (n : Nat) (hn : 0 < n) (sched : List Nat)
    (hs : Schedule (compoundThreads t.data.length n) sched) (f g : List Nat → α)
    (hf : t.Represents f) (hg : u.Represents g) :
    ∃ t', t.compoundTensor op u sched = .ok t' ∧ t'.dims = t.dims ∧
      ∀ i, InBox i t.dims → t'.read (toIdx i) = .ok (op (f i) (g i)) := by
  refine ⟨_, C13_tensor op t u ht hu (by rw [he]) n hn sched hs, rfl, ?_⟩
  have hti : ({ t with data := t.data.zipWith op u.data } : Strided α).IsTensor :=
    ⟨ht.off, ht.strides, by simp [ht.length, hu.length, he]⟩
  have := (hti.represents_iff (f := fun i => op (f i) (g i))).2 (by
    simp only
    rw [ht.represents_iff.1 hf, hu.represents_iff.1 hg, he]
    simp [List.zipWith_map, List.zipWith_self])
  exact this

/-- **C13 (throws).** Tensors with different numbers of elements (each below 2^31, see C05) are
refused. -/
theorem C13_throws (op : α → α → α) (t u : Strided α) (ht : numel t.dims < 2 ^ 31)
    (hu : numel u.dims < 2 ^ 31) (he : numel t.dims ≠ numel u.dims) (sched : List Nat) :
    (t.compoundTensor op u sched).isError = true := by
  unfold Strided.compoundTensor
  rw [C05_size_partial _ ht, C05_size_partial _ hu, if_pos he]; rfl

example : Schedule (compoundThreads 5 2) [2, 0, 3, 1, 4] ∧
    ({ data := [1, 2, 3, 4, 5], off := 0, dims := [5], strides := [1] } : Strided Nat).compoundScalar
      (· + ·) 10 [2, 0, 3, 1, 4] =
    { data := [11, 12, 13, 14, 15], off := 0, dims := [5], strides := [1] } := by
  refine ⟨?_, by decide⟩
  refine .step (i := 1) (x := 2) (xs := [3, 4]) (by decide) ?_
  refine .step (i := 0) (x := 0) (xs := [1]) (by decide) ?_
  refine .step (i := 1) (x := 3) (xs := [4]) (by decide) ?_
  refine .step (i := 0) (x := 1) (xs := []) (by decide) ?_
  refine .step (i := 1) (x := 4) (xs := []) (by decide) ?_
  exact .done (by decide)

/-! ### C14: flattening -/

/-- **C14 (tensors).** The rank-1 view of a tensor has as many elements as the tensor, and its element at
the row-major position of `i` is the tensor's element `i`. -/
theorem C14_flatten (t : Strided α) (ht : t.IsTensor) (h0 : t.dims ≠ []) :
    t.toRank1.dims = [numel t.dims] ∧
    ∀ i, InBox i t.dims → t.toRank1.read [(rowMajor i t.dims : Int)] = t.read (toIdx i) := by
  have hl : linearSize t.strides t.dims = numel t.dims := by
    rw [ht.strides, ← transformStrides_eq, linearSize_eq h0]
  refine ⟨by simp [Strided.toRank1, hl], ?_⟩
  intro i hi
  have hst : t.toRank1.strides = [1] := by
    unfold Strided.toRank1
    simp only
    split
    · rename_i h1
      obtain ⟨d, hd⟩ : ∃ d, t.dims = [d] := List.length_eq_one_iff.1 h1
      rw [ht.strides, hd]; rfl
    · rfl
  have hdm : t.toRank1.dims = [numel t.dims] := by simp [Strided.toRank1, hl]
  have hlt := rowMajor_lt hi
  have e1 : pyIndices t.toRank1.dims [(rowMajor i t.dims : Int)] = some [rowMajor i t.dims] := by
    rw [hdm]
    exact pyIndices_toIdx (js := [rowMajor i t.dims]) ⟨hlt, trivial⟩
  have ho : t.toRank1.off + dot [rowMajor i t.dims] t.toRank1.strides = t.off + dot i t.strides := by
    rw [hst, ht.strides, dot_strides_eq hi.length]; simp [Strided.toRank1]
  have hb := ht.wf.bound i hi
  have hb' : t.toRank1.off + dot [rowMajor i t.dims] t.toRank1.strides < t.toRank1.data.length := by
    rw [ho]; exact hb
  rw [read_eq e1 hb', read_eq (pyIndices_toIdx hi) hb]
  congr 1
  have e : ∀ (l : List α) (a b : Nat) (ha : a < l.length) (hb : b < l.length), a = b → l[a] = l[b] := by
    intro l a b ha hb e2; subst e2; rfl
  exact e t.data _ _ _ _ ho

/-- **C14 (views, throws).** On a view of rank ≠ 1 whose last stride is not 1, `to_rank_1_view` throws. -/
theorem C14_view_throws (v : Strided α) (h1 : v.dims.length ≠ 1) (h2 : v.strides.getLast? ≠ some 1) :
    v.viewToRank1.isError = true := by
  unfold Strided.viewToRank1; rw [if_neg h1, if_pos h2]; rfl

/-- **C14 (views, partial).** On a view with row-major strides it is the flattening.
Missing: strided views with last stride 1, where the code's length is wrong (refuted below). -/
theorem C14_view_partial (v : Strided α) (hs : v.strides = (dimsToStrides v.dims).2)
    (h0 : 2 ≤ v.dims.length) (hb : v.off + numel v.dims ≤ v.data.length) :
    ∃ v', v.viewToRank1 = .ok v' ∧ v'.dims = [numel v.dims] ∧
      ∀ i, InBox i v.dims → v'.read [(rowMajor i v.dims : Int)] = v.read (toIdx i) := by
  have hne : v.dims ≠ [] := by intro h; rw [h] at h0; simp at h0
  have hl : linearSize v.strides v.dims = numel v.dims := by
    rw [hs, ← transformStrides_eq, linearSize_eq hne]
  have hlast : ∀ ds : List Nat, ds ≠ [] → (dimsToStrides ds).2.getLast? = some 1 := by
    intro ds
    induction ds with
    | nil => simp
    | cons d ds ih =>
      intro _
      rw [dimsToStrides_snd_cons]
      cases ds with
      | nil => rfl
      | cons e ds =>
        have := ih (by simp)
        rw [dimsToStrides_snd_cons] at this ⊢
        rw [List.getLast?_cons_cons]; exact this
  unfold Strided.viewToRank1
  rw [if_neg (by omega), if_neg (by rw [hs, hlast _ hne]; simp)]
  refine ⟨_, rfl, by simp [hl], ?_⟩
  intro i hi
  have hlt := rowMajor_lt hi
  have e1 : pyIndices [linearSize v.strides v.dims] [(rowMajor i v.dims : Int)]
      = some [rowMajor i v.dims] := by
    rw [hl]
    exact pyIndices_toIdx (js := [rowMajor i v.dims]) ⟨hlt, trivial⟩
  have ho : v.off + dot [rowMajor i v.dims] [1] = v.off + dot i v.strides := by
    rw [hs, dot_strides_eq hi.length]; simp
  have hb2 : v.off + dot i v.strides < v.data.length := by
    rw [hs, dot_strides_eq hi.length]; omega
  rw [read_eq (t := ⟨v.data, v.off, [linearSize v.strides v.dims], [1]⟩) e1
    (by simp only [ho]; exact hb2), read_eq (pyIndices_toIdx hi) hb2]
  simp only [ho]

/-- **C14 (refuted for views).** The 2×2 corner view of a 2×3 tensor has 4 elements; its rank-1 view
has 6, so it also contains elements outside the view. -/
theorem C14_view_refuted : ∃ v v' : Strided Nat, t23.ranges [(0, 2), (0, 2)] = .ok v ∧
    v.dims = [2, 2] ∧ v.viewToRank1 = .ok v' ∧ v'.dims = [6] ∧
    v.read [1, 0] = .ok 3 ∧ v'.read [2] = .ok 2 :=
  ⟨_, _, rfl, by decide, rfl, by decide, by decide, by decide⟩

example : t23.toRank1.read [4] = t23.read [1, 1] := by decide

end Einsums.Props
