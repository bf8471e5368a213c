import Verif.Proofs.BlockLinAlg
/-
Products of block tensors against the dense formulas; dot products; scaled rows.
-/
namespace Einsums
open Spec Model

variable {R : Type}

/-! ### gemm -/

theorem sumTo_single [AddCommMonoid R] {n p : Nat} (hp : p < n) {f : Nat → R} (h : ∀ t, t < n → t ≠ p → f t = 0) :
    sumTo n f = f p := by
  obtain ⟨m, rfl⟩ : ∃ m, n = p + (1 + m) := ⟨n - p - 1, by omega⟩
  rw [sumTo_succ_shift, sumTo_succ_shift, sumTo_zero' p (fun l hl => h l (by omega) (by omega)),
    sumTo_zero' m (fun l hl => h _ (by omega) (by omega))]
  simp [sumTo]

theorem elem_diag [Zero R] {bs : Blocks R} {b x y : Nat} (hb : b < bs.length) (hx : x < bs.sizes.getD b 0)
    (hy : y < bs.sizes.getD b 0) : bs.elem [tileStart bs.sizes b + x, tileStart bs.sizes b + y] = bs[b].2 [x, y] :=
  elem_shift (r := 2) (by omega) hb (j := [x, y]) ⟨hx, hy, trivial⟩

theorem elem_off [Zero R] {bs : Blocks R} {p q i j : Nat} (hi : InInterval bs.sizes p i) (hj : InInterval bs.sizes q j)
    (h : p ≠ q) : bs.elem [i, j] = 0 := by
  unfold Blocks.elem
  cases e : bs.find [i, j] with
  | none => rfl
  | some b =>
    have := (find_some e).2
    have h1 := interval_unique (this i (by simp)) hi
    have h2 := interval_unique (this j (by simp)) hj
    omega

theorem opElem_diag [Zero R] {bs : Blocks R} (tr : Bool) {b x y : Nat} (hb : b < bs.length) (hx : x < bs.sizes.getD b 0)
    (hy : y < bs.sizes.getD b 0) :
    opElem tr bs.elem (tileStart bs.sizes b + x) (tileStart bs.sizes b + y) = opElem tr bs[b].2 x y := by
  cases tr
  · exact elem_diag hb hx hy
  · exact elem_diag hb hy hx

theorem opElem_off [Zero R] {bs : Blocks R} (tr : Bool) {p q i j : Nat} (hi : InInterval bs.sizes p i)
    (hj : InInterval bs.sizes q j) (h : p ≠ q) : opElem tr bs.elem i j = 0 := by
  cases tr
  · exact elem_off hi hj h
  · exact elem_off hj hi (Ne.symm h)

theorem interval_start {ss : List Nat} {b x : Nat} (h : x < ss.getD b 0) : InInterval ss b (tileStart ss b + x) := by
  unfold InInterval; omega

theorem elem_gemm [CommSemiring R] (ta tb : Bool) (alpha beta : R) {as bs cs : Blocks R} (hs : as.sizes = cs.sizes)
    (hs' : bs.sizes = cs.sizes) {i j : Nat} (hi : i < cs.sizes.sum) (hj : j < cs.sizes.sum) :
    (mapBlocks cs fun b f l =>
        beta * f l + alpha * sumTo (cs.sizes.getD b 0) fun k =>
          opElem ta (as.getD b (0, fun _ => 0)).2 (l.getD 0 0) k * opElem tb (bs.getD b (0, fun _ => 0)).2 k (l.getD 1 0)).elem [i, j]
      = beta * cs.elem [i, j] + alpha * sumTo cs.sizes.sum fun k => opElem ta as.elem i k * opElem tb bs.elem k j := by
  have hl : cs.sizes.length = cs.length := by simp [Blocks.sizes]
  have hlb : bs.length = cs.length := by simpa [Blocks.sizes] using congrArg List.length hs'
  have hla : as.length = cs.length := by simpa [Blocks.sizes] using congrArg List.length hs
  obtain ⟨p, hp⟩ := interval_exists hi
  obtain ⟨q, hq⟩ := interval_exists hj
  have hpl := interval_lt hp
  rw [sumTo_split, sumTo_single hpl (fun t ht hne => by
    apply sumTo_zero'
    intro k hk
    rw [opElem_off ta (p := p) (q := t) (by rw [hs]; exact hp) (by rw [hs]; exact interval_start hk) (Ne.symm hne), zero_mul])]
  obtain ⟨x, rfl⟩ : ∃ x, i = tileStart cs.sizes p + x := ⟨i - tileStart cs.sizes p, by have := hp.1; omega⟩
  have hx : x < cs.sizes.getD p 0 := by have := hp.2; omega
  by_cases e : p = q
  · subst e
    obtain ⟨y, rfl⟩ : ∃ y, j = tileStart cs.sizes p + y := ⟨j - tileStart cs.sizes p, by have := hq.1; omega⟩
    have hy : y < cs.sizes.getD p 0 := by have := hq.2; omega
    have hpc : p < cs.length := by omega
    have h1 := elem_diag (bs := mapBlocks cs fun b f l =>
        beta * f l + alpha * sumTo (cs.sizes.getD b 0) fun k =>
          opElem ta (as.getD b (0, fun _ => 0)).2 (l.getD 0 0) k * opElem tb (bs.getD b (0, fun _ => 0)).2 k (l.getD 1 0))
      (b := p) (x := x) (y := y) (by rw [mapBlocks_length]; exact hpc) (by rw [mapBlocks_sizes]; exact hx)
      (by rw [mapBlocks_sizes]; exact hy)
    rw [mapBlocks_sizes] at h1
    rw [h1, mapBlocks_getElem _ _ _ hpc, elem_diag hpc hx hy]
    simp only [List.getD_cons_zero, List.getD_cons_succ]
    congr 2
    apply sumTo_congr
    intro k hk
    have ea := opElem_diag ta (bs := as) (b := p) (x := x) (y := k) (by omega) (by rw [hs]; exact hx) (by rw [hs]; exact hk)
    have eb := opElem_diag tb (bs := bs) (b := p) (x := k) (y := y) (by omega) (by rw [hs']; exact hk) (by rw [hs']; exact hy)
    rw [hs] at ea
    rw [hs'] at eb
    rw [ea, eb]
    simp [List.getD_eq_getElem?_getD, List.getElem?_eq_getElem (show p < as.length by omega),
      List.getElem?_eq_getElem (show p < bs.length by omega)]
  · rw [elem_off (p := p) (q := q) (by rw [mapBlocks_sizes]; exact hp) (by rw [mapBlocks_sizes]; exact hq) e,
      elem_off hp hq e, sumTo_zero']
    · simp
    · intro k hk
      rw [opElem_off tb (p := p) (q := q) (by rw [hs']; exact interval_start hk) (by rw [hs']; exact hq) e, mul_zero]

/-! ### dot -/

/-- A sum over the whole tensor of terms that vanish outside the blocks is the sum over the blocks. -/
theorem sum_blocks [AddCommMonoid R] (ss : List Nat) {r : Nat} (hr : 0 < r) (g : List Nat → R)
    (h0 : ∀ j, (∀ b, ¬ InBlock ss b j) → g j = 0) :
    ((box (List.replicate r ss.sum)).map g).sum =
      sumTo ss.length fun b => ((box (List.replicate r (ss.getD b 0))).map fun l => g (l.map (tileStart ss b + ·))).sum := by
  classical
  have hfil : ∀ l : List (List Nat), (l.map g).sum = ((l.filter fun j => decide (∃ b, InBlock ss b j)).map g).sum := by
    intro l
    induction l with
    | nil => rfl
    | cons j l ih =>
      by_cases c : ∃ b, InBlock ss b j
      · rw [List.filter_cons_of_pos (by simpa using c), List.map_cons, List.sum_cons, List.map_cons, List.sum_cons, ih]
      · rw [List.filter_cons_of_neg (by simpa using c), List.map_cons, List.sum_cons, ih, h0 j (by simpa using c), zero_add]
  have hperm : ((box (List.replicate r ss.sum)).filter fun j => decide (∃ b, InBlock ss b j)).Perm
      ((List.range ss.length).flatMap fun b => (box (List.replicate r (ss.getD b 0))).map fun l => l.map (tileStart ss b + ·)) := by
    rw [List.perm_ext_iff_of_nodup ((nodup_box _).filter _)]
    · intro j
      simp only [List.mem_filter, mem_box, decide_eq_true_eq, List.mem_flatMap, List.mem_range, List.mem_map]
      constructor
      · rintro ⟨h1, b, h2⟩
        have hl := (inBox_replicate.1 h1).1
        have hb : b < ss.length := by
          cases j with
          | nil => simp at hl; omega
          | cons x j => exact interval_lt (h2 x (by simp))
        refine ⟨b, hb, j.map (· - tileStart ss b), ?_, ?_⟩
        · rw [inBox_replicate]
          refine ⟨by simpa using hl, ?_⟩
          intro x hx
          obtain ⟨y, hy, rfl⟩ := List.mem_map.1 hx
          have := h2 y hy
          unfold InInterval at this
          omega
        · rw [List.map_map]
          conv_rhs => rw [← List.map_id j]
          apply List.map_congr_left
          intro x hx
          have := (h2 x hx).1
          simp only [Function.comp, id]
          omega
      · rintro ⟨b, hb, l, hl, rfl⟩
        refine ⟨?_, b, inBlock_shift hl⟩
        rw [inBox_replicate] at hl ⊢
        refine ⟨by simpa using hl.1, ?_⟩
        intro x hx
        obtain ⟨y, hy, rfl⟩ := List.mem_map.1 hx
        have := hl.2 y hy
        have := tileStart_end hb
        omega
    · rw [List.nodup_flatMap]
      refine ⟨?_, ?_⟩
      · intro b _
        refine List.Nodup.map_on ?_ (nodup_box _)
        intro x _ y _ e
        exact List.map_injective_iff.2 (fun a b h => by simpa using h) e
      · refine List.Pairwise.imp_of_mem ?_ (List.nodup_range (n := ss.length))
        intro b c _ _ hne x hx hx'
        obtain ⟨l, hl, rfl⟩ := List.mem_map.1 hx
        obtain ⟨l', hl', e⟩ := List.mem_map.1 hx'
        have h1 := inBlock_shift (mem_box.1 hl)
        have h2 := inBlock_shift (mem_box.1 hl')
        rw [e] at h2
        have hlen := (inBox_replicate.1 (mem_box.1 hl)).1
        cases l with
        | nil => simp at hlen; omega
        | cons y l => exact hne (interval_unique (h1 (tileStart ss b + y) (by simp)) (h2 _ (by simp)))
  rw [hfil, (hperm.map g).sum_eq, List.map_flatMap]
  unfold sumTo
  induction List.range ss.length with
  | nil => rfl
  | cons k ks ih => rw [List.map_cons, List.sum_cons, ← ih, List.flatMap_cons, List.sum_append, List.map_map]; rfl

/-- The ranges determine the block sizes. -/
theorem ranges_inj {as bs : Blocks R} (hl : as.length = bs.length)
    (hrg : (List.range as.length).map (fun b =>
        (((tileStart as.sizes b : Nat) : Int), ((tileStart as.sizes b + as.sizes.getD b 0 : Nat) : Int))) =
      (List.range bs.length).map fun b =>
        (((tileStart bs.sizes b : Nat) : Int), ((tileStart bs.sizes b + bs.sizes.getD b 0 : Nat) : Int))) :
    as.sizes = bs.sizes := by
  apply List.ext_getElem?
  intro i
  by_cases c : i < as.length
  · have h1 := congrArg (fun l => l[i]?) hrg
    simp only [List.getElem?_map, List.getElem?_range, c, hl ▸ c, Option.map_some, Option.some.injEq,
      Prod.mk.injEq] at h1
    have e1 : as.sizes[i]? = some (as.sizes.getD i 0) := by simp [Blocks.sizes, c]
    have e2 : bs.sizes[i]? = some (bs.sizes.getD i 0) := by simp [Blocks.sizes, hl ▸ c]
    rw [e1, e2]
    congr 1
    omega
  · rw [List.getElem?_eq_none (by simp [Blocks.sizes]; omega), List.getElem?_eq_none (by simp [Blocks.sizes]; omega)]

/-- `dot` and `true_dot`: `d` a function on dense tensors that sums `m (A i) (B i)`. -/
theorem blockDotWith_ok [CommSemiring R] {d : Operand R → Operand R → Outcome R} {m : R → R → R}
    (hm : m 0 0 = 0)
    (hd : ∀ (a b : Strided R) (f g : List Nat → R), a.IsTensor → b.IsTensor → b.dims = a.dims → a.dims ≠ [] →
      a.Represents f → b.Represents g → d (tensorOperand a) (tensorOperand b) = .ok ((box a.dims).map fun i => m (f i) (g i)).sum)
    {A B : Block R} {r : Nat} (hr : 0 < r) {as bs : Blocks R} (hA : A.Models r as) (hB : B.Models r bs)
    (hsum : as.sizes.sum = bs.sizes.sum) {sA sB sched : List Nat} (hsA : sA.Perm (List.range as.length))
    (hsB : sB.Perm (List.range bs.length)) (hs : sched.Perm (List.range as.length)) :
    blockDotWith d A B sA sB sched =
      .ok ((box (List.replicate r as.sizes.sum)).map fun j => m (as.elem j) (bs.elem j)).sum := by
  unfold blockDotWith
  split
  · obtain ⟨a, a1, a2, a3, a4⟩ := blockDense_ok hr hA hsA
    obtain ⟨b, b1, b2, b3, b4⟩ := blockDense_ok hr hB hsB
    rw [a1, Outcome.ok_bind, b1, Outcome.ok_bind, hd a b _ _ a2 b2 (by rw [a3, b3, hsum]) (by rw [a3]; simp; omega) a4 b4, a3]
  · rename_i hc
    rw [not_or, not_not, not_not, hA.length, hB.length, hA.ranges, hB.ranges] at hc
    obtain ⟨hl, hrg⟩ := hc
    have hsz : as.sizes = bs.sizes := ranges_inj hl hrg
    rw [sumLoop_perm hs (fun b => ((box (List.replicate r (as.sizes.getD b 0))).map fun l =>
      m (as.elem (l.map (tileStart as.sizes b + ·))) (bs.elem (l.map (tileStart as.sizes b + ·)))).sum)]
    · rw [sum_blocks as.sizes hr]
      · simp [sumTo, Blocks.sizes]
      · intro j hj
        have : ∀ xs : Blocks R, xs.sizes = as.sizes → xs.elem j = 0 := by
          intro xs hxs
          unfold Blocks.elem
          cases e : xs.find j with
          | none => rfl
          | some b => exact absurd (hxs ▸ (find_some e).2) (hj b)
        rw [this as rfl, this bs hsz.symm, hm]
    · intro i hi
      obtain ⟨a, _, a2, a3⟩ := hA.at (List.getElem?_eq_getElem hi)
      obtain ⟨b, _, b2, b3⟩ := hB.at (List.getElem?_eq_getElem (hl ▸ hi))
      have esz := getD_sizes (List.getElem?_eq_getElem hi)
      have esz' := getD_sizes (List.getElem?_eq_getElem (hl ▸ hi : i < bs.length))
      rw [a2, Outcome.ok_bind, a3.dim hr, ← esz]
      split
      · rename_i h0
        rw [h0, box_of_zero (by simp; omega)]
        rfl
      · rw [b2, Outcome.ok_bind, hd a b _ _ a3.1 b3.1 (by rw [a3.2.1, b3.2.1, ← esz, ← esz', hsz]) (a3.ne hr) a3.2.2 b3.2.2]
        congr 2
        rw [a3.2.1, ← esz]
        apply List.map_congr_left
        intro l hl'
        rw [mem_box] at hl'
        rw [elem_shift hr hi hl']
        have := elem_shift (bs := bs) hr (hl ▸ hi) (by rw [← hsz]; exact hl')
        rw [← hsz] at this
        rw [this]

/-! ### Rows -/

theorem sub_row {t : Strided R} (h : t.IsTensor) {n k : Nat} (hd : t.dims = [n, n]) (hk : k < n) :
    t.sub [.at (k : Int), .all] = .ok ⟨t.data, k * n, [n], [1]⟩ ∧
      t.ViewOf ⟨t.data, k * n, [n], [1]⟩ fun j => k :: j := by
  have hs := matrix_strides h hd
  have hlen : t.data.length = n * n := by rw [h.length, hd]; simp [numel]
  have hkn : k * n + n ≤ n * n := by
    have := Nat.mul_le_mul_right n (show k + 1 ≤ n by omega)
    rw [Nat.add_mul] at this; omega
  refine ⟨?_, ⟨rfl, rfl, ?_, ?_⟩⟩
  · unfold Strided.sub
    rw [if_neg (by simp [hd])]
    have e : innerProduct ((List.replicate [n, n].length 0).set 0 (if (k : Int) < 0 then (n : Int) + k else k)) [n, 1] = (k * n : Nat) := by
      rw [if_neg (by omega)]
      simp [innerProduct]
    simp only [hd, hs, List.zip_cons_cons, List.zip_nil_right, subLoop, subStep, mkView, h.off, e]
    rw [if_neg (by rw [hlen]; omega), if_neg (by simp)]
    simp
    exact_mod_cast Int.toNat_natCast (k * n)
  · intro j hj
    obtain ⟨x, rfl, hx⟩ := inBox_one.1 hj
    rw [hd, hs, h.off]
    exact ⟨⟨hk, hx, trivial⟩, by simp [dot]⟩
  · intro i j hi hj e
    simpa using e

theorem blockScaleRow_ok [CommSemiring R] (alpha : R) {A : Block R} {as : Blocks R} (hA : A.Models 2 as) {row : Nat}
    (hrow : row < as.sizes.sum) :
    ∃ A' as', blockScaleRow row alpha A = .ok A' ∧ A'.Models 2 as' ∧ as'.sizes = as.sizes ∧
      ∀ i j, i < as.sizes.sum → j < as.sizes.sum → as'.elem [i, j] = if i = row then alpha * as.elem [i, j] else as.elem [i, j] := by
  have hls : as.sizes.length = as.length := by simp [Blocks.sizes]
  have h0 := blockOf_ok hA row
  rw [if_pos hrow] at h0
  obtain ⟨b, h1, h2⟩ := h0
  have hb : b < as.length := by have := interval_lt h2; omega
  obtain ⟨t, _, t2, t3⟩ := hA.at (List.getElem?_eq_getElem hb)
  have hsz := getD_sizes (List.getElem?_eq_getElem hb)
  obtain ⟨k, rfl⟩ : ∃ k, row = tileStart as.sizes b + k := ⟨row - tileStart as.sizes b, by have := h2.1; omega⟩
  have hk : k < as.sizes.getD b 0 := by have := h2.2; omega
  have hd : t.dims = [as.sizes.getD b 0, as.sizes.getD b 0] := by rw [t3.2.1, hsz]; rfl
  obtain ⟨v1, v2⟩ := sub_row t3.1 hd hk
  have hlen : t.data.length = as.sizes.getD b 0 * as.sizes.getD b 0 := by rw [t3.1.length, hd]; simp [numel]
  have hv : (⟨t.data, k * as.sizes.getD b 0, [as.sizes.getD b 0], [1]⟩ : Strided R).Represents fun j => as[b].2 (k :: j) := by
    intro j hj
    obtain ⟨x, rfl, hx⟩ := inBox_one.1 hj
    rw [v2.read t3.1.wf hj]
    exact t3.2.2 [k, x] (by rw [hd]; exact ⟨hk, hx, trivial⟩)
  have hkn : k * as.sizes.getD b 0 + as.sizes.getD b 0 ≤ as.sizes.getD b 0 * as.sizes.getD b 0 := by
    have := Nat.mul_le_mul_right (as.sizes.getD b 0) (show k + 1 ≤ as.sizes.getD b 0 by omega)
    rw [Nat.add_mul] at this; omega
  obtain ⟨v', w1, w2, w3⟩ := scale_rowMajor (t := ⟨t.data, k * as.sizes.getD b 0, [as.sizes.getD b 0], [1]⟩)
    ⟨by simp [dimsToStrides], by simp only [numel, Nat.mul_one]; omega⟩ (by simp) hv alpha
  obtain ⟨fr, rp⟩ := viewFrame_parent (h := fun l => if l.getD 0 0 = k then alpha * as[b].2 l else as[b].2 l) t3.1.wf t3.2.2 v2 w2 w3
    (by intro j _; simp)
    (by
      intro i hi hout
      rw [hd] at hi
      obtain ⟨x, y, rfl, hx, hy⟩ := Props.inBox2_cases hi
      rw [if_neg]
      simp only [List.getD_cons_zero]
      rintro rfl
      exact hout [y] ⟨hy, trivial⟩ rfl)
  have hnew := hA.setBlock (n := as[b].1) (f := as[b].2) (List.getElem?_eq_getElem hb) (t3.change fr rp)
  have hsz' : Blocks.sizes (as.set b (as[b].1, fun l => if l.getD 0 0 = k then alpha * as[b].2 l else as[b].2 l)) = as.sizes := by
    unfold Blocks.sizes
    apply List.ext_getElem?
    intro i
    simp only [List.getElem?_map, List.getElem?_set]
    by_cases e : b = i
    · subst e; simp [hb]
    · rw [if_neg e]
  refine ⟨_, _, ?_, hnew, hsz', ?_⟩
  · unfold blockScaleRow
    rw [h1, Outcome.ok_bind, t2, Outcome.ok_bind, hA.range hb]
    simp only
    rw [show ((tileStart as.sizes b + k : Nat) : Int) - ((tileStart as.sizes b : Nat) : Int) = (k : Int) from by push_cast; omega,
      v1, Outcome.ok_bind, w1, Outcome.ok_bind]
    rfl
  · intro i j hi hj
    obtain ⟨p, hp⟩ := interval_exists hi
    obtain ⟨q, hq⟩ := interval_exists hj
    have hpl := interval_lt hp
    by_cases e : p = q
    · subst e
      obtain ⟨x, rfl⟩ : ∃ x, i = tileStart as.sizes p + x := ⟨i - tileStart as.sizes p, by have := hp.1; omega⟩
      obtain ⟨y, rfl⟩ : ∃ y, j = tileStart as.sizes p + y := ⟨j - tileStart as.sizes p, by have := hq.1; omega⟩
      have hx : x < as.sizes.getD p 0 := by have := hp.2; omega
      have hy : y < as.sizes.getD p 0 := by have := hq.2; omega
      have e1 := elem_diag (bs := as) (b := p) (by omega) hx hy
      have e2 := elem_diag (bs := as.set b (as[b].1, fun l => if l.getD 0 0 = k then alpha * as[b].2 l else as[b].2 l))
        (b := p) (x := x) (y := y) (by rw [List.length_set]; omega) (by rw [hsz']; exact hx) (by rw [hsz']; exact hy)
      rw [hsz'] at e2
      rw [e1, e2, List.getElem_set]
      by_cases c : b = p
      · subst c
        simp only [↓reduceIte, List.getD_cons_zero]
        have : tileStart as.sizes b + x = tileStart as.sizes b + k ↔ x = k := by omega
        simp only [this]
      · rw [if_neg c, if_neg]
        intro e3
        rw [e3] at hp
        exact c (interval_unique h2 hp)
    · rw [elem_off hp hq e, elem_off (p := p) (q := q) (by rw [hsz']; exact hp) (by rw [hsz']; exact hq) e]
      simp

end Einsums
