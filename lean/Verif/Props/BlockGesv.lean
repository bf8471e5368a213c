import Verif.Props.BlockSpectral
import Verif.Props.Gesv
/-
C127: `gesv` of block tensors.
-/
namespace Einsums.Props
open Spec Model Matrix

variable {R : Type}

/-! ### `info_out` -/

/-- `info_out` and the values that the iterations are about to write, when block `i` yields `c i` (`none`: it is empty). -/
def infoStep (c : Nat → Option Nat) (s : Nat × (Nat → Option Nat)) : GesvStep → Nat × (Nat → Option Nat)
  | .load i => (s.1, fun j => if j = i then (c i).map (s.1 ||| ·) else s.2 j)
  | .store i => ((s.2 i).getD s.1, s.2)

/-- Whatever the interleaving: a value that is not 0 comes from a block. -/
theorem info_sound (c : Nat → Option Nat) (sched : List GesvStep) (hc : ∀ s ∈ sched, (c s.block).getD 0 = 0) :
    ∀ s : Nat × (Nat → Option Nat), s.1 = 0 → (∀ i, (s.2 i).getD 0 = 0) → (sched.foldl (infoStep c) s).1 = 0 := by
  induction sched with
  | nil => intro s h _; exact h
  | cons a sched ih =>
    intro s h0 h1
    refine ih (fun x hx => hc x (by simp [hx])) _ ?_ ?_
    · cases a with
      | load i => exact h0
      | store i =>
        show (s.2 i).getD s.1 = 0
        rw [h0]
        exact h1 i
    · cases a with
      | load i =>
        intro j
        show (if j = i then (c i).map (s.1 ||| ·) else s.2 j).getD 0 = 0
        split
        · have := hc (.load i) (by simp)
          simp only [GesvStep.block] at this
          cases hci : c i with
          | none => rfl
          | some v => rw [hci] at this; simp at this; simp [h0, this]
        · exact h1 j
      | store i => exact h1

/-- One after the other: `info_out` is 0 if and only if every block yields 0. -/
theorem info_serial (c : Nat → Option Nat) (is : List Nat) :
    ∀ s : Nat × (Nat → Option Nat), ((oneByOne is).foldl (infoStep c) s).1 = 0 ↔ s.1 = 0 ∧ ∀ i ∈ is, (c i).getD 0 = 0 := by
  induction is with
  | nil => intro s; simp [oneByOne]
  | cons i is ih =>
    intro s
    have e : oneByOne (i :: is) = .load i :: .store i :: oneByOne is := rfl
    rw [e, List.foldl_cons, List.foldl_cons, ih]
    simp only [infoStep, if_pos, List.mem_cons, forall_eq_or_imp]
    cases c i with
    | none => simp
    | some v => simp [Nat.or_eq_zero_iff, and_assoc]

theorem interleaving_nodup {n : Nat} {sched : List GesvStep} (h : Interleaving n sched) : sched.Nodup := by
  rw [List.nodup_iff_count_le_one]
  intro a
  by_cases ha : a ∈ sched
  · have h1 := h.1 a.block (h.2 a ha)
    have h2 : (sched.filter fun s => s.block = a.block).count a = sched.count a := List.count_filter (by simp)
    rw [← h2, h1]
    cases a <;> simp [GesvStep.block]
  · rw [List.count_eq_zero_of_not_mem ha]
    exact Nat.zero_le 1

theorem interleaving_load {n : Nat} {sched : List GesvStep} (h : Interleaving n sched) {i : Nat} (hi : i < n) : .load i ∈ sched := by
  have : GesvStep.load i ∈ sched.filter fun s => s.block = i := by rw [h.1 i hi]; simp
  exact (List.mem_filter.1 this).1

theorem oneByOne_interleaving {n : Nat} {is : List Nat} (h : is.Perm (List.range n)) : Interleaving n (oneByOne is) := by
  constructor
  · intro i hi
    have hm : i ∈ is := h.mem_iff.2 (List.mem_range.2 hi)
    have hn : is.Nodup := h.nodup_iff.2 List.nodup_range
    clear h
    have none : ∀ l : List Nat, i ∉ l → (oneByOne l).filter (fun s => s.block = i) = [] := by
      intro l hl
      rw [List.filter_eq_nil_iff]
      intro s hs
      obtain ⟨j, hj, hs⟩ := List.mem_flatMap.1 hs
      have : s.block = j := by
        simp at hs
        rcases hs with rfl | rfl <;> rfl
      simp only [this, decide_eq_true_eq]
      rintro rfl
      exact hl hj
    induction is with
    | nil => simp at hm
    | cons j is ih =>
      have e : oneByOne (j :: is) = .load j :: .store j :: oneByOne is := rfl
      rw [List.nodup_cons] at hn
      rw [e]
      by_cases hj : j = i
      · subst hj
        rw [List.filter_cons_of_pos (by simp [GesvStep.block]), List.filter_cons_of_pos (by simp [GesvStep.block]), none is hn.1]
      · simp only [List.filter_cons, GesvStep.block, hj, decide_false, Bool.false_eq_true, if_false]
        exact ih (by simpa [Ne.symm hj] using hm) hn.2
  · intro s hs
    obtain ⟨j, hj, hs⟩ := List.mem_flatMap.1 hs
    have := List.mem_range.1 (h.mem_iff.1 hj)
    simp at hs
    rcases hs with rfl | rfl <;> exact this

/-! ### The blocks -/

section
variable [Field R]

/-- The matrix is regular if and only if its blocks are. -/
theorem matrix_regular {as : Blocks R} {N : Nat} (hN : N = as.sizes.sum) :
    (as.matrix N).det ≠ 0 ↔ ∀ (b n : Nat) (f : List Nat → R), as[b]? = some (n, f) → (blockPart (n, f)).det ≠ 0 := by
  constructor
  · intro h b n f hf hd
    obtain ⟨v, hv, e⟩ := Matrix.exists_mulVec_eq_zero_iff.2 hd
    obtain ⟨u, hu, e'⟩ := eigenvalue_part hN hf (x := 0) ⟨v, hv, by rw [e, zero_smul]⟩
    exact h (Matrix.exists_mulVec_eq_zero_iff.1 ⟨u, hu, by rw [e', zero_smul]⟩)
  · intro h hd
    obtain ⟨xs, hx, hX⟩ := blocks_of as fun p => (blockPart p)⁻¹
    obtain ⟨os, ho, hO⟩ := blocks_of as fun p => 1
    have one' : os.matrix N = 1 := matrix_one (by rw [ho]; exact hN) fun b n f hf => by
      obtain ⟨g, hg⟩ := same_size ho hf
      obtain ⟨g', h1, h2⟩ := hO b n g hg
      rw [hf] at h1
      obtain ⟨-, rfl⟩ := Prod.mk.inj (Option.some.inj h1)
      exact h2
    have m : as.matrix N * xs.matrix N = 1 := by
      rw [← one']
      refine matrix_mul hN hx ho fun b n f g k hf hg hk => ?_
      obtain ⟨g', h1, h2⟩ := hX b n f hf
      rw [hg] at h1
      obtain ⟨-, rfl⟩ := Prod.mk.inj (Option.some.inj h1)
      obtain ⟨k', h3, h4⟩ := hO b n f hf
      rw [hk] at h3
      obtain ⟨-, rfl⟩ := Prod.mk.inj (Option.some.inj h3)
      rw [h2, h4]
      exact Matrix.mul_nonsing_inv _ (isUnit_iff_ne_zero.2 (h b n f hf))
    have := congrArg Matrix.det m
    rw [Matrix.det_mul, hd, zero_mul, Matrix.det_one] at this
    exact zero_ne_one this

/-- What LAPACK yields for one block of A and the block of B. -/
def blockOut (gesv : GesvRoutine R) (n : Nat) (f g : List Nat → R) : Nat × Mat R × Mat R :=
  gesv n n (crop n n (tr fun i j => f [i, j])) (crop n n (tr fun i j => g [i, j]))

/-- What each block contributes to `info_out`. -/
def blockInfo (gesv : GesvRoutine R) (as bs : Blocks R) (i : Nat) : Option Nat :=
  match as[i]?, bs[i]? with
  | some (n, f), some (_, g) => if n = 0 then none else some (blockOut gesv n f g).1
  | _, _ => none

/-- `gesv` of one block. -/
theorem gesv_block (gesv : GesvRoutine R) {n : Nat} (hn : n ≠ 0) {f g : List Nat → R} {t u : Strided R} (ht : HoldsBlock 2 t (n, f))
    (hu : HoldsBlock 2 u (n, g))
    (lapack : IsGesv n n (crop n n (tr fun i j => f [i, j])) (crop n n (tr fun i j => g [i, j])) (blockOut gesv n f g)) :
    ∃ t' u' f' x, gesvT gesv t u = .ok ((blockOut gesv n f g).1, t', u') ∧ HoldsBlock 2 t' (n, f') ∧ HoldsBlock 2 u' (n, x) ∧
      ((blockPart (n, f)).det ≠ 0 → blockPart (n, x) * blockPart (n, f) = blockPart (n, g)) := by
  obtain ⟨t', u', e1, e2, e3, e4, e5⟩ := gesvT_ok (gesv := gesv) (Nat.pos_of_ne_zero hn) (Nat.le_refl n) (block_strides ht)
    (block_strides hu) (a := fun i j => f [i, j]) (b := fun i j => g [i, j]) (holds_part ht) (holds_part hu)
  refine ⟨t', u', _, _, e1, block_of_holds (isTensor_of_frame ht.1 e4) e2, block_of_holds (isTensor_of_frame hu.1 e5) e3, fun hd => ?_⟩
  have := gesv_solution lapack ((gesv_info lapack).2 hd)
  refine Eq.trans ?_ this
  congr 1
  funext i j
  exact if_pos j.2

/-- All the blocks, whatever the interleaving. -/
theorem blockGesv_ok (gesv : GesvRoutine R) {A B : Block R} {as bs : Blocks R} (hA : A.Models 2 as) (hB : B.Models 2 bs)
    (hsz : bs.sizes = as.sizes) {sched : List GesvStep} (hs : Interleaving as.length sched)
    (lapack : ∀ (b n : Nat) (f g : List Nat → R), n ≠ 0 → as[b]? = some (n, f) → bs[b]? = some (n, g) →
      IsGesv n n (crop n n (tr fun i j => f [i, j])) (crop n n (tr fun i j => g [i, j])) (blockOut gesv n f g)) :
    ∃ A' B' fs xs, blockGesv gesv sched A B =
        .ok ((sched.foldl (infoStep (blockInfo gesv as bs)) (0, fun _ => none)).1, A', B') ∧
      A'.Models 2 fs ∧ fs.sizes = as.sizes ∧ B'.Models 2 xs ∧ xs.sizes = as.sizes ∧
      ∀ (b n : Nat) (f g x : List Nat → R), as[b]? = some (n, f) → bs[b]? = some (n, g) → xs[b]? = some (n, x) →
        (blockPart (n, f)).det ≠ 0 → blockPart (n, x) * blockPart (n, f) = blockPart (n, g) := by
  have hlen : bs.length = as.length := by
    have := congrArg List.length hsz
    simpa [Blocks.sizes] using this
  obtain ⟨s', e, ca, cb, h1, h2, h3, h4, h5, h6⟩ := foldlM_inv (step := blockGesvStep gesv)
    (fun done s => ∃ ca cb : Blocks R, s.A.Models 2 ca ∧ s.B.Models 2 cb ∧ ca.sizes = as.sizes ∧ cb.sizes = as.sizes ∧
      (∀ i, GesvStep.load i ∉ done → ca[i]? = as[i]? ∧ cb[i]? = bs[i]?) ∧
      (∀ (b n : Nat) (f g x : List Nat → R), GesvStep.load b ∈ done → as[b]? = some (n, f) → bs[b]? = some (n, g) →
        cb[b]? = some (n, x) → (blockPart (n, f)).det ≠ 0 → blockPart (n, x) * blockPart (n, f) = blockPart (n, g)) ∧
      (s.info, s.pending) = done.foldl (infoStep (blockInfo gesv as bs)) (0, fun _ => none))
    sched (by
      rintro done st s hd hmem ⟨ca, cb, h1, h2, h3, h4, h5, h6, h7⟩
      have hlt := hs.2 st hmem
      cases st with
      | store i =>
        have key : ∀ s1 : GesvState R, s1.A = s.A → s1.B = s.B →
            (s1.info, s1.pending) = infoStep (blockInfo gesv as bs) (s.info, s.pending) (.store i) →
            ∃ ca cb : Blocks R, s1.A.Models 2 ca ∧ s1.B.Models 2 cb ∧ ca.sizes = as.sizes ∧ cb.sizes = as.sizes ∧
              (∀ j, GesvStep.load j ∉ done ++ [GesvStep.store i] → ca[j]? = as[j]? ∧ cb[j]? = bs[j]?) ∧
              (∀ (b n : Nat) (f g x : List Nat → R), GesvStep.load b ∈ done ++ [GesvStep.store i] → as[b]? = some (n, f) → bs[b]? = some (n, g) →
                cb[b]? = some (n, x) → (blockPart (n, f)).det ≠ 0 → blockPart (n, x) * blockPart (n, f) = blockPart (n, g)) ∧
              (s1.info, s1.pending) = (done ++ [GesvStep.store i]).foldl (infoStep (blockInfo gesv as bs)) (0, fun _ => none) := by
          intro s1 ea eb ei
          refine ⟨ca, cb, by rw [ea]; exact h1, by rw [eb]; exact h2, h3, h4, fun j hj => h5 j (by simpa using hj),
            fun b n f g x hb => h6 b n f g x (by simpa using hb), ?_⟩
          rw [List.foldl_append, ← h7, ei]
          rfl
        cases hp : s.pending i with
        | none =>
          refine ⟨s, by simp only [blockGesvStep, hp], key s rfl rfl ?_⟩
          simp only [infoStep, hp, Option.getD_none]
        | some v =>
          refine ⟨{ s with info := v }, by simp only [blockGesvStep, hp], key _ rfl rfl ?_⟩
          simp only [infoStep, hp, Option.getD_some]
      | load i =>
        simp only [GesvStep.block] at hlt
        obtain ⟨c1, c2⟩ := h5 i hd
        obtain ⟨n, f, hf⟩ : ∃ n f, as[i]? = some (n, f) := ⟨as[i].1, as[i].2, by simp [hlt]⟩
        obtain ⟨g, hg⟩ := same_size hsz.symm hf
        obtain ⟨t, _, t2, t3⟩ := h1.at (c1.trans hf)
        obtain ⟨u, _, u2, u3⟩ := h2.at (c2.trans hg)
        have d0 : t.dim 0 = n := by simp [Strided.dim, t3.2.1]
        by_cases hn : n = 0
        · subst hn
          refine ⟨{ s with pending := fun j => if j = i then none else s.pending j }, ?_, ca, cb, h1, h2, h3, h4,
            fun j hj => h5 j (by simp at hj; exact hj.1), ?_, ?_⟩
          · simp only [blockGesvStep, t2, Outcome.ok_bind, d0]
            rfl
          · intro b n f' g' x hb hf' hg' hx hdet
            by_cases hbi : b = i
            · subst hbi
              rw [hf] at hf'
              obtain ⟨rfl, rfl⟩ := Prod.mk.inj (Option.some.inj hf')
              funext p
              exact p.elim0
            · exact h6 b n f' g' x (by simpa [hbi] using hb) hf' hg' hx hdet
          · rw [List.foldl_append, ← h7]
            simp only [List.foldl_cons, List.foldl_nil, infoStep, blockInfo, hf, hg, if_true, Option.map_none]
        · obtain ⟨t', u', f', x, e1, e2, e3, e4⟩ := gesv_block gesv hn t3 u3 (lapack i n f g hn hf hg)
          have m1 := h1.setBlock (c1.trans hf) e2
          have m2 := h2.setBlock (c2.trans hg) e3
          refine ⟨⟨{ s.A with blocks := s.A.blocks.set i t' }, { s.B with blocks := s.B.blocks.set i u' }, s.info,
            fun j => if j = i then some (s.info ||| (blockOut gesv n f g).1) else s.pending j⟩, ?_,
            ca.set i (n, f'), cb.set i (n, x), m1, m2, ?_, ?_, ?_, ?_, ?_⟩
          · simp only [blockGesvStep, t2, Outcome.ok_bind, d0]
            rw [if_neg hn]
            simp only [u2, Outcome.ok_bind, e1]
            rfl
          · rw [← h3]
            exact m1.dims.symm.trans h1.dims
          · rw [← h4]
            exact m2.dims.symm.trans h2.dims
          · intro j hj
            simp only [List.mem_append, List.mem_singleton, not_or, GesvStep.load.injEq] at hj
            rw [List.getElem?_set_ne (Ne.symm hj.2), List.getElem?_set_ne (Ne.symm hj.2)]
            exact h5 j hj.1
          · intro b m f1 g1 x1 hb hf1 hg1 hx1 hdet
            by_cases hbi : b = i
            · subst hbi
              rw [hf] at hf1
              rw [hg] at hg1
              have hbl : b < cb.length := (List.getElem?_eq_some_iff.1 (c2.trans hg)).1
              rw [List.getElem?_set_self hbl] at hx1
              obtain ⟨rfl, rfl⟩ := Prod.mk.inj (Option.some.inj hf1)
              obtain ⟨-, rfl⟩ := Prod.mk.inj (Option.some.inj hg1)
              obtain ⟨-, rfl⟩ := Prod.mk.inj (Option.some.inj hx1)
              exact e4 hdet
            · rw [List.getElem?_set_ne (Ne.symm hbi)] at hx1
              exact h6 b m f1 g1 x1 (by simpa [hbi] using hb) hf1 hg1 hx1 hdet
          · rw [List.foldl_append, ← h7]
            simp only [List.foldl_cons, List.foldl_nil, infoStep, blockInfo, hf, hg, if_neg hn, Option.map_some])
    sched [] ⟨A, B, 0, fun _ => none⟩
    ⟨as, bs, hA, hB, rfl, hsz, fun i _ => ⟨rfl, rfl⟩, fun b n f g x hb => by simp at hb, rfl⟩ (by simpa using interleaving_nodup hs)
    (fun i hi => hi)
  simp only [List.nil_append] at h5 h6
  refine ⟨s'.A, s'.B, ca, cb, ?_, h1, h3, h2, h4, fun b n f g x hf hg hx => h6.1 b n f g x (interleaving_load hs ?_) hf hg hx⟩
  · unfold blockGesv
    rw [if_neg (by rw [hA.blocks.length_eq, hB.blocks.length_eq, hlen]; simp), e]
    rw [← h6.2]
    rfl
  · exact (List.getElem?_eq_some_iff.1 hf).1

/-- What a block contributes to `info_out` tells whether it is singular. -/
theorem blockInfo_zero (gesv : GesvRoutine R) {as bs : Blocks R} (hsz : bs.sizes = as.sizes)
    (lapack : ∀ (b n : Nat) (f g : List Nat → R), n ≠ 0 → as[b]? = some (n, f) → bs[b]? = some (n, g) →
      IsGesv n n (crop n n (tr fun i j => f [i, j])) (crop n n (tr fun i j => g [i, j])) (blockOut gesv n f g)) {b n : Nat}
    {f : List Nat → R} (hf : as[b]? = some (n, f)) : (blockInfo gesv as bs b).getD 0 = 0 ↔ (blockPart (n, f)).det ≠ 0 := by
  obtain ⟨g, hg⟩ := same_size hsz.symm hf
  simp only [blockInfo, hf, hg]
  by_cases hn : n = 0
  · subst hn
    simp
  · rw [if_neg hn]
    exact gesv_info (lapack b n f g hn hf hg)

/-- **C127 (partial).** `gesv(&A, &B)` of block tensors with the same block sizes, for every interleaving of the iterations of the
parallel loop: if A is regular, 0 is returned and B is replaced by the block tensor X with X·A = B.  Missing: the returned value
for a singular A (`C127_race_refuted`), the rejection of other block sizes (`C127_sizes_refuted`). -/
theorem C127_solve_partial (gesv : GesvRoutine R) (A B : Block R) (as bs : Blocks R) (hA : A.Models 2 as) (hB : B.Models 2 bs)
    (hsz : bs.sizes = as.sizes) (N : Nat) (hN : N = as.sizes.sum) (sched : List GesvStep) (hs : Interleaving as.length sched)
    (lapack : ∀ (b n : Nat) (f g : List Nat → R), n ≠ 0 → as[b]? = some (n, f) → bs[b]? = some (n, g) →
      IsGesv n n (crop n n (tr fun i j => f [i, j])) (crop n n (tr fun i j => g [i, j]))
        (gesv n n (crop n n (tr fun i j => f [i, j])) (crop n n (tr fun i j => g [i, j]))))
    (regular : (as.matrix N).det ≠ 0) :
    ∃ A' B' xs, blockGesv gesv sched A B = .ok (0, A', B') ∧ B'.Models 2 xs ∧ xs.sizes = as.sizes ∧
      xs.matrix N * as.matrix N = bs.matrix N := by
  obtain ⟨A', B', fs, xs, e, _, _, e3, e4, e5⟩ := blockGesv_ok gesv hA hB hsz hs lapack
  have hr := (matrix_regular hN).1 regular
  rw [info_sound _ _ (fun s hs' => by
    have hlt := hs.2 s hs'
    exact (blockInfo_zero gesv hsz lapack (f := as[s.block].2) (n := as[s.block].1) (by simp [hlt])).2
      (hr s.block _ _ (by simp [hlt]))) _ rfl (fun _ => rfl)] at e
  refine ⟨A', B', xs, e, e3, e4, ?_⟩
  exact matrix_mul (by rw [e4]; exact hN) e4.symm (hsz.trans e4.symm) fun b n x f g hx hf hg => e5 b n f g x hf hg hx (hr b n f hf)

/-- **C127 (partial).** If the iterations run one after the other, in any order: 0 is returned if and only if A is regular, and a
singular A is no error.  Missing: other interleavings (`C127_race_refuted`). -/
theorem C127_info_partial (gesv : GesvRoutine R) (A B : Block R) (as bs : Blocks R) (hA : A.Models 2 as) (hB : B.Models 2 bs)
    (hsz : bs.sizes = as.sizes) (N : Nat) (hN : N = as.sizes.sum) (is : List Nat) (hi : is.Perm (List.range as.length))
    (lapack : ∀ (b n : Nat) (f g : List Nat → R), n ≠ 0 → as[b]? = some (n, f) → bs[b]? = some (n, g) →
      IsGesv n n (crop n n (tr fun i j => f [i, j])) (crop n n (tr fun i j => g [i, j]))
        (gesv n n (crop n n (tr fun i j => f [i, j])) (crop n n (tr fun i j => g [i, j])))) :
    ∃ info A' B', blockGesv gesv (oneByOne is) A B = .ok (info, A', B') ∧ (info = 0 ↔ (as.matrix N).det ≠ 0) := by
  obtain ⟨A', B', fs, xs, e, _⟩ := blockGesv_ok gesv hA hB hsz (oneByOne_interleaving hi) lapack
  refine ⟨_, A', B', e, ?_⟩
  rw [info_serial, matrix_regular hN]
  constructor
  · rintro ⟨_, h⟩ b n f hf
    exact (blockInfo_zero gesv hsz lapack hf).1 (h b (hi.mem_iff.2 (List.mem_range.2 (List.getElem?_eq_some_iff.1 hf).1)))
  · intro h
    refine ⟨rfl, fun i hi' => ?_⟩
    have hlt := List.mem_range.1 (hi.mem_iff.1 hi')
    have hf : as[i]? = some (as[i].1, as[i].2) := by simp [hlt]
    exact (blockInfo_zero gesv hsz lapack hf).2 (h i _ _ hf)

end

/-- **C127 (other numbers of blocks).** `gesv` throws. -/
theorem C127_count_rejects [Zero R] (gesv : GesvRoutine R) (A B : Block R) (as bs : Blocks R) (hA : A.Models 2 as) (hB : B.Models 2 bs)
    (h : as.length ≠ bs.length) (sched : List GesvStep) : (blockGesv gesv sched A B).isError = true := by
  unfold blockGesv
  rw [if_pos (by rw [hA.blocks.length_eq, hB.blocks.length_eq]; exact h)]
  rfl

/-- **C127 (refuted: the data race on `info_out`).** With any LAPACK: for a regular block and a singular one, if both iterations
read `info_out` before either writes it and the regular block writes last, `gesv` returns 0. -/
theorem C127_race_refuted [Field R] (gesv : GesvRoutine R) (x u v : R) (hx : x ≠ 0) (A B : Block R)
    (hA : A.Models 2 (twoBlocks x 0)) (hB : B.Models 2 (twoBlocks u v)) (lapack : ∀ M N, IsGesv 1 1 M N (gesv 1 1 M N)) :
    ∃ sched, Interleaving 2 sched ∧ ((twoBlocks x 0).matrix 2).det = 0 ∧ ∃ A' B', blockGesv gesv sched A B = .ok (0, A', B') := by
  have hi : Interleaving 2 [.load 0, .load 1, .store 1, .store 0] := by
    refine ⟨fun i hi => ?_, by decide⟩
    interval_cases i <;> rfl
  have lap : ∀ (b n : Nat) (f g : List Nat → R), n ≠ 0 → (twoBlocks x 0)[b]? = some (n, f) → (twoBlocks u v)[b]? = some (n, g) →
      IsGesv n n (crop n n (tr fun i j => f [i, j])) (crop n n (tr fun i j => g [i, j])) (blockOut gesv n f g) := by
    intro b n f g _ hf _
    have : n = 1 := by
      have hm := List.mem_of_getElem? hf
      simp only [twoBlocks, List.mem_cons, Prod.mk.injEq, List.not_mem_nil, or_false] at hm
      rcases hm with h | h <;> exact h.1
    subst this
    exact lapack _ _
  obtain ⟨A', B', _, _, e, _⟩ := blockGesv_ok gesv hA hB rfl hi lap
  have c0 := (blockInfo_zero gesv (as := twoBlocks x 0) (bs := twoBlocks u v) rfl lap (b := 0) (n := 1) (f := fun _ => x) rfl).2
    (by rw [Matrix.det_fin_one]; exact hx)
  refine ⟨_, hi, ?_, A', B', ?_⟩
  · rw [twoBlocks_matrix, Matrix.det_diagonal]
    simp
  · rw [e]
    congr 2
    simp only [List.foldl_cons, List.foldl_nil, infoStep, if_pos, if_neg (show (0 : Nat) ≠ 1 by decide), Nat.zero_or]
    have : blockInfo gesv (twoBlocks x 0) (twoBlocks u v) 0 = some (blockOut gesv 1 (fun _ => x) fun _ => u).1 := rfl
    rw [this] at c0 ⊢
    simpa using c0

/-- **C127 (refuted for other block sizes).** With any LAPACK: a block of B that is larger than the block of A is not rejected; for
A = [[2]] and B = [[2, 4], [6, 8]] `gesv` returns 0 and leaves [[1, 4], [3, 8]]. -/
theorem C127_sizes_refuted (gesv : GesvRoutine ℚ) (lapack : ∀ M N, IsGesv 1 2 M N (gesv 1 2 M N)) :
    ∃ A' B', blockGesv gesv [.load 0, .store 0] ⟨2, [⟨[2], 0, [1, 1], [1, 1]⟩], [(0, 1)], [1], 1, 0⟩
        ⟨2, [⟨[2, 4, 6, 8], 0, [2, 2], [2, 1]⟩], [(0, 2)], [2], 2, 0⟩ = .ok (0, A', B') ∧
      B'.blocks.map (·.data) = [[1, 4, 3, 8]] := by
  obtain ⟨info, A', B', e, h0, hf, x, hx, h1, h2⟩ := C126_wide_refuted gesv 1 2 2 (by decide) (by decide) ⟨[2], 0, [1, 1], [1, 1]⟩
    ⟨[2, 4, 6, 8], 0, [2, 2], [2, 1]⟩ ⟨rfl, rfl, rfl⟩ ⟨rfl, rfl, rfl⟩ (rows [[2]]) (rows [[2, 4], [6, 8]])
    (holds_rows _ rfl _ (by decide +kernel)) (holds_rows _ rfl _ (by decide +kernel)) (lapack _ _)
  have hd : (mat 1 1 (rows [[2]])).det ≠ 0 := by rw [Matrix.det_fin_one]; decide +kernel
  rw [h0.2 hd] at e
  have h1 := h1 hd
  have q1 := congrFun (congrFun h1 0) 0
  have q2 := congrFun (congrFun h1 1) 0
  simp only [Matrix.mul_apply, Fin.sum_univ_one, mat, rows] at q1 q2
  simp at q1 q2
  have g1 := (holdsMat_iff (t := B') (ld := 2) hx.dims hf.strides x).1 hx
  rw [hf.off] at g1
  have hl := hf.length
  refine ⟨⟨2, [A'], [(0, 1)], [1], 1, 0⟩, ⟨2, [B'], [(0, 2)], [2], 2, 0⟩, ?_, ?_⟩
  rotate_left
  · simp only [List.map_cons, List.map_nil, List.cons.injEq, and_true]
    apply List.ext_getElem?
    intro i
    rcases Nat.lt_or_ge i 4 with hi | hi
    · have p0 := g1 0 0 (by decide) (by decide)
      have p1 := g1 0 1 (by decide) (by decide)
      have p2 := g1 1 0 (by decide) (by decide)
      have p3 := g1 1 1 (by decide) (by decide)
      rw [h2 0 1 (by decide)] at p1
      rw [h2 1 1 (by decide)] at p3
      interval_cases i
      · refine p0.trans (congrArg some ?_)
        linarith
      · exact p1
      · refine p2.trans (congrArg some ?_)
        linarith
      · exact p3
    · rw [List.getElem?_eq_none (by simpa [hl] using hi), List.getElem?_eq_none (by simpa using hi)]
  · unfold blockGesv
    simp only [List.foldlM_cons, List.foldlM_nil, blockGesvStep, Block.at, List.getElem?_cons_zero, Outcome.ok_bind, Strided.dim,
      List.getD_cons_zero, List.length_cons, List.length_nil]
    rw [if_neg (by decide)]
    rw [if_neg (by decide), e]
    simp [List.set]

/-! #### Instances -/

/-- The hypothesis of `C127_race_refuted` and `C127_sizes_refuted` is met. -/
example : ∀ k M N, IsGesv 1 k M N (gesvEx 1 k M N) := gesvEx_one

/-- The hypotheses of `C127_solve_partial` are met: a 2×2 block and a block with one element. -/
theorem gesvEx_blocks (b n : Nat) (f g : List Nat → ℚ) (_ : n ≠ 0) (hf : (blocksEx [[2, 1], [4, 3]])[b]? = some (n, f))
    (hg : (blocksEx [[1, 2], [3, 4]])[b]? = some (n, g)) :
    IsGesv n n (crop n n (tr fun i j => f [i, j])) (crop n n (tr fun i j => g [i, j]))
      (gesvEx n n (crop n n (tr fun i j => f [i, j])) (crop n n (tr fun i j => g [i, j]))) := by
  have hb : b = 0 ∨ b = 1 := by
    have := (List.getElem?_eq_some_iff.1 hf).1
    simp [blocksEx] at this
    omega
  rcases hb with rfl | rfl
  · simp only [blocksEx, List.getElem?_cons_zero, Option.some.injEq, Prod.mk.injEq] at hf hg
    obtain ⟨rfl, rfl⟩ := hf
    obtain ⟨-, rfl⟩ := hg
    exact ⟨⟨fun i => i + 1, fun i hi => ⟨Nat.le_refl _, by simp at *; omega⟩, matrix_ext_dec (by decide +kernel), by decide +kernel⟩,
      fun _ => matrix_ext_dec (by decide +kernel)⟩
  · simp only [blocksEx, List.getElem?_cons_succ, List.getElem?_cons_zero, Option.some.injEq, Prod.mk.injEq] at hf
    obtain ⟨rfl, rfl⟩ := hf
    exact gesvEx_one 1 _ _

example := C127_solve_partial gesvEx (blockEx [[2, 1], [4, 3]]) (blockEx [[1, 2], [3, 4]]) _ _ (blockEx_models 2 1 4 3)
  (blockEx_models 1 2 3 4) rfl 3 rfl [.load 1, .load 0, .store 0, .store 1]
  ⟨fun i hi => by have hi : i < 2 := hi; interval_cases i <;> rfl, by decide⟩ gesvEx_blocks (by rw [Matrix.det_fin_three]; decide +kernel)

example := C127_info_partial gesvEx (blockEx [[2, 1], [4, 3]]) (blockEx [[1, 2], [3, 4]]) _ _ (blockEx_models 2 1 4 3)
  (blockEx_models 1 2 3 4) rfl 3 rfl [1, 0] (by decide) gesvEx_blocks

end Einsums.Props
