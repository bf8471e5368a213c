import Mathlib.LinearAlgebra.Matrix.NonsingularInverse
import Verif.Proofs.BlockSpectral
import Verif.Props.Block
import Verif.Props.Inverse
import Verif.Props.Spectral
/-
C115–C117: inverse, eigenvalues and powers of block tensors.
-/
namespace Einsums.Props
open Spec Model Matrix

section
variable {R : Type}

theorem holds_part {t : Strided R} {n : Nat} {f : List Nat → R} (h : HoldsBlock 2 t (n, f)) : Holds t (blockPart (n, f)) :=
  ⟨h.2.1, fun i j => h.2.2 [i.1, j.1] (by rw [h.2.1]; exact ⟨i.2, j.2, trivial⟩)⟩

theorem block_of_holds {t : Strided R} {n : Nat} {g : Nat → Nat → R} (w : t.IsTensor) (h : Holds t (mat n n g)) :
    HoldsBlock 2 t (n, fun l => g (l.getD 0 0) (l.getD 1 0)) :=
  ⟨w, h.dims, represents_of_holds h⟩

theorem block_strides {t : Strided R} {n : Nat} {f : List Nat → R} (h : HoldsBlock 2 t (n, f)) : t.strides = [n, 1] :=
  tensor_strides2 h.1 (holds_part h).dims

/-! ### C115 -/

section
variable [Field R]

/-- `invert` of one block that is not empty. -/
theorem invert_block (getrf : GetrfFn R) (getri : GetriFn R) {n : Nat} {f : List Nat → R} (hn : n ≠ 0) {t : Strided R}
    (ht : HoldsBlock 2 t (n, f))
    (lapack : IsLU n n (crop n n (tr fun i j => f [i, j])) (getrf n n (crop n n (tr fun i j => f [i, j]))))
    (lapack' : ∀ F p, IsGetri n F p (getri n F p)) :
    ((blockPart (n, f)).det ≠ 0 → ∃ t' g, invert getrf getri t = .ok t' ∧ HoldsBlock 2 t' (n, g) ∧
      blockPart (n, g) * blockPart (n, f) = 1 ∧ blockPart (n, f) * blockPart (n, g) = 1) ∧
    ((blockPart (n, f)).det = 0 → (invert getrf getri t).isError = true) := by
  obtain ⟨i1, i2⟩ := C102_invert_partial getrf getri n n (by omega) t (block_strides ht) (Nat.le_refl n) (fun i j => f [i, j])
    (holds_part ht) lapack lapack'
  refine ⟨fun hd => ?_, i2⟩
  obtain ⟨t', e, fr, x, hx, m1, m2⟩ := i1 hd
  exact ⟨t', _, e, block_of_holds (isTensor_of_frame ht.1 fr) hx, m1, m2⟩

/-- `invert` of an empty block. -/
theorem invert_empty (getrf : GetrfFn R) (getri : GetriFn R) {f : List Nat → R} {t : Strided R} (ht : HoldsBlock 2 t (0, f)) :
    (invert getrf getri t).isError = true := by
  have d0 : t.dim 0 = 0 := by simp [Strided.dim, ht.2.1]
  have s0 : t.stride 0 = 0 := by simp [Strided.stride, block_strides ht]
  unfold invert getrfT vendorGetrf
  rw [d0, s0, if_pos (by simp)]
  rfl

/-- A block that is empty or singular makes `invert` fail, in every order. -/
theorem blockInvert_fails (getrf : GetrfFn R) (getri : GetriFn R) {A : Block R} {as : Blocks R} (hA : A.Models 2 as) {sched : List Nat}
    (hs : sched.Perm (List.range as.length))
    (lapack : ∀ n f, n ≠ 0 → (n, f) ∈ as →
      IsLU n n (crop n n (tr fun i j => f [i, j])) (getrf n n (crop n n (tr fun i j => f [i, j]))))
    (lapack' : ∀ n F p, IsGetri n F p (getri n F p)) {b n : Nat} {f : List Nat → R} (hb : as[b]? = some (n, f))
    (h : n = 0 ∨ (blockPart (n, f)).det = 0) : (blockInvert getrf getri sched A).isError = true := by
  have hbl : b < as.length := by
    by_contra c
    rw [List.getElem?_eq_none (by omega)] at hb
    simp at hb
  have step_err : ∀ (U : Block R) (i : Nat) (t : Strided R), U.at i = .ok t → (invert getrf getri t).isError = true →
      (blockInvertStep getrf getri U i).isError = true := by
    intro U i t e he
    unfold blockInvertStep
    rw [e]
    simp only [Outcome.ok_bind]
    cases hi : invert getrf getri t with
    | ok _ => rw [hi] at he; simp [Outcome.isError] at he
    | error m => rfl
    | ub m => rw [hi] at he; simp [Outcome.isError] at he
  refine foldlM_fails (fun done U => ∃ cur, U.Models 2 cur ∧ cur.length = as.length ∧ ∀ i, i ∉ done → cur[i]? = as[i]?)
    (List.range as.length) b ?_ ?_ sched [] A (hs.mem_iff.2 (List.mem_range.2 hbl)) ⟨as, hA, rfl, fun _ _ => rfl⟩
    (by simpa using hs.nodup_iff.2 List.nodup_range) (fun i hi => hs.mem_iff.1 hi)
  · rintro done U hd ⟨cur, hU, hl, hc⟩
    obtain ⟨t, _, h2, h3⟩ := hU.at ((hc b hd).trans hb)
    apply step_err U b t h2
    rcases Nat.eq_zero_or_pos n with rfl | hn
    · exact invert_empty getrf getri h3
    · refine (invert_block getrf getri (by omega) h3 (lapack n f (by omega) (List.mem_of_getElem? hb)) (lapack' n)).2 ?_
      rcases h with rfl | h
      · omega
      · exact h
  · rintro done i U hd hi ⟨cur, hU, hl, hc⟩
    have hi := List.mem_range.1 hi
    obtain ⟨m, g, hg⟩ : ∃ m g, as[i]? = some (m, g) := ⟨as[i].1, as[i].2, by simp [hi]⟩
    have hci := (hc i hd).trans hg
    obtain ⟨t, _, h2, h3⟩ := hU.at hci
    by_cases hm : m = 0
    · subst hm
      exact .inl (step_err U i t h2 (invert_empty getrf getri h3))
    · have one := invert_block getrf getri hm h3 (lapack m g hm (List.mem_of_getElem? hg)) (lapack' m)
      by_cases hdet : (blockPart (m, g)).det = 0
      · exact .inl (step_err U i t h2 (one.2 hdet))
      · obtain ⟨t', k, e1, e2, _⟩ := one.1 hdet
        refine .inr ⟨{ U with blocks := U.blocks.set i t' }, ?_, cur.set i (m, k), hU.setBlock (f := g) hci e2, by simpa using hl, ?_⟩
        · unfold blockInvertStep
          rw [h2]
          simp only [Outcome.ok_bind, e1]
          rfl
        · intro j hj
          simp only [List.mem_append, List.mem_singleton, not_or] at hj
          rw [List.getElem?_set_ne (Ne.symm hj.2)]
          exact hc j hj.1

/-- **C115 (partial).** `invert(&A)` of a block tensor without empty blocks: if the matrix is regular, A is replaced by its
inverse (with the same blocks); if it is singular, the program stops with a message; in every order of the blocks.  The LAPACK
contracts are assumed for the blocks.  Missing: empty blocks (`C115_empty_refuted`). -/
theorem C115_invert_partial (getrf : GetrfFn R) (getri : GetriFn R) (A : Block R) (as : Blocks R) (hA : A.Models 2 as)
    (N : Nat) (hN : N = as.sizes.sum) (h0 : 0 ∉ as.sizes) (sched : List Nat) (hs : sched.Perm (List.range as.length))
    (lapack : ∀ n f, (n, f) ∈ as → IsLU n n (crop n n (tr fun i j => f [i, j])) (getrf n n (crop n n (tr fun i j => f [i, j]))))
    (lapack' : ∀ n F p, IsGetri n F p (getri n F p)) :
    ((as.matrix N).det ≠ 0 → ∃ A' xs, blockInvert getrf getri sched A = .ok A' ∧ A'.Models 2 xs ∧ xs.sizes = as.sizes ∧
      xs.matrix N * as.matrix N = 1 ∧ as.matrix N * xs.matrix N = 1) ∧
    ((as.matrix N).det = 0 → (blockInvert getrf getri sched A).isError = true) := by
  have pos : ∀ (b n : Nat) (f : List Nat → R), as[b]? = some (n, f) → n ≠ 0 := fun b n f h => by
    rintro rfl
    exact absurd (List.mem_map.2 ⟨(0, f), List.mem_of_getElem? h, rfl⟩) h0
  -- a singular block makes the matrix singular
  have sing : ∀ (b n : Nat) (f : List Nat → R), as[b]? = some (n, f) → (blockPart (n, f)).det = 0 → (as.matrix N).det = 0 := by
    intro b n f hf hd
    obtain ⟨v, hv, e⟩ := Matrix.exists_mulVec_eq_zero_iff.2 hd
    obtain ⟨u, hu, e'⟩ := eigenvalue_part hN hf (x := 0) ⟨v, hv, by rw [e, zero_smul]⟩
    exact Matrix.exists_mulVec_eq_zero_iff.1 ⟨u, hu, by rw [e', zero_smul]⟩
  have good : (∀ (b n : Nat) (f : List Nat → R), as[b]? = some (n, f) → (blockPart (n, f)).det ≠ 0) →
      ∃ A' xs, blockInvert getrf getri sched A = .ok A' ∧ A'.Models 2 xs ∧ xs.sizes = as.sizes ∧
        xs.matrix N * as.matrix N = 1 ∧ as.matrix N * xs.matrix N = 1 := by
    intro hd
    obtain ⟨A', xs, e, m, hl, hV⟩ := blockLoop_rel hA (V := fun i p => ∀ n f, as[i]? = some (n, f) → ∃ g, p = (n, g) ∧
        blockPart (n, g) * blockPart (n, f) = 1 ∧ blockPart (n, f) * blockPart (n, g) = 1)
      (step := blockInvertStep getrf getri) (by
        intro U cur i hi hU hc
        have hf : as[i]? = some (as[i].1, as[i].2) := by simp [hi]
        obtain ⟨t, _, h2, h3⟩ := hU.at hc
        obtain ⟨t', g, i1, i2, i3⟩ := (invert_block getrf getri (pos i _ _ hf) h3 (lapack _ _ (List.mem_of_getElem? hf))
          (lapack' _)).1 (hd i _ _ hf)
        refine ⟨{ U with blocks := U.blocks.set i t' }, (as[i].1, g), ?_, hU.setBlock (f := as[i].2) hc i2, ?_⟩
        · unfold blockInvertStep
          rw [h2]
          simp only [Outcome.ok_bind, i1]
          rfl
        · intro n f hf'
          rw [hf] at hf'
          obtain ⟨rfl, rfl⟩ := Prod.mk.inj (Option.some.inj hf')
          exact ⟨g, rfl, i3⟩) hs
    have hx : ∀ (b n : Nat) (f : List Nat → R), as[b]? = some (n, f) → ∃ g, xs[b]? = some (n, g) ∧
        blockPart (n, g) * blockPart (n, f) = 1 ∧ blockPart (n, f) * blockPart (n, g) = 1 := by
      intro b n f hf
      obtain ⟨p, h1, h2⟩ := hV b (by
        by_contra c
        rw [List.getElem?_eq_none (by omega)] at hf
        simp at hf)
      obtain ⟨g, rfl, h3⟩ := h2 n f hf
      exact ⟨g, h1, h3⟩
    have hsz := sizes_of_parts hl fun b n f hf => (hx b n f hf).imp fun g h => h.1
    obtain ⟨os, ho, hO⟩ := blocks_of as fun p => 1
    have one' : os.matrix N = 1 := matrix_one (by rw [ho]; exact hN) fun b n f hf => by
      obtain ⟨g, hg⟩ := same_size ho hf
      obtain ⟨g', h1, h2⟩ := hO b n g hg
      rw [hf] at h1
      obtain ⟨-, rfl⟩ := Prod.mk.inj (Option.some.inj h1)
      exact h2
    have mul : ∀ (b n : Nat) (f : List Nat → R), as[b]? = some (n, f) → ∀ g k, xs[b]? = some (n, g) → os[b]? = some (n, k) →
        blockPart (n, g) * blockPart (n, f) = blockPart (n, k) ∧ blockPart (n, f) * blockPart (n, g) = blockPart (n, k) := by
      intro b n f hf g k hg hk
      obtain ⟨g', h1, h2, h3⟩ := hx b n f hf
      rw [hg] at h1
      obtain ⟨-, rfl⟩ := Prod.mk.inj (Option.some.inj h1)
      obtain ⟨k', h4, h5⟩ := hO b n f hf
      rw [hk] at h4
      obtain ⟨-, rfl⟩ := Prod.mk.inj (Option.some.inj h4)
      exact ⟨h2.trans h5.symm, h3.trans h5.symm⟩
    refine ⟨A', xs, e, m, hsz, ?_, ?_⟩
    · rw [← one']
      exact matrix_mul (by rw [hsz]; exact hN) hsz.symm (ho.trans hsz.symm) fun b n g f k hg hf hk => (mul b n f hf g k hg hk).1
    · rw [← one']
      exact matrix_mul hN hsz ho fun b n f g k hf hg hk => (mul b n f hf g k hg hk).2
  refine ⟨fun hd => good fun b n f hf h => hd (sing b n f hf h), fun hd => ?_⟩
  have : ∃ (b n : Nat) (f : List Nat → R), as[b]? = some (n, f) ∧ (blockPart (n, f)).det = 0 := by
    by_contra c
    obtain ⟨A', xs, _, _, _, h1, _⟩ := good fun b n f hf h => c ⟨b, n, f, hf, h⟩
    have := congrArg Matrix.det h1
    rw [Matrix.det_mul, hd, mul_zero, Matrix.det_one] at this
    exact zero_ne_one this
  obtain ⟨b, n, f, hf, hd⟩ := this
  exact blockInvert_fails getrf getri hA hs (fun n f _ h => lapack n f h) lapack' hf (.inr hd)

/-- **C115 (refuted for empty blocks).** If one block is empty, `invert` stops with an error in every order, also when the matrix
is regular: unlike the other functions of block tensors it does not skip empty blocks. -/
theorem C115_empty_refuted (getrf : GetrfFn R) (getri : GetriFn R) (A : Block R) (as : Blocks R) (hA : A.Models 2 as)
    (h0 : 0 ∈ as.sizes) (sched : List Nat) (hs : sched.Perm (List.range as.length))
    (lapack : ∀ n f, n ≠ 0 → (n, f) ∈ as →
      IsLU n n (crop n n (tr fun i j => f [i, j])) (getrf n n (crop n n (tr fun i j => f [i, j]))))
    (lapack' : ∀ n F p, IsGetri n F p (getri n F p)) : (blockInvert getrf getri sched A).isError = true := by
  obtain ⟨⟨n, f⟩, hp, e⟩ := List.mem_map.1 h0
  obtain ⟨b, hb⟩ := List.getElem?_of_mem hp
  exact blockInvert_fails getrf getri hA hs lapack lapack' hb (.inl e)

end

/-- The blocks of a symmetric matrix are symmetric. -/
theorem part_symm [Zero R] {as : Blocks R} {N : Nat} (hN : N = as.sizes.sum) (hM : (as.matrix N).IsSymm) :
    ∀ (b n : Nat) (f : List Nat → R), as[b]? = some (n, f) → (blockPart (n, f)).IsSymm := by
  intro b n f hf
  funext x y
  have := congrFun (congrFun hM.eq ⟨tileStart as.sizes b + x.1, by rw [hN]; exact part_bound hf x.2⟩)
    ⟨tileStart as.sizes b + y.1, by rw [hN]; exact part_bound hf y.2⟩
  simp only [Matrix.transpose_apply, Blocks.matrix] at this
  rw [elem_part hf y.2 x.2, elem_part hf x.2 y.2] at this
  exact this

/-! ### C116 -/

section
variable [CommRing R] [LinearOrder R]

/-- What one iteration of `syev` leaves in block i and in its part of W. -/
def SyevPart (as : Blocks R) (fW : List Nat → R) (i : Nat) (p : Nat × (List Nat → R)) : Prop :=
  ∀ n f, as[i]? = some (n, f) → ∃ g, p = (n, g) ∧
    (∀ k l : Fin n, k ≤ l → fW [tileStart as.sizes i + k.1] ≤ fW [tileStart as.sizes i + l.1]) ∧
    (∀ k l : Fin n, blockPart (n, g) k ⬝ᵥ blockPart (n, g) l = if k = l then 1 else 0) ∧
    ∀ k : Fin n, blockPart (n, f) *ᵥ blockPart (n, g) k = fW [tileStart as.sizes i + k.1] • blockPart (n, g) k

omit [CommRing R] [LinearOrder R] in
/-- The part of a vector that belongs to a block. -/
theorem vector_part {V : Strided R} {B : Block R} {bs : Blocks R} (hB : B.Models 2 bs) (wV : V.WF)
    (dV : V.dims = [bs.sizes.sum]) (sV : V.strides = [1]) {i n : Nat} {f : List Nat → R} (hi : bs[i]? = some (n, f))
    (h0 : n ≠ 0) :
    ∃ r v, B.ranges[i]? = some r ∧ V.ranges [r] = .ok v ∧ v.dims = [n] ∧ v.strides = [1] ∧
      V.ViewOf v fun j => j.map (tileStart bs.sizes i + ·) := by
  have hil : i < bs.length := by
    by_contra c
    rw [List.getElem?_eq_none (by omega)] at hi
    simp at hi
  have hn := getD_sizes hi
  simp only at hn
  have hend := tileStart_end (ss := bs.sizes) (t := i) (by rw [sizes_length]; exact hil)
  have hB' : BoxIn V.dims (List.replicate 1 (tileStart bs.sizes i, tileStart bs.sizes i + bs.sizes.getD i 0)) := by
    rw [dV]; exact boxIn_replicate (r := 1) (by omega) (by omega) hend
  have hN : Denotes V.dims (List.replicate 1 (((tileStart bs.sizes i : Nat) : Int),
      ((tileStart bs.sizes i + bs.sizes.getD i 0 : Nat) : Int)))
      (List.replicate 1 (tileStart bs.sizes i, tileStart bs.sizes i + bs.sizes.getD i 0)) := by
    rw [dV]; exact denotes_replicate (r := 1)
  obtain ⟨v, v1, v2, v3⟩ := boxView wV hB'
  have dv : v.dims = [n] := by rw [v2]; simp [← hn]
  refine ⟨_, v, hB.range hil, ?_, dv, by rw [v2]; exact sV, v3.data, v3.len, fun j hj => ?_, fun a b ha hb e => ?_⟩
  · have e := (ranges_eq hN hB').trans v1
    simpa using e
  · have := v3.addr j hj
    rw [List.map_replicate, shift_replicate (by rw [hj.length, dv]; rfl)] at this
    exact this
  · obtain ⟨x, rfl, _⟩ := inBox_one.1 (dv ▸ ha)
    obtain ⟨y, rfl, _⟩ := inBox_one.1 (dv ▸ hb)
    simp only [List.map_cons, List.map_nil, List.cons.injEq, and_true, Nat.add_left_cancel_iff] at e
    rw [e]

/-- **C116 (partial).** `syev(&A, &W)` of a block tensor with a symmetric matrix: the rows of A are orthonormal eigenvectors, row k
for `W(k)`; A keeps its blocks; the eigenvalues of each block ascend; nothing outside A and W changes; in every order of the
blocks, with empty blocks too.  Missing: the eigenvalues of different blocks are not in ascending order
(`C116_order_refuted`). -/
theorem C116_syev_partial (syev : SyevFn R) (A : Block R) (as : Blocks R) (hA : A.Models 2 as) (N : Nat) (hN : N = as.sizes.sum)
    (W : Strided R) (wW : W.WF) (dW : W.dims = [N]) (sW : W.strides = [1]) (hM : (as.matrix N).IsSymm)
    (sched : List Nat) (hs : sched.Perm (List.range as.length))
    (lapack : ∀ n f, n ≠ 0 → (n, f) ∈ as → ∀ F, mat n n F = blockPart (n, f) → IsSyev n F (syev true n F)) :
    ∃ A' W' vs, ∃ w : Fin N → R, blockSyev syev true sched A W = .ok (A', W') ∧ A'.Models 2 vs ∧ vs.sizes = as.sizes ∧
      HoldsVec W' w ∧ W.Frame W' ∧
      (∀ k l, vs.matrix N k ⬝ᵥ vs.matrix N l = if k = l then 1 else 0) ∧
      (∀ k, as.matrix N *ᵥ vs.matrix N k = w k • vs.matrix N k) ∧
      ∀ b k l, InInterval as.sizes b k.1 → InInterval as.sizes b l.1 → k ≤ l → w k ≤ w l := by
  have : Inhabited R := ⟨0⟩
  obtain ⟨fW, hW⟩ := exists_represents wW
  have symm := part_symm hN hM
  obtain ⟨⟨A', W'⟩, e, cur, fW', hU, fr, hr, hl, hc⟩ := foldlM_inv
    (fun done (s : Block R × Strided R) => ∃ cur fW, s.1.Models 2 cur ∧ W.Frame s.2 ∧ s.2.Represents fW ∧ cur.length = as.length ∧
      ∀ i < as.length, if i ∈ done then ∃ p, cur[i]? = some p ∧ SyevPart as fW i p else cur[i]? = as[i]?)
    (List.range as.length) (step := blockSyevStep syev true) (by
      rintro done i ⟨U, X⟩ hd hi ⟨cur, fX, hU, fr, hr, hl, hc⟩
      simp only at hU fr hr
      have hi := List.mem_range.1 hi
      obtain ⟨n, f, hf⟩ : ∃ n f, as[i]? = some (n, f) := ⟨as[i].1, as[i].2, by simp [hi]⟩
      have hci : cur[i]? = some (n, f) := by
        have := hc i hi
        rw [if_neg hd] at this
        rw [this, hf]
      have hsz : cur.sizes = as.sizes := sizes_of_parts hl fun b m g hg => by
        have hbl : b < as.length := by
          by_contra c
          rw [List.getElem?_eq_none (by omega)] at hg
          simp at hg
        have := hc b hbl
        by_cases hb : b ∈ done
        · rw [if_pos hb] at this
          obtain ⟨p, h1, h2⟩ := this
          obtain ⟨g', rfl, _⟩ := h2 m g hg
          exact ⟨g', h1⟩
        · rw [if_neg hb, hg] at this
          exact ⟨g, this⟩
      obtain ⟨t, _, h2, h3⟩ := hU.at hci
      have d0 : t.dim 0 = n := h3.dim (by decide)
      by_cases hn : n = 0
      · subst hn
        refine ⟨(U, X), ?_, cur, fX, hU, fr, hr, hl, fun j hj => ?_⟩
        · unfold blockSyevStep
          rw [h2]
          simp only [Outcome.ok_bind]
          rw [if_pos d0]
          rfl
        · by_cases hji : j = i
          · subst hji
            rw [if_pos (by simp)]
            refine ⟨_, hci, fun m g hg => ?_⟩
            rw [hf] at hg
            obtain ⟨rfl, rfl⟩ := Prod.mk.inj (Option.some.inj hg)
            exact ⟨f, rfl, fun k => k.elim0, fun k => k.elim0, fun k => k.elim0⟩
          · have := hc j hj
            simpa [hji] using this
      · have wX : X.WF := fr.wf wW
        have dX : X.dims = [cur.sizes.sum] := by rw [fr.dims, dW, hN, hsz]
        have sX : X.strides = [1] := by rw [fr.strides, sW]
        obtain ⟨r, v, r1, r2, r3, r4, r5⟩ := vector_part hU wX dX sX hci hn
        obtain ⟨t', v', V, w, q1, q2, q3, q4, q5, q6, q7, q8⟩ := C106_syev_partial syev n n t v (blockPart (n, f)) (holds_part h3)
          (symm i n f hf) hn (block_strides h3) (Nat.le_refl n) (r5.wf wX) r3 r4 (lapack n f hn (List.mem_of_getElem? hf))
        obtain ⟨g, rfl⟩ := exists_mat V
        obtain ⟨w, rfl⟩ := exists_vec w
        have hb2 := block_of_holds (isTensor_of_frame h3.1 q4) q2
        have hv' : v'.Represents fun j => w (j.getD 0 0) := by
          intro j hj
          rw [q3.dims] at hj
          obtain ⟨x, rfl, hx⟩ := inBox_one.1 hj
          exact q3.elems ⟨x, hx⟩
        let h : List Nat → R := fun l => if InInterval as.sizes i (l.getD 0 0) then w (l.getD 0 0 - tileStart as.sizes i) else fX l
        have hh : ∀ x, x < n → h [tileStart as.sizes i + x] = w x := fun x hx => by
          simp only [h, List.getD_cons_zero]
          rw [if_pos (part_interval hf hx)]
          congr 1
          omega
        obtain ⟨p1, p2⟩ := viewFrame_parent (h := h) wX hr r5 q5 hv' (by
            intro j hj
            rw [r3] at hj
            obtain ⟨x, rfl, hx⟩ := inBox_one.1 hj
            simp only [List.map_cons, List.map_nil, hsz]
            rw [hh x hx]
            rfl) (by
            intro l hl hne
            rw [dX] at hl
            obtain ⟨x, rfl, hx⟩ := inBox_one.1 hl
            simp only [h, List.getD_cons_zero]
            rw [if_neg]
            intro hin
            refine hne [x - tileStart as.sizes i] ?_ ?_
            · rw [r3]
              have h1 := hin.1
              have h2 := hin.2
              rw [getD_sizes hf] at h2
              exact ⟨by simp only at h2; omega, trivial⟩
            · have := hin.1
              simp only [List.map_cons, List.map_nil, hsz]
              congr 1
              omega)
        refine ⟨({ U with blocks := U.blocks.set i t' }, { X with data := v'.data }), ?_, cur.set i (n, fun l => g (l.getD 0 0) (l.getD 1 0)), h,
          hU.setBlock (f := f) hci hb2, fr.trans p1, p2, by simpa using hl, fun j hj => ?_⟩
        · unfold blockSyevStep
          simp only
          rw [h2]
          simp only [Outcome.ok_bind]
          rw [if_neg (by rw [d0]; exact hn), r1]
          simp only
          rw [r2]
          simp only [Outcome.ok_bind, q1]
          rfl
        · by_cases hji : j = i
          · subst hji
            rw [if_pos (by simp)]
            refine ⟨_, by rw [List.getElem?_set_self (by omega)], fun m g' hg => ?_⟩
            rw [hf] at hg
            obtain ⟨rfl, rfl⟩ := Prod.mk.inj (Option.some.inj hg)
            refine ⟨_, rfl, fun k l hkl => ?_, fun k l => q7 k l, fun k => ?_⟩
            · rw [hh _ k.2, hh _ l.2]; exact q6 k l hkl
            · rw [hh _ k.2]; exact q8 k
          · have := hc j hj
            rw [List.getElem?_set_ne (Ne.symm hji)]
            by_cases hjd : j ∈ done
            · rw [if_pos hjd] at this
              rw [if_pos (by simp [hjd])]
              obtain ⟨p, s1, s2⟩ := this
              refine ⟨p, s1, fun m g' hg => ?_⟩
              obtain ⟨g2, rfl, c1, c2, c3⟩ := s2 m g' hg
              have same : ∀ k : Fin m, h [tileStart as.sizes j + k.1] = fX [tileStart as.sizes j + k.1] := fun k => by
                simp only [h, List.getD_cons_zero]
                rw [if_neg]
                intro hin
                exact hji (interval_unique (part_interval hg k.2) hin)
              refine ⟨g2, rfl, fun k l hkl => ?_, c2, fun k => ?_⟩
              · rw [same, same]; exact c1 k l hkl
              · rw [same]; exact c3 k
            · rw [if_neg hjd] at this
              rw [if_neg (by simp [hjd, hji])]
              exact this)
    sched [] (A, W) ⟨as, fW, hA, Strided.Frame.refl W, hW, rfl, fun i _ => by simp⟩
    (by simpa using hs.nodup_iff.2 List.nodup_range) (fun i hi => hs.mem_iff.1 hi)
  have hV : ∀ (b n : Nat) (f : List Nat → R), as[b]? = some (n, f) → ∃ g, cur[b]? = some (n, g) ∧
      (∀ k l : Fin n, k ≤ l → fW' [tileStart as.sizes b + k.1] ≤ fW' [tileStart as.sizes b + l.1]) ∧
      (∀ k l : Fin n, blockPart (n, g) k ⬝ᵥ blockPart (n, g) l = if k = l then 1 else 0) ∧
      ∀ k : Fin n, blockPart (n, f) *ᵥ blockPart (n, g) k = fW' [tileStart as.sizes b + k.1] • blockPart (n, g) k := by
    intro b n f hf
    have hbl : b < as.length := by
      by_contra c
      rw [List.getElem?_eq_none (by omega)] at hf
      simp at hf
    have := hc b hbl
    rw [if_pos (by rw [List.nil_append, hs.mem_iff]; exact List.mem_range.2 hbl)] at this
    obtain ⟨p, h1, h2⟩ := this
    obtain ⟨g, rfl, h3⟩ := h2 n f hf
    exact ⟨g, h1, h3⟩
  have hsz := sizes_of_parts hl fun b n f hf => (hV b n f hf).imp fun g h => h.1
  obtain ⟨o1, o2⟩ := matrix_eigen hN hsz (fun i => fW' [i]) (fun b n g hg k l => by
      obtain ⟨f, hf⟩ := same_size hsz hg
      obtain ⟨g', h1, _, h2, _⟩ := hV b n f hf
      rw [hg] at h1
      obtain ⟨-, rfl⟩ := Prod.mk.inj (Option.some.inj h1)
      exact h2 k l) (fun b n f g hf hg k => by
      obtain ⟨g', h1, _, _, h2⟩ := hV b n f hf
      rw [hg] at h1
      obtain ⟨-, rfl⟩ := Prod.mk.inj (Option.some.inj h1)
      exact h2 k)
  refine ⟨A', W', cur, fun k => fW' [k.1], e, hU, hsz, ⟨by rw [fr.dims]; exact dW, fun k => hr [k.1] (by
    rw [fr.dims]; simp only [dW]; exact ⟨k.2, trivial⟩)⟩, fr, o1, o2, ?_⟩
  intro b k l hk hl' hkl
  have hb := interval_lt hk
  rw [sizes_length] at hb
  have hf : as[b]? = some (as[b].1, as[b].2) := by simp [hb]
  obtain ⟨g, _, h1, _⟩ := hV b _ _ hf
  have n1 := getD_sizes hf
  have k1 := hk.1; have k2 := hk.2; have l1 := hl'.1; have l2 := hl'.2
  have hkl' : k.1 ≤ l.1 := hkl
  have := h1 ⟨k.1 - tileStart as.sizes b, by omega⟩ ⟨l.1 - tileStart as.sizes b, by omega⟩ (by
    change k.1 - _ ≤ l.1 - _; omega)
  simpa [Nat.add_sub_cancel' k1, Nat.add_sub_cancel' l1] using this

/-- Two blocks with one element each. -/
def twoBlocks (x y : R) : Blocks R := [(1, fun _ => x), (1, fun _ => y)]

omit [LinearOrder R] in
theorem twoBlocks_matrix (x y : R) : (twoBlocks x y).matrix 2 = diagonal ![x, y] := by
  funext i j
  fin_cases i <;> fin_cases j <;> rfl

/-- **C116 (refuted: order).** For the blocks (x) and (y) the eigenvalues are returned as x, y, in that order, also when y < x:
the documentation and the dense function promise ascending order. -/
theorem C116_order_refuted (syev : SyevFn R) (x y : R) (A : Block R) (hA : A.Models 2 (twoBlocks x y))
    (W : Strided R) (wW : W.WF) (dW : W.dims = [2]) (sW : W.strides = [1]) (sched : List Nat) (hs : sched.Perm [0, 1])
    (lapack : ∀ n f, n ≠ 0 → (n, f) ∈ twoBlocks x y → ∀ F, mat n n F = blockPart (n, f) → IsSyev n F (syev true n F)) :
    ∃ A' W', ∃ w : Fin 2 → R, blockSyev syev true sched A W = .ok (A', W') ∧ HoldsVec W' w ∧ w 0 = x ∧ w 1 = y := by
  obtain ⟨A', W', vs, w, e, m, sz, hw, -, o1, o2, -⟩ := C116_syev_partial syev A _ hA 2 rfl W wW dW sW
    (by rw [twoBlocks_matrix]; exact Matrix.isSymm_diagonal _) sched hs lapack
  have off : ∀ k l : Fin 2, k ≠ l → vs.matrix 2 k l = 0 := by
    intro k l hkl
    have hv : vs = [(1, (vs.getD 0 (1, fun _ => 0)).2), (1, (vs.getD 1 (1, fun _ => 0)).2)] := by
      match vs, sz with
      | [(a, f), (b, g)], sz =>
        simp only [Blocks.sizes, twoBlocks, List.map_cons, List.map_nil, List.cons.injEq, and_true] at sz
        obtain ⟨rfl, rfl⟩ := sz
        rfl
      | [], sz => simp [Blocks.sizes, twoBlocks] at sz
      | [_], sz => simp [Blocks.sizes, twoBlocks] at sz
      | _ :: _ :: _ :: _, sz => simp [Blocks.sizes, twoBlocks] at sz
    rw [hv]
    fin_cases k <;> fin_cases l <;> first | rfl | exact absurd rfl hkl
  have key : ∀ k : Fin 2, w k = ![x, y] k := by
    intro k
    have h1 := o1 k k
    rw [if_pos rfl] at h1
    have h2 := congrFun (o2 k) k
    rw [twoBlocks_matrix, Matrix.mulVec_diagonal] at h2
    simp only [Pi.smul_apply, smul_eq_mul] at h2
    have h3 : vs.matrix 2 k k * vs.matrix 2 k k = 1 := by
      rw [← h1, dotProduct, Finset.sum_eq_single k]
      · intro l _ hl
        rw [off k l (Ne.symm hl), zero_mul]
      · simp
    calc w k = w k * vs.matrix 2 k k * vs.matrix 2 k k := by rw [mul_assoc, h3, mul_one]
      _ = _ := by rw [← h2, mul_assoc, h3, mul_one]
  exact ⟨A', W', w, e, hw, key 0, key 1⟩

end

/-! ### C117 -/

section
variable [CommRing R] [LinearOrder R] [IsStrictOrderedRing R] [BEq R] [LawfulBEq R]

omit [CommRing R] [LinearOrder R] [IsStrictOrderedRing R] [BEq R] [LawfulBEq R] in
theorem dims_of_blocks {l : List (Strided R)} {as : Blocks R} (h : List.Forall₂ (HoldsBlock 2) l as) :
    l.map (·.dim 0) = as.sizes := by
  induction h with
  | nil => rfl
  | cons h1 _ ih =>
    rw [List.map_cons, ih, HoldsBlock.dim (by decide) h1]
    rfl

/-- `pow` of a block tensor, block by block. -/
theorem blockPow_ok (syev : SyevFn R) (rpow : R → R → Option R) (zb : Nat → Nat → R) (z : Nat → R) (A : Block R) (as : Blocks R)
    (hA : A.Models 2 as) {N : Nat} (hN : N = as.sizes.sum) (alpha cutoff : R) (hM : (as.matrix N).IsSymm)
    (sched : List Nat) (hs : sched.Perm (List.range as.length))
    (lapack : ∀ n f, n ≠ 0 → (n, f) ∈ as → ∀ F, mat n n F = blockPart (n, f) → IsSyev n F (syev true n F)) :
    ∃ P ps, blockPow syev rpow zb z sched A alpha cutoff = .ok P ∧ P.Models 2 ps ∧ ps.sizes = as.sizes ∧
      ∀ (b n : Nat) (f : List Nat → R), as[b]? = some (n, f) → ∃ g, ps[b]? = some (n, g) ∧ (n ≠ 0 →
        ∃ radius, ∃ (V : Matrix (Fin n) (Fin n) R) (w : Fin n → R), IsRadius (blockPart (n, f)) radius ∧ Vᵀ * V = 1 ∧
          blockPart (n, f) * V = V * diagonal w ∧
          blockPart (n, g) = V * diagonal (fun k => powValue rpow alpha cutoff radius (w k)) * Vᵀ) := by
  have symm := part_symm hN hM
  have hd := dims_of_blocks hA.blocks
  obtain ⟨-, os, hO, sO⟩ := C34_construct zb 2 (by decide) as.sizes
  have ol : os.length = as.length := by simpa [Blocks.sizes] using congrArg List.length sO
  obtain ⟨P, ps, e, m, hl, hV⟩ := blockLoop_rel hO (V := fun i p => ∀ n f, as[i]? = some (n, f) → ∃ g, p = (n, g) ∧ (n ≠ 0 →
        ∃ radius, ∃ (V : Matrix (Fin n) (Fin n) R) (w : Fin n → R), IsRadius (blockPart (n, f)) radius ∧ Vᵀ * V = 1 ∧
          blockPart (n, f) * V = V * diagonal w ∧
          blockPart (n, g) = V * diagonal (fun k => powValue rpow alpha cutoff radius (w k)) * Vᵀ))
      (step := blockPowStep syev rpow z A alpha cutoff) (by
        intro U cur i hi hU hc
        rw [ol] at hi
        obtain ⟨n, f, hf⟩ : ∃ n f, as[i]? = some (n, f) := ⟨as[i].1, as[i].2, by simp [hi]⟩
        obtain ⟨f', hf'⟩ := same_size sO.symm hf
        have hc' : cur[i]? = some (n, f') := by rw [hc, ← hf']; simp [ol, hi]
        obtain ⟨t, _, h2, h3⟩ := hA.at hf
        obtain ⟨o, _, o2, o3⟩ := hU.at hc'
        have d0 : t.dim 0 = n := h3.dim (by decide)
        by_cases hn : n = 0
        · subst hn
          refine ⟨U, (0, f'), ?_, ?_, fun n' g hg => ?_⟩
          · unfold blockPowStep
            rw [h2]
            simp only [Outcome.ok_bind]
            rw [if_pos d0]
            rfl
          · have : cur.set i (0, f') = cur := by
              apply List.ext_getElem?
              intro j
              by_cases hj : i = j
              · subst hj
                rw [List.getElem?_set_self (by
                  by_contra c
                  rw [List.getElem?_eq_none (by omega)] at hc'
                  simp at hc'), hc']
              · rw [List.getElem?_set_ne hj]
            rw [this]
            exact hU
          · rw [hf] at hg
            obtain ⟨rfl, rfl⟩ := Prod.mk.inj (Option.some.inj hg)
            exact ⟨f', rfl, fun h => absurd rfl h⟩
        · obtain ⟨P, radius, V, w, e1, e2, e3, e4, e5⟩ := pow_diagonal syev rpow z n t alpha cutoff (blockPart (n, f)) h3.1 (holds_part h3)
            (symm i n f hf) hn (lapack n f hn (List.mem_of_getElem? hf))
          obtain ⟨P', _, _, e1', wP, _⟩ := C107_eigenvectors_partial syev rpow z n t alpha cutoff (blockPart (n, f)) h3.1 (holds_part h3)
            (symm i n f hf) hn (lapack n f hn (List.mem_of_getElem? hf))
          rw [e1] at e1'
          obtain rfl := Outcome.ok.inj e1'
          obtain ⟨g, hg⟩ := exists_mat (V * diagonal (fun k => powValue rpow alpha cutoff radius (w k)) * Vᵀ)
          rw [hg] at e5
          have hb := block_of_holds wP e5
          refine ⟨{ U with blocks := U.blocks.set i P }, _, ?_, hU.setBlock (f := f') hc' hb, fun n' f2 hf2 => ?_⟩
          · unfold blockPowStep
            rw [h2]
            simp only [Outcome.ok_bind]
            rw [if_neg (by rw [d0]; exact hn), e1]
            simp only [Outcome.ok_bind]
            rw [o2]
            simp only [Outcome.ok_bind]
            rw [assign_block z (r := 2) (by decide) (.inr ⟨o3.1, by rw [o3.2.1]; rfl⟩) wP (by rw [e5.dims]; rfl)]
            rfl
          · rw [hf] at hf2
            obtain ⟨rfl, rfl⟩ := Prod.mk.inj (Option.some.inj hf2)
            exact ⟨_, rfl, fun _ => ⟨radius, V, w, e2, e3, e4, hg.symm⟩⟩) (sched := sched) (by rw [ol]; exact hs)
  rw [ol] at hl hV
  have hx : ∀ (b n : Nat) (f : List Nat → R), as[b]? = some (n, f) → ∃ g, ps[b]? = some (n, g) ∧ (n ≠ 0 →
        ∃ radius, ∃ (V : Matrix (Fin n) (Fin n) R) (w : Fin n → R), IsRadius (blockPart (n, f)) radius ∧ Vᵀ * V = 1 ∧
          blockPart (n, f) * V = V * diagonal w ∧
          blockPart (n, g) = V * diagonal (fun k => powValue rpow alpha cutoff radius (w k)) * Vᵀ) := by
    intro b n f hf
    obtain ⟨p, h1, h2⟩ := hV b (by
      by_contra c
      rw [List.getElem?_eq_none (by omega)] at hf
      simp at hf)
    obtain ⟨g, rfl, h3⟩ := h2 n f hf
    exact ⟨g, h1, h3⟩
  refine ⟨P, ps, ?_, m, sizes_of_parts hl fun b n f hf => (hx b n f hf).imp fun g h => h.1, hx⟩
  unfold blockPow
  rw [hd]
  exact e

/-- **C117 (partial).** `pow(A, alpha, cutoff)` of a block tensor with a symmetric matrix has the same blocks, and every eigenvector
of A for x is one of the result for `x^alpha` (0 if that is not finite), provided that alpha is not negative or no eigenvalue is
below cutoff times another one; in every order of the blocks, with empty blocks too.  Missing: the cutoff
(`C117_cutoff_refuted`). -/
theorem C117_eigenvectors_partial (syev : SyevFn R) (rpow : R → R → Option R) (zb : Nat → Nat → R) (z : Nat → R) (A : Block R) (as : Blocks R)
    (hA : A.Models 2 as) (N : Nat) (hN : N = as.sizes.sum) (alpha cutoff : R) (hM : (as.matrix N).IsSymm)
    (hc : 0 ≤ alpha ∨ ∀ x y, IsEigenvalue (as.matrix N) x → IsEigenvalue (as.matrix N) y → cutoff * |y| ≤ |x|)
    (sched : List Nat) (hs : sched.Perm (List.range as.length))
    (lapack : ∀ n f, n ≠ 0 → (n, f) ∈ as → ∀ F, mat n n F = blockPart (n, f) → IsSyev n F (syev true n F)) :
    ∃ P ps, blockPow syev rpow zb z sched A alpha cutoff = .ok P ∧ P.Models 2 ps ∧ ps.sizes = as.sizes ∧
      ∀ v x, as.matrix N *ᵥ v = x • v → ps.matrix N *ᵥ v = (rpow x alpha).getD 0 • v := by
  obtain ⟨P, ps, e, m, sz, hx⟩ := blockPow_ok syev rpow zb z A as hA hN alpha cutoff hM sched hs lapack
  refine ⟨P, ps, e, m, sz, fun v x hv => ?_⟩
  obtain ⟨u, rfl⟩ := exists_vec v
  change _ = fun i : Fin N => x * u i.1 at hv
  change _ = fun i : Fin N => (rpow x alpha).getD 0 * u i.1
  rw [mulVec_iff (u := u) (w := fun i => x * u i) hN] at hv
  rw [mulVec_iff (u := u) (w := fun i => (rpow x alpha).getD 0 * u i) (by rw [sz]; exact hN)]
  intro b n g hg
  obtain ⟨f, hf⟩ := same_size sz hg
  obtain ⟨g', hg', h⟩ := hx b n f hf
  rw [hg] at hg'
  obtain ⟨-, rfl⟩ := Prod.mk.inj (Option.some.inj hg')
  rw [sz]
  by_cases hn : n = 0
  · subst hn
    funext k
    exact k.elim0
  obtain ⟨radius, V, w, h1, h2, h3, h4⟩ := h hn
  have hb : blockPart (n, f) *ᵥ (fun y : Fin n => u (tileStart as.sizes b + y.1)) = x • fun y : Fin n => u (tileStart as.sizes b + y.1) :=
    hv b n f hf
  rw [h4, diag_apply h2 h3 _ hb]
  by_cases h0 : (fun y : Fin n => u (tileStart as.sizes b + y.1)) = 0
  · rw [h0, smul_zero]
    funext y
    have := congrFun h0 y
    simp only [Pi.zero_apply] at this ⊢
    rw [this, mul_zero]
  have hx : IsEigenvalue (as.matrix N) x := eigenvalue_part hN hf ⟨_, h0, hb⟩
  have : powValue rpow alpha cutoff radius x = (rpow x alpha).getD 0 := by
    unfold powValue
    rw [if_neg]
    rintro ⟨c1, c2⟩
    rcases hc with hc | hc
    · exact absurd c1 (not_lt.2 hc)
    · obtain ⟨⟨y, hy, rfl⟩, _⟩ := h1
      exact absurd c2 (not_lt.2 (hc x y hx (eigenvalue_part hN hf hy)))
  rw [this]
  rfl

/-- **C117 (natural powers).** `pow(A, p)` is `A^p`. -/
theorem C117_power_partial (syev : SyevFn R) (rpow : R → R → Option R) (zb : Nat → Nat → R) (z : Nat → R) (A : Block R) (as : Blocks R)
    (hA : A.Models 2 as) (N : Nat) (hN : N = as.sizes.sum) (p : Nat) (alpha cutoff : R) (hM : (as.matrix N).IsSymm)
    (ha : 0 ≤ alpha) (hp : ∀ x, rpow x alpha = some (x ^ p)) (sched : List Nat) (hs : sched.Perm (List.range as.length))
    (lapack : ∀ n f, n ≠ 0 → (n, f) ∈ as → ∀ F, mat n n F = blockPart (n, f) → IsSyev n F (syev true n F)) :
    ∃ P ps, blockPow syev rpow zb z sched A alpha cutoff = .ok P ∧ P.Models 2 ps ∧ ps.sizes = as.sizes ∧
      ps.matrix N = as.matrix N ^ p := by
  obtain ⟨P, ps, e, m, sz, hx⟩ := blockPow_ok syev rpow zb z A as hA hN alpha cutoff hM sched hs lapack
  refine ⟨P, ps, e, m, sz, matrix_pow hN p sz fun b n f g hf hg => ?_⟩
  obtain ⟨g', hg', h⟩ := hx b n f hf
  rw [hg] at hg'
  obtain ⟨-, rfl⟩ := Prod.mk.inj (Option.some.inj hg')
  by_cases hn : n = 0
  · subst hn
    funext k
    exact k.elim0
  obtain ⟨radius, V, w, h1, h2, h3, h4⟩ := h hn
  rw [h4, diag_pow h2 h3]
  simp [powValue, hp, not_lt.2 ha]

/-- **C117 (square roots).** If the eigenvalues of A have square roots and `std::pow` returns them, the square of `pow(A, 1/2)`
is A. -/
theorem C117_root_partial (syev : SyevFn R) (rpow : R → R → Option R) (zb : Nat → Nat → R) (z : Nat → R) (A : Block R) (as : Blocks R)
    (hA : A.Models 2 as) (N : Nat) (hN : N = as.sizes.sum) (alpha cutoff : R) (hM : (as.matrix N).IsSymm)
    (ha : 0 ≤ alpha) (hp : ∀ x, IsEigenvalue (as.matrix N) x → ∃ y, rpow x alpha = some y ∧ y * y = x)
    (sched : List Nat) (hs : sched.Perm (List.range as.length))
    (lapack : ∀ n f, n ≠ 0 → (n, f) ∈ as → ∀ F, mat n n F = blockPart (n, f) → IsSyev n F (syev true n F)) :
    ∃ P ps, blockPow syev rpow zb z sched A alpha cutoff = .ok P ∧ P.Models 2 ps ∧ ps.sizes = as.sizes ∧
      ps.matrix N * ps.matrix N = as.matrix N := by
  obtain ⟨P, ps, e, m, sz, hx⟩ := blockPow_ok syev rpow zb z A as hA hN alpha cutoff hM sched hs lapack
  refine ⟨P, ps, e, m, sz, matrix_mul (by rw [sz]; exact hN) rfl sz.symm fun b n g1 g f hg1 hg hf => ?_⟩
  rw [hg] at hg1
  obtain ⟨-, rfl⟩ := Prod.mk.inj (Option.some.inj hg1)
  obtain ⟨g', hg', h⟩ := hx b n f hf
  rw [hg] at hg'
  obtain ⟨-, rfl⟩ := Prod.mk.inj (Option.some.inj hg')
  by_cases hn : n = 0
  · subst hn
    funext k
    exact k.elim0
  obtain ⟨radius, V, w, h1, h2, h3, h4⟩ := h hn
  rw [h4, diag_mul h2]
  refine Eq.trans ?_ (diag_eq h2 h3).symm
  congr 3
  funext k
  obtain ⟨y, hy, h⟩ := hp _ (eigenvalue_part hN hf (diag_eigenvalue h2 h3 k))
  simp [powValue, hy, not_lt.2 ha, h]

/-- **C117 (inverse).** If no eigenvalue is below cutoff times another one, and `std::pow` returns the inverses of the eigenvalues,
`pow(A, -1)` is the inverse of A. -/
theorem C117_inverse_partial (syev : SyevFn R) (rpow : R → R → Option R) (zb : Nat → Nat → R) (z : Nat → R) (A : Block R) (as : Blocks R)
    (hA : A.Models 2 as) (N : Nat) (hN : N = as.sizes.sum) (alpha cutoff : R) (hM : (as.matrix N).IsSymm)
    (hc : ∀ x y, IsEigenvalue (as.matrix N) x → IsEigenvalue (as.matrix N) y → cutoff * |y| ≤ |x|)
    (hp : ∀ x, IsEigenvalue (as.matrix N) x → ∃ y, rpow x alpha = some y ∧ y * x = 1)
    (sched : List Nat) (hs : sched.Perm (List.range as.length))
    (lapack : ∀ n f, n ≠ 0 → (n, f) ∈ as → ∀ F, mat n n F = blockPart (n, f) → IsSyev n F (syev true n F)) :
    ∃ P ps, blockPow syev rpow zb z sched A alpha cutoff = .ok P ∧ P.Models 2 ps ∧ ps.sizes = as.sizes ∧
      ps.matrix N * as.matrix N = 1 := by
  obtain ⟨P, ps, e, m, sz, hx⟩ := blockPow_ok syev rpow zb z A as hA hN alpha cutoff hM sched hs lapack
  obtain ⟨os, ho, hO⟩ := blocks_of as fun p => 1
  have one' : os.matrix N = 1 := matrix_one (by rw [ho]; exact hN) fun b n f hf => by
    obtain ⟨g, hg⟩ := same_size ho hf
    obtain ⟨g', h1, h2⟩ := hO b n g hg
    rw [hf] at h1
    obtain ⟨-, rfl⟩ := Prod.mk.inj (Option.some.inj h1)
    exact h2
  refine ⟨P, ps, e, m, sz, ?_⟩
  rw [← one']
  refine matrix_mul (by rw [sz]; exact hN) sz.symm (ho.trans sz.symm) fun b n g f k hg hf hk => ?_
  obtain ⟨g', hg', h⟩ := hx b n f hf
  rw [hg] at hg'
  obtain ⟨-, rfl⟩ := Prod.mk.inj (Option.some.inj hg')
  obtain ⟨k', hk', ek⟩ := hO b n f hf
  rw [hk] at hk'
  obtain ⟨-, rfl⟩ := Prod.mk.inj (Option.some.inj hk')
  rw [ek]
  by_cases hn : n = 0
  · subst hn
    funext k
    exact k.elim0
  obtain ⟨radius, V, w, h1, h2, h3, h4⟩ := h hn
  rw [h4, diag_eq h2 h3, diag_mul h2, ← diag_one h2]
  congr 3
  funext k
  have hw := eigenvalue_part hN hf (diag_eigenvalue h2 h3 k)
  obtain ⟨y, hy, h⟩ := hp _ hw
  have : ¬ |w k| < cutoff * radius := by
    obtain ⟨⟨y, hy, rfl⟩, _⟩ := h1
    exact not_lt.2 (hc _ y hw (eigenvalue_part hN hf hy))
  simp [powValue, hy, this, h]

omit [LinearOrder R] [IsStrictOrderedRing R] [BEq R] [LawfulBEq R] in
theorem diag_unit {x y : R} (k : Fin 2) : diagonal ![x, y] *ᵥ Pi.single k 1 = ![x, y] k • Pi.single k 1 := by
  rw [Matrix.diagonal_mulVec_single, mul_one]
  funext l
  by_cases h : l = k
  · subst h; simp
  · simp [h]

/-- **C117 (refuted: cutoff).** The cutoff is relative to the largest eigenvalue of the whole matrix (`C107`), but here it is applied
to each block on its own: for the blocks (x) and (y) with |y| < cutoff |x| and a negative exponent, the dense function
replaces the power of y by 0 and the block function does not. -/
theorem C117_cutoff_refuted (syev : SyevFn R) (rpow : R → R → Option R) (zb : Nat → Nat → R) (z : Nat → R) (x y p alpha cutoff : R)
    (ha : alpha < 0) (hc : cutoff ≤ 1) (hy : |y| < cutoff * |x|) (hp : rpow y alpha = some p)
    (A : Block R) (hA : A.Models 2 (twoBlocks x y)) (D : Strided R) (wD : D.IsTensor) (hD : Holds D ((twoBlocks x y).matrix 2))
    (sched : List Nat) (hs : sched.Perm [0, 1])
    (lapack : ∀ n f, n ≠ 0 → (n, f) ∈ twoBlocks x y → ∀ F, mat n n F = blockPart (n, f) → IsSyev n F (syev true n F))
    (lapack' : ∀ F, mat 2 2 F = (twoBlocks x y).matrix 2 → IsSyev 2 F (syev true 2 F)) :
    (∃ P ps, blockPow syev rpow zb z sched A alpha cutoff = .ok P ∧ P.Models 2 ps ∧ ps.sizes = [1, 1] ∧ ps.matrix 2 1 1 = p) ∧
    ∃ P, ∃ N : Matrix (Fin 2) (Fin 2) R, matPow syev rpow z D alpha cutoff = .ok P ∧ Holds P N ∧ N 1 1 = 0 := by
  have symm : ((twoBlocks x y).matrix 2).IsSymm := by rw [twoBlocks_matrix]; exact Matrix.isSymm_diagonal _
  constructor
  · obtain ⟨P, ps, e, m, sz, h⟩ := blockPow_ok syev rpow zb z A _ hA (N := 2) rfl alpha cutoff symm sched hs lapack
    refine ⟨P, ps, e, m, sz, ?_⟩
    obtain ⟨g, hg, h⟩ := h 1 1 (fun _ => y) rfl
    obtain ⟨radius, V, w, h1, h2, h3, h4⟩ := h (by decide)
    have ev : ∀ t, IsEigenvalue (blockPart (1, fun _ => y)) t → t = y := by
      rintro t ⟨v, hv, ht⟩
      have h0 := congrFun ht 0
      simp only [Matrix.mulVec, dotProduct, blockPart, Finset.univ_unique, Fin.default_eq_zero, Finset.sum_singleton,
        Pi.smul_apply, smul_eq_mul] at h0
      have hv0 : v 0 ≠ 0 := fun h => hv (by funext i; rw [Subsingleton.elim i 0]; exact h)
      exact (mul_right_cancel₀ hv0 h0).symm
    obtain rfl : |y| = radius := by
      obtain ⟨⟨t, ht, rfl⟩, _⟩ := h1
      rw [ev t ht]
    have w0 : w 0 = y := ev _ (diag_eigenvalue h2 h3 0)
    have v0 : V 0 0 * V 0 0 = 1 := by
      have := congrFun (congrFun h2 0) 0
      simpa [Matrix.mul_apply] using this
    have val : powValue rpow alpha cutoff |y| y = p := by
      unfold powValue
      rw [if_neg, hp]
      · rfl
      · rintro ⟨_, c⟩
        exact absurd c (not_lt.2 (by simpa using mul_le_mul_of_nonneg_right hc (abs_nonneg y)))
    have h5 := congrFun (congrFun h4 0) 0
    simp only [Matrix.mul_apply, Finset.univ_unique, Fin.default_eq_zero, Finset.sum_singleton, Matrix.diagonal_apply_eq,
      Matrix.transpose_apply, w0, val] at h5
    have h6 := elem_part (bs := ps) hg (x := 0) (y := 0) (by decide) (by decide)
    rw [sz] at h6
    refine Eq.trans h6 (Eq.trans h5 ?_)
    rw [mul_right_comm, v0, one_mul]
  · rw [twoBlocks_matrix] at hD symm lapack'
    obtain ⟨P, N, radius, e, _, hP, hr, h⟩ := C107_eigenvectors_partial syev rpow z 2 D alpha cutoff _ wD hD symm (by decide) lapack'
    refine ⟨P, N, e, hP, ?_⟩
    have one_ne : ∀ k : Fin 2, (Pi.single k 1 : Fin 2 → R) ≠ 0 := fun k hk => by
      have := congrFun hk k
      simp at this
    have hx : |x| ≤ radius := hr.2 x ⟨Pi.single 0 1, one_ne 0, diag_unit 0⟩
    have hcp : 0 ≤ cutoff := by
      by_contra c
      have : cutoff * |x| ≤ 0 := mul_nonpos_of_nonpos_of_nonneg (le_of_lt (not_le.1 c)) (abs_nonneg x)
      exact absurd (abs_nonneg y) (not_le.2 (lt_of_lt_of_le hy this))
    have h1 := congrFun (h (Pi.single 1 1) y (diag_unit 1)) 1
    rw [cutPow, if_pos ⟨ha, lt_of_lt_of_le hy (mul_le_mul_of_nonneg_left hx hcp)⟩] at h1
    simpa using h1

end

end

/-! ### Instances -/

/-- xGETRI for every size. -/
noncomputable def getriInv : GetriFn ℚ := fun n F p =>
  (0, fun i j => if h : i < n ∧ j < n then
    ((unitLower n n F * mat n n (upperPart F)).submatrix (interchanges n n p).symm id)⁻¹ ⟨i, h.1⟩ ⟨j, h.2⟩ else 0)

theorem getriInv_ok (n : Nat) (F : Nat → Nat → ℚ) (p : Nat → Nat) : IsGetri n F p (getriInv n F p) := by
  intro hF
  refine ⟨rfl, ?_⟩
  have e : mat n n (getriInv n F p).2 =
      ((unitLower n n F * mat n n (upperPart F)).submatrix (interchanges n n p).symm id)⁻¹ := by
    funext i j
    simp [mat, getriInv, i.2, j.2]
  rw [e]
  apply Matrix.nonsing_inv_mul
  rw [Matrix.det_permute, Matrix.det_mul, det_unitLower, one_mul, det_upper, isUnit_iff_ne_zero]
  refine mul_ne_zero ?_ (Finset.prod_ne_zero_iff.2 fun k _ => hF k k.2)
  rcases Int.units_eq_one_or (Equiv.Perm.sign (interchanges n n p).symm) with h | h <;> rw [h] <;> simp

/-- A 2×2 block and a block with one element. -/
def blockEx (l : List (List ℚ)) : Block ℚ :=
  ⟨2, [⟨l.flatten, 0, [2, 2], [2, 1]⟩, ⟨[4], 0, [1, 1], [1, 1]⟩], [(0, 2), (2, 3)], [2, 1], 3, 0⟩

def blocksEx (l : List (List ℚ)) : Blocks ℚ := [(2, fun i => rows l (i.getD 0 0) (i.getD 1 0)), (1, fun _ => 4)]

theorem block1_holds (x : ℚ) : HoldsBlock 2 (⟨[x], 0, [1, 1], [1, 1]⟩ : Strided ℚ) (1, fun _ => x) := by
  refine ⟨⟨rfl, rfl, rfl⟩, rfl, fun l hl => ?_⟩
  obtain ⟨a, b, rfl, ha, hb⟩ := inBox_two.1 hl
  obtain rfl : a = 0 := by omega
  obtain rfl : b = 0 := by omega
  rfl

theorem blockEx_models (a b c d : ℚ) : (blockEx [[a, b], [c, d]]).Models 2 (blocksEx [[a, b], [c, d]]) := by
  refine ⟨rfl, .cons ⟨⟨rfl, rfl, rfl⟩, rfl, fun l hl => ?_⟩ (.cons (block1_holds 4) .nil), rfl, rfl, rfl⟩
  obtain ⟨i, j, rfl, hi, hj⟩ := inBox_two.1 hl
  have h1 : i = 0 ∨ i = 1 := by omega
  have h2 : j = 0 ∨ j = 1 := by omega
  rcases h1 with rfl | rfl <;> rcases h2 with rfl | rfl <;> rfl

theorem blocksEx_lu (n : Nat) (f : List Nat → ℚ) (h : (n, f) ∈ blocksEx [[2, 0], [1, 3]]) :
    IsLU n n (crop n n (tr fun i j => f [i, j])) (getrfId ℚ n n (crop n n (tr fun i j => f [i, j]))) := by
  simp only [blocksEx, List.mem_cons, Prod.mk.injEq, List.not_mem_nil, or_false] at h
  rcases h with ⟨rfl, rfl⟩ | ⟨rfl, rfl⟩
  · exact lowA_lu
  · refine ⟨fun i hi => ?_, matrix_ext_dec (by decide +kernel), fun _ => ?_, fun _ => rfl⟩
    · simp [getrfId] at *
      omega
    · decide +kernel

/-- The hypotheses of `C115_invert_partial` are met. -/
example : ∃ A', blockInvert (getrfId ℚ) getriInv [1, 0] (blockEx [[2, 0], [1, 3]]) = .ok A' := by
  obtain ⟨A', _, h, _⟩ := (C115_invert_partial (getrfId ℚ) getriInv (blockEx [[2, 0], [1, 3]]) _ (blockEx_models 2 0 1 3) 3 rfl
    (by decide) [1, 0] (by decide) blocksEx_lu getriInv_ok).1 (by rw [Matrix.det_fin_three]; decide +kernel)
  exact ⟨A', h⟩

/-- A LAPACK for the blocks of `blockEx` with `eigA`. -/
def syevEx : SyevFn ℚ := fun _ n F => if n = 2 then eigOut else (fun _ => F 0 0, fun _ _ => 1)

theorem syevEx_one (F : Nat → Nat → ℚ) : IsSyev 1 F (syevEx true 1 F) := by
  refine ⟨?_, ?_, fun _ _ _ _ => le_refl _⟩
  · funext i j
    rw [Subsingleton.elim i 0, Subsingleton.elim j 0]
    simp [syevEx, mat, Matrix.mul_apply]
  · funext i j
    rw [Subsingleton.elim i 0, Subsingleton.elim j 0]
    simp [syevEx, mat, Matrix.mul_apply, fromUpper]

theorem blocksEx_syev (n : Nat) (f : List Nat → ℚ) (_ : n ≠ 0) (h : (n, f) ∈ blocksEx [[16, -12], [-12, 9]])
    (F : Nat → Nat → ℚ) (hF : mat n n F = blockPart (n, f)) : IsSyev n F (syevEx true n F) := by
  simp only [blocksEx, List.mem_cons, Prod.mk.injEq, List.not_mem_nil, or_false] at h
  rcases h with ⟨rfl, rfl⟩ | ⟨rfl, rfl⟩
  · refine eigOut_isSyev F (hF.trans ?_)
    funext i j
    fin_cases i <;> fin_cases j <;> rfl
  · exact syevEx_one F

theorem blocksEx_symm : ((blocksEx [[16, -12], [-12, 9]]).matrix 3).IsSymm := matrix_ext_dec (by decide +kernel)

/-- The hypotheses of `C116_syev_partial` are met. -/
example := C116_syev_partial syevEx (blockEx [[16, -12], [-12, 9]]) _ (blockEx_models 16 (-12) (-12) 9) 3 rfl ⟨[7, 7, 7], 0, [3], [1]⟩
  (Strided.IsTensor.wf ⟨rfl, rfl, rfl⟩) rfl rfl blocksEx_symm [1, 0] (by decide) blocksEx_syev

/-- The result for it. -/
example : ∃ A' W', blockSyev syevEx true [1, 0] (blockEx [[16, -12], [-12, 9]]) ⟨[7, 7, 7], 0, [3], [1]⟩ = .ok (A', W') ∧
    W'.data = [0, 25, 4] := ⟨_, _, rfl, by decide +kernel⟩

/-- The hypotheses of `C117_power_partial` are met. -/
example := C117_power_partial syevEx (fun x _ => some (x ^ 2)) (fun _ _ => 0) (fun _ => 0) (blockEx [[16, -12], [-12, 9]]) _
  (blockEx_models 16 (-12) (-12) 9) 3 rfl 2 2 0 blocksEx_symm (by decide +kernel) (fun _ => rfl) [1, 0] (by decide) blocksEx_syev

def twoBlock (x y : ℚ) : Block ℚ := ⟨2, [⟨[x], 0, [1, 1], [1, 1]⟩, ⟨[y], 0, [1, 1], [1, 1]⟩], [(0, 1), (1, 2)], [1, 1], 2, 0⟩

theorem twoBlock_models (x y : ℚ) : (twoBlock x y).Models 2 (twoBlocks x y) :=
  ⟨rfl, .cons (block1_holds x) (.cons (block1_holds y) .nil), rfl, rfl, rfl⟩

theorem twoBlocks_syev (x y : ℚ) (n : Nat) (f : List Nat → ℚ) (_ : n ≠ 0) (h : (n, f) ∈ twoBlocks x y)
    (F : Nat → Nat → ℚ) (_ : mat n n F = blockPart (n, f)) : IsSyev n F (syevEx true n F) := by
  simp only [twoBlocks, List.mem_cons, Prod.mk.injEq, List.not_mem_nil, or_false] at h
  rcases h with ⟨rfl, rfl⟩ | ⟨rfl, rfl⟩ <;> exact syevEx_one F

/-- The hypotheses of `C116_order_refuted` are met: the eigenvalues 2, 1 are returned in this order. -/
example := C116_order_refuted syevEx 2 1 (twoBlock 2 1) (twoBlock_models 2 1) ⟨[7, 7], 0, [2], [1]⟩
  (Strided.IsTensor.wf ⟨rfl, rfl, rfl⟩) rfl rfl [0, 1] (by decide) (twoBlocks_syev 2 1)

/-- The hypotheses of `C117_eigenvectors_partial` and `C117_inverse_partial` are met: the inverse of (2) ⊕ (1). -/
theorem twoBlocks_eigen {t : ℚ} (h : IsEigenvalue ((twoBlocks (2 : ℚ) 1).matrix 2) t) : t = 2 ∨ t = 1 := by
  obtain ⟨v, hv, e⟩ := h
  rw [twoBlocks_matrix] at e
  have h0 := congrFun e 0
  have h1 := congrFun e 1
  rw [Matrix.mulVec_diagonal] at h0 h1
  simp only [Pi.smul_apply, smul_eq_mul] at h0 h1
  by_cases c : v 0 = 0
  · have c1 : v 1 ≠ 0 := fun c1 => hv (by funext i; fin_cases i; exacts [c, c1])
    exact .inr (mul_right_cancel₀ c1 h1).symm
  · exact .inl (mul_right_cancel₀ c h0).symm

example := C117_inverse_partial syevEx (fun x _ => some x⁻¹) (fun _ _ => 0) (fun _ => 0) (twoBlock 2 1) _ (twoBlock_models 2 1) 2 rfl
  (-1) (1 / 10) (by rw [twoBlocks_matrix]; exact Matrix.isSymm_diagonal _) (by
    intro x y hx hy
    rcases twoBlocks_eigen hx with rfl | rfl <;> rcases twoBlocks_eigen hy with rfl | rfl <;> decide +kernel) (by
    intro x hx
    rcases twoBlocks_eigen hx with rfl | rfl <;> exact ⟨_, rfl, by decide +kernel⟩) [0, 1] (by decide) (twoBlocks_syev 2 1)

/-- Eigenvalues 1 and 1/100 of a diagonal matrix, in ascending order. -/
def syevTwo : SyevFn ℚ := fun _ n F =>
  if n = 2 then (fun k => if k = 0 then F 1 1 else F 0 0, fun i j => if i = j then 0 else 1) else (fun _ => F 0 0, fun _ _ => 1)

/-- The hypotheses of `C117_cutoff_refuted` are met. -/
example := C117_cutoff_refuted syevTwo (fun x _ => some x⁻¹) (fun _ _ => 0) (fun _ => 0) 1 (1 / 100) 100 (-1) (1 / 10)
  (by decide +kernel) (by decide +kernel) (by decide +kernel) (by decide +kernel) (twoBlock 1 (1 / 100)) (twoBlock_models 1 (1 / 100))
  ⟨[1, 0, 0, 1 / 100], 0, [2, 2], [2, 1]⟩ ⟨rfl, rfl, rfl⟩ ⟨rfl, fun i j => by fin_cases i <;> fin_cases j <;> decide +kernel⟩
  [0, 1] (by decide) (by
    intro n f _ h F _
    simp only [twoBlocks, List.mem_cons, Prod.mk.injEq, List.not_mem_nil, or_false] at h
    rcases h with ⟨rfl, rfl⟩ | ⟨rfl, rfl⟩ <;> exact syevEx_one F) (by
    intro F hF
    rw [twoBlocks_matrix] at hF
    have h00 : F 0 0 = 1 := congrFun (congrFun hF 0) 0
    have h01 : F 0 1 = 0 := congrFun (congrFun hF 0) 1
    have h11 : F 1 1 = 1 / 100 := congrFun (congrFun hF 1) 1
    refine ⟨?_, ?_, ?_⟩
    · funext i j
      fin_cases i <;> fin_cases j <;> simp [syevTwo, mat, Matrix.mul_apply, Fin.sum_univ_two]
    · funext i j
      fin_cases i <;> fin_cases j <;>
        simp [syevTwo, mat, fromUpper, Matrix.mul_apply, Fin.sum_univ_two, h00, h01, h11, Matrix.diagonal]
    · intro i j hij hj
      have : i = 0 ∧ j = 0 ∨ i = 0 ∧ j = 1 ∨ i = 1 ∧ j = 1 := by omega
      rcases this with ⟨rfl, rfl⟩ | ⟨rfl, rfl⟩ | ⟨rfl, rfl⟩ <;> simp only [syevTwo, h00, h11] <;> decide +kernel)

end Einsums.Props
