import Mathlib.LinearAlgebra.Matrix.ToLinearEquiv
import Verif.Model.BlockSpectral
import Verif.Spec.BlockMatrix
import Verif.Spec.Spectral
import Verif.Proofs.BlockAlgebra
import Verif.Proofs.MatrixForm
/-
Matrices of block tensors: vectors, products and eigenvectors block by block; loops over the blocks.
-/
namespace Einsums
open Spec Model Matrix

/-! ### Loops -/

/-- A loop over distinct items with an invariant about the items done. -/
theorem foldlM_inv {S I : Type} {step : S → I → Outcome S} (Inv : List I → S → Prop) (all : List I)
    (hstep : ∀ done i s, i ∉ done → i ∈ all → Inv done s → ∃ s', step s i = .ok s' ∧ Inv (done ++ [i]) s') :
    ∀ (sched done : List I) (s : S), Inv done s → (done ++ sched).Nodup → (∀ i ∈ sched, i ∈ all) →
      ∃ s', sched.foldlM step s = .ok s' ∧ Inv (done ++ sched) s'
  | [], done, s, h, _, _ => ⟨s, rfl, by simpa using h⟩
  | i :: sched, done, s, h, hn, ha => by
    have hi : i ∉ done := by
      intro hx
      rw [List.nodup_append] at hn
      exact hn.2.2 i hx i (by simp) rfl
    obtain ⟨s1, e1, h1⟩ := hstep done i s hi (ha i (by simp)) h
    obtain ⟨s2, e2, h2⟩ := foldlM_inv Inv all hstep sched (done ++ [i]) s1 h1 (by simpa using hn) (fun j hj => ha j (by simp [hj]))
    refine ⟨s2, ?_, by simpa using h2⟩
    rw [List.foldlM_cons, e1]
    exact e2

/-- A loop of steps that keep an invariant or fail, with a step that always fails, fails. -/
theorem foldlM_fails {S : Type} {step : S → Nat → Outcome S} (Inv : List Nat → S → Prop) (all : List Nat) (bad : Nat)
    (hbad : ∀ done s, bad ∉ done → Inv done s → (step s bad).isError = true)
    (hstep : ∀ done i s, i ∉ done → i ∈ all → Inv done s →
      (step s i).isError = true ∨ ∃ s', step s i = .ok s' ∧ Inv (done ++ [i]) s') :
    ∀ (sched done : List Nat) (s : S), bad ∈ sched → Inv done s → (done ++ sched).Nodup → (∀ i ∈ sched, i ∈ all) →
      (sched.foldlM step s).isError = true
  | [], _, _, h, _, _, _ => by simp at h
  | i :: sched, done, s, h, hs, hn, ha => by
    have hi : i ∉ done := by
      intro hx
      rw [List.nodup_append] at hn
      exact hn.2.2 i hx i (by simp) rfl
    rw [List.foldlM_cons]
    rcases hstep done i s hi (ha i (by simp)) hs with he | ⟨s1, e1, h1⟩
    · cases hc : step s i with
      | ok _ => rw [hc] at he; simp [Outcome.isError] at he
      | error m => rfl
      | ub m => rw [hc] at he; simp [Outcome.isError] at he
    · by_cases hb : bad = i
      · subst hb
        have := hbad done s hi hs
        rw [e1] at this
        simp [Outcome.isError] at this
      · rw [e1]
        exact foldlM_fails Inv all bad hbad hstep sched (done ++ [i]) s1 (by simpa [hb] using h) h1 (by simpa using hn)
          (fun j hj => ha j (by simp [hj]))

/-! ### Blocks -/

variable {R : Type}

section
variable [Zero R]

omit [Zero R] in
theorem sizes_length (bs : Blocks R) : bs.sizes.length = bs.length := by simp [Blocks.sizes]

omit [Zero R] in
theorem part_bound {bs : Blocks R} {b n : Nat} {f : List Nat → R} (h : bs[b]? = some (n, f)) {x : Nat} (hx : x < n) :
    tileStart bs.sizes b + x < bs.sizes.sum :=
  interval_sum (interval_start (by rw [getD_sizes h]; exact hx))

theorem elem_part {bs : Blocks R} {b n : Nat} {f : List Nat → R} (h : bs[b]? = some (n, f)) {x y : Nat} (hx : x < n) (hy : y < n) :
    bs.elem [tileStart bs.sizes b + x, tileStart bs.sizes b + y] = f [x, y] := by
  have hb : b < bs.length := by
    by_contra c
    rw [List.getElem?_eq_none (by omega)] at h
    simp at h
  have e : bs[b] = (n, f) := by rw [List.getElem?_eq_getElem hb] at h; exact Option.some.inj h
  rw [elem_diag hb (by rw [getD_sizes h]; exact hx) (by rw [getD_sizes h]; exact hy), e]

omit [Zero R] in
/-- Every position lies in a block. -/
theorem exists_part {bs : Blocks R} {i : Nat} (hi : i < bs.sizes.sum) :
    ∃ b n f x, bs[b]? = some (n, f) ∧ x < n ∧ i = tileStart bs.sizes b + x := by
  obtain ⟨b, hb⟩ := interval_exists hi
  have hl := interval_lt hb
  rw [sizes_length] at hl
  refine ⟨b, bs[b].1, bs[b].2, i - tileStart bs.sizes b, by simp [hl], ?_, by have := hb.1; omega⟩
  have := hb.2
  rw [getD_sizes (List.getElem?_eq_getElem hl)] at this
  have := hb.1
  omega

omit [Zero R] in
theorem part_interval {bs : Blocks R} {b n : Nat} {f : List Nat → R} (h : bs[b]? = some (n, f)) {x : Nat} (hx : x < n) :
    InInterval bs.sizes b (tileStart bs.sizes b + x) := interval_start (by rw [getD_sizes h]; exact hx)

/-- An element whose indices lie in different blocks. -/
theorem elem_cross {bs : Blocks R} {b c n m : Nat} {f g : List Nat → R} (h : bs[b]? = some (n, f)) (h' : bs[c]? = some (m, g))
    {x y : Nat} (hx : x < n) (hy : y < m) (hne : b ≠ c) :
    bs.elem [tileStart bs.sizes b + x, tileStart bs.sizes c + y] = 0 :=
  elem_off (part_interval h hx) (part_interval h' hy) hne

theorem exists_vec {n : Nat} (v : Fin n → R) : ∃ u : Nat → R, v = fun i => u i.1 :=
  ⟨fun i => if h : i < n then v ⟨i, h⟩ else 0, by funext i; simp⟩

end

section
variable [CommRing R]

/-- A sum of terms that vanish outside one block. -/
theorem sumTo_block {bs : Blocks R} {b n : Nat} {f : List Nat → R} (h : bs[b]? = some (n, f)) (g : Nat → R)
    (hg : ∀ c m f' y, bs[c]? = some (m, f') → y < m → c ≠ b → g (tileStart bs.sizes c + y) = 0) :
    sumTo bs.sizes.sum g = sumTo n fun y => g (tileStart bs.sizes b + y) := by
  have hb : b < bs.length := by
    by_contra c
    rw [List.getElem?_eq_none (by omega)] at h
    simp at h
  rw [sumTo_split, sumTo_single (by rw [sizes_length]; exact hb)]
  · rw [getD_sizes h]
  · intro c hc hne
    rw [sizes_length] at hc
    apply sumTo_zero'
    intro y hy
    rw [getD_sizes (List.getElem?_eq_getElem hc)] at hy
    exact hg c bs[c].1 bs[c].2 y (by simp [hc]) hy hne

/-- A matrix times a vector, block by block. -/
theorem mulVec_part {bs : Blocks R} {N b n : Nat} (hN : N = bs.sizes.sum) {f : List Nat → R} (h : bs[b]? = some (n, f)) (u : Nat → R)
    (x : Fin n) :
    (bs.matrix N *ᵥ fun i => u i.1) ⟨tileStart bs.sizes b + x.1, by rw [hN]; exact part_bound h x.2⟩ =
      (blockPart (n, f) *ᵥ fun y : Fin n => u (tileStart bs.sizes b + y.1)) x := by
  subst hN
  change ∑ j : Fin bs.sizes.sum, bs.elem [tileStart bs.sizes b + x.1, j.1] * u j.1 = ∑ y : Fin n, f [x.1, y.1] * u (tileStart bs.sizes b + y.1)
  rw [← sumTo_fin bs.sizes.sum fun j => bs.elem [tileStart bs.sizes b + x.1, j] * u j,
    ← sumTo_fin n fun y => f [x.1, y] * u (tileStart bs.sizes b + y), sumTo_block h]
  · apply sumTo_congr
    intro y hy
    rw [elem_part h x.2 hy]
  · intro c m f' y hc hy hne
    rw [elem_cross h hc x.2 hy (Ne.symm hne), zero_mul]

theorem mulVec_iff {bs : Blocks R} {N : Nat} (hN : N = bs.sizes.sum) (u w : Nat → R) :
    (bs.matrix N *ᵥ fun i => u i.1) = (fun i => w i.1) ↔ ∀ (b n : Nat) (f : List Nat → R), bs[b]? = some (n, f) →
      (blockPart (n, f) *ᵥ fun y : Fin n => u (tileStart bs.sizes b + y.1)) = fun x : Fin n => w (tileStart bs.sizes b + x.1) := by
  constructor
  · intro e b n f h
    funext x
    rw [← mulVec_part hN h u x, e]
  · intro e
    funext i
    obtain ⟨b, n, f, x, h, hx, hi⟩ := exists_part (bs := bs) (i := i.1) (by rw [← hN]; exact i.2)
    have := mulVec_part hN h u ⟨x, hx⟩
    have ei : i = ⟨tileStart bs.sizes b + x, by rw [hN]; exact part_bound h hx⟩ := Fin.ext hi
    rw [ei]
    refine this.trans ?_
    rw [e b n f h]

omit [CommRing R] in
theorem same_size {as bs : Blocks R} (hs : as.sizes = bs.sizes) {b n : Nat} {f : List Nat → R} (h : as[b]? = some (n, f)) :
    ∃ g, bs[b]? = some (n, g) := by
  have := congrArg (·[b]?) hs
  simp only [Blocks.sizes, List.getElem?_map, h, Option.map_some] at this
  cases hb : bs[b]? with
  | none => rw [hb] at this; simp at this
  | some p => rw [hb] at this; simp at this; exact ⟨p.2, by rw [this]⟩

omit [CommRing R] in
theorem sizes_of_parts {as xs : Blocks R} (hl : xs.length = as.length)
    (h : ∀ (b n : Nat) (f : List Nat → R), as[b]? = some (n, f) → ∃ g, xs[b]? = some (n, g)) : xs.sizes = as.sizes := by
  apply List.ext_getElem?
  intro b
  simp only [Blocks.sizes, List.getElem?_map]
  cases hb : as[b]? with
  | none =>
    have : as.length ≤ b := by simpa using hb
    simp [List.getElem?_eq_none (show xs.length ≤ b by omega)]
  | some p => obtain ⟨g, h1⟩ := h b p.1 p.2 hb; simp [h1]

/-- The product of block matrices, block by block. -/
theorem matrix_mul {as bs cs : Blocks R} {N : Nat} (hN : N = as.sizes.sum) (hb : bs.sizes = as.sizes) (hc : cs.sizes = as.sizes)
    (h : ∀ (b n : Nat) (f g k : List Nat → R), as[b]? = some (n, f) → bs[b]? = some (n, g) → cs[b]? = some (n, k) →
      blockPart (n, f) * blockPart (n, g) = blockPart (n, k)) :
    as.matrix N * bs.matrix N = cs.matrix N := by
  funext i j
  have hj : j.1 < as.sizes.sum := by rw [← hN]; exact j.2
  have key : (as.matrix N *ᵥ fun i => bs.elem [i.1, j.1]) = fun i => cs.elem [i.1, j.1] := by
    rw [mulVec_iff (u := fun i => bs.elem [i, j.1]) (w := fun i => cs.elem [i, j.1]) hN]
    intro b n f hf
    obtain ⟨q, m, g, y, hq, hy, hjy⟩ := exists_part (bs := bs) (i := j.1) (by rw [hb]; exact hj)
    obtain ⟨g', hg'⟩ := same_size hb.symm hf
    obtain ⟨k', hk'⟩ := same_size hc.symm hf
    obtain ⟨k, hk⟩ := same_size (hb.trans hc.symm) hq
    rw [hb] at hjy
    by_cases e : b = q
    · subst e
      rw [hg'] at hq
      rw [hk'] at hk
      obtain ⟨rfl, rfl⟩ := Prod.mk.inj (Option.some.inj hq)
      obtain ⟨-, rfl⟩ := Prod.mk.inj (Option.some.inj hk)
      have e1 : ∀ x : Fin n, bs.elem [tileStart as.sizes b + x.1, j.1] = g' [x.1, y] := fun x => by
        rw [hjy, ← hb]; exact elem_part hg' x.2 hy
      have e2 : ∀ x : Fin n, cs.elem [tileStart as.sizes b + x.1, j.1] = k' [x.1, y] := fun x => by
        rw [hjy, ← hc]; exact elem_part hk' x.2 hy
      funext x
      simp only [e1, e2]
      exact congrFun (congrFun (h b n f g' k' hf hg' hk') x) ⟨y, hy⟩
    · have e1 : ∀ x : Fin n, bs.elem [tileStart as.sizes b + x.1, j.1] = 0 := fun x => by
        rw [hjy, ← hb]; exact elem_cross hg' hq x.2 hy e
      have e2 : ∀ x : Fin n, cs.elem [tileStart as.sizes b + x.1, j.1] = 0 := fun x => by
        rw [hjy, ← hc]; exact elem_cross hk' hk x.2 hy e
      funext x
      simp only [e1, e2]
      simp [mulVec, dotProduct]
  exact congrFun key i

/-- Matrices that agree in the blocks agree. -/
theorem matrix_congr {as bs : Blocks R} {N : Nat} (hN : N = as.sizes.sum) (hb : bs.sizes = as.sizes)
    (h : ∀ (b n : Nat) (f g : List Nat → R), as[b]? = some (n, f) → bs[b]? = some (n, g) → blockPart (n, f) = blockPart (n, g)) :
    as.matrix N = bs.matrix N := by
  funext i j
  obtain ⟨b, n, f, x, hf, hx, hi⟩ := exists_part (bs := as) (i := i.1) (by rw [← hN]; exact i.2)
  obtain ⟨q, m, g, y, hg, hy, hj⟩ := exists_part (bs := as) (i := j.1) (by rw [← hN]; exact j.2)
  obtain ⟨f', hf'⟩ := same_size hb.symm hf
  obtain ⟨g', hg'⟩ := same_size hb.symm hg
  change as.elem [i.1, j.1] = bs.elem [i.1, j.1]
  rw [hi, hj]
  by_cases e : b = q
  · subst e
    rw [hf] at hg
    obtain ⟨rfl, rfl⟩ := Prod.mk.inj (Option.some.inj hg)
    rw [elem_part hf hx hy, ← hb, elem_part hf' hx hy]
    exact congrFun (congrFun (h b n f f' hf hf') ⟨x, hx⟩) ⟨y, hy⟩
  · rw [elem_cross hf hg hx hy e, ← hb, elem_cross hf' hg' hx hy e]

/-- Identity blocks make the identity. -/
theorem matrix_one {as : Blocks R} {N : Nat} (hN : N = as.sizes.sum) (h : ∀ (b n : Nat) (f : List Nat → R), as[b]? = some (n, f) → blockPart (n, f) = 1) :
    as.matrix N = 1 := by
  funext i j
  obtain ⟨b, n, f, x, hf, hx, hi⟩ := exists_part (bs := as) (i := i.1) (by rw [← hN]; exact i.2)
  obtain ⟨q, m, g, y, hg, hy, hj⟩ := exists_part (bs := as) (i := j.1) (by rw [← hN]; exact j.2)
  change as.elem [i.1, j.1] = _
  rw [Matrix.one_apply]
  simp only [Fin.ext_iff]
  rw [hi, hj]
  by_cases e : b = q
  · subst e
    rw [hf] at hg
    obtain ⟨rfl, rfl⟩ := Prod.mk.inj (Option.some.inj hg)
    rw [elem_part hf hx hy]
    have := congrFun (congrFun (h b n f hf) ⟨x, hx⟩) ⟨y, hy⟩
    rw [Matrix.one_apply] at this
    simp only [Fin.ext_iff] at this
    refine this.trans ?_
    congr 1
    rw [Nat.add_left_cancel_iff]
  · rw [elem_cross hf hg hx hy e, if_neg]
    intro c
    have h1 := part_interval hf hx
    rw [c] at h1
    exact e (interval_unique h1 (part_interval hg hy))

omit [CommRing R] in
/-- A list of blocks with given matrices. -/
theorem blocks_of [Zero R] (as : Blocks R) (D : (p : Nat × (List Nat → R)) → Matrix (Fin p.1) (Fin p.1) R) :
    ∃ ds : Blocks R, ds.sizes = as.sizes ∧ ∀ (b n : Nat) (f : List Nat → R), as[b]? = some (n, f) → ∃ g, ds[b]? = some (n, g) ∧ blockPart (n, g) = D (n, f) := by
  choose F hF using fun p => exists_mat (D p)
  refine ⟨as.map fun p => (p.1, fun l => F p (l.getD 0 0) (l.getD 1 0)), by simp [Blocks.sizes], fun b n f h =>
    ⟨fun l => F (n, f) (l.getD 0 0) (l.getD 1 0), by simp [h], ?_⟩⟩
  rw [hF (n, f)]
  rfl

theorem matrix_pow {as cs : Blocks R} {N : Nat} (hN : N = as.sizes.sum) (k : Nat) (hc : cs.sizes = as.sizes)
    (h : ∀ (b n : Nat) (f g : List Nat → R), as[b]? = some (n, f) → cs[b]? = some (n, g) → blockPart (n, g) = blockPart (n, f) ^ k) :
    cs.matrix N = as.matrix N ^ k := by
  induction k generalizing cs with
  | zero =>
    rw [pow_zero]
    refine matrix_one (by rw [hc]; exact hN) fun b n g hg => ?_
    obtain ⟨f, hf⟩ := same_size hc hg
    rw [h b n f g hf hg, pow_zero]
  | succ k ih =>
    obtain ⟨ds, hd, hD⟩ := blocks_of as fun p => blockPart p ^ k
    rw [pow_succ, ← ih hd fun b n f g hf hg => by
      obtain ⟨g', hg', e⟩ := hD b n f hf
      rw [hg] at hg'
      obtain ⟨-, rfl⟩ := Prod.mk.inj (Option.some.inj hg')
      exact e]
    refine (matrix_mul (by rw [hd]; exact hN) hd.symm (hc.trans hd.symm) fun b n g f k' hg hf hk' => ?_).symm
    obtain ⟨g', hg', e⟩ := hD b n f hf
    rw [hg] at hg'
    obtain ⟨-, rfl⟩ := Prod.mk.inj (Option.some.inj hg')
    rw [e, h b n f k' hf hk', pow_succ]

/-- An eigenvector of a block is, padded with zeros, one of the matrix. -/
theorem eigenvalue_part {as : Blocks R} {N : Nat} (hN : N = as.sizes.sum) {b n : Nat} {f : List Nat → R} (h : as[b]? = some (n, f)) {x : R}
    (hx : IsEigenvalue (blockPart (n, f)) x) : IsEigenvalue (as.matrix N) x := by
  obtain ⟨v, hv, e⟩ := hx
  obtain ⟨v', rfl⟩ := exists_vec v
  let u : Nat → R := fun i => if InInterval as.sizes b i then v' (i - tileStart as.sizes b) else 0
  have u1 : ∀ y, y < n → u (tileStart as.sizes b + y) = v' y := fun y hy => by
    simp only [u]; rw [if_pos (part_interval h hy)]; congr 1; omega
  refine ⟨fun i => u i.1, ?_, ?_⟩
  · intro hu
    apply hv
    funext y
    have := congrFun hu ⟨tileStart as.sizes b + y.1, by rw [hN]; exact part_bound h y.2⟩
    simp only [Pi.zero_apply] at this ⊢
    rw [← this, u1 y.1 y.2]
  · change _ = fun i : Fin N => x * u i.1
    rw [mulVec_iff (u := u) (w := fun i => x * u i) hN]
    intro c m g hg
    by_cases hc : c = b
    · subst hc
      rw [h] at hg
      obtain ⟨rfl, rfl⟩ := Prod.mk.inj (Option.some.inj hg)
      have : (fun y : Fin n => u (tileStart as.sizes c + y.1)) = fun y => v' y.1 := funext fun y => u1 y.1 y.2
      rw [this, e]
      funext y
      simp only [Pi.smul_apply, smul_eq_mul]
      rw [u1 y.1 y.2]
    · have : ∀ y : Fin m, u (tileStart as.sizes c + y.1) = 0 := fun y => by
        simp only [u]
        rw [if_neg]
        intro hi
        exact hc (interval_unique (part_interval hg y.2) hi)
      simp only [this]
      funext y
      simp [mulVec, dotProduct]

/-- The rows of a block matrix. -/
theorem row_part {as : Blocks R} {b n : Nat} {f : List Nat → R} (h : as[b]? = some (n, f)) {x : Nat} (hx : x < n) {c m : Nat} {g : List Nat → R}
    (h' : as[c]? = some (m, g)) (y : Fin m) :
    as.elem [tileStart as.sizes b + x, tileStart as.sizes c + y.1] = if b = c then f [x, y.1] else 0 := by
  split
  · rename_i e
    subst e
    rw [h] at h'
    obtain ⟨rfl, rfl⟩ := Prod.mk.inj (Option.some.inj h')
    exact elem_part h hx y.2
  · rename_i e
    exact elem_cross h h' hx y.2 e

/-- Rows that are orthonormal eigenvectors block by block are orthonormal eigenvectors. -/
theorem matrix_eigen {as vs : Blocks R} {N : Nat} (hN : N = as.sizes.sum) (hs : vs.sizes = as.sizes) (w : Nat → R)
    (ho : ∀ (b n : Nat) (g : List Nat → R), vs[b]? = some (n, g) → ∀ k l : Fin n, blockPart (n, g) k ⬝ᵥ blockPart (n, g) l = if k = l then 1 else 0)
    (he : ∀ (b n : Nat) (f g : List Nat → R), as[b]? = some (n, f) → vs[b]? = some (n, g) → ∀ k : Fin n,
      blockPart (n, f) *ᵥ blockPart (n, g) k = w (tileStart as.sizes b + k.1) • blockPart (n, g) k) :
    (∀ k l, vs.matrix N k ⬝ᵥ vs.matrix N l = if k = l then 1 else 0) ∧
      ∀ k : Fin N, as.matrix N *ᵥ vs.matrix N k = w k.1 • vs.matrix N k := by
  constructor
  · intro k l
    have key : (vs.matrix N *ᵥ fun i => vs.elem [l.1, i.1]) = fun i => if i.1 = l.1 then 1 else 0 := by
      rw [mulVec_iff (u := fun i => vs.elem [l.1, i]) (w := fun i => if i = l.1 then 1 else 0) (by rw [hs]; exact hN)]
      intro c m g hg
      obtain ⟨b, n, f, x, hf, hx, hl⟩ := exists_part (bs := vs) (i := l.1) (by rw [hs, ← hN]; exact l.2)
      simp only [hl, row_part hf hx hg]
      by_cases e : b = c
      · subst e
        rw [hf] at hg
        obtain ⟨rfl, rfl⟩ := Prod.mk.inj (Option.some.inj hg)
        funext y
        simp only [if_true]
        refine (ho b n f hf y ⟨x, hx⟩).trans ?_
        simp only [Fin.ext_iff, Nat.add_left_cancel_iff]
      · funext y
        rw [if_neg]
        · simp [mulVec, dotProduct, e]
        · intro hi
          apply e
          have h1 := part_interval hf hx
          rw [← hi] at h1
          exact interval_unique h1 (part_interval hg y.2)
    have := congrFun key k
    simp only [← Fin.ext_iff] at this
    exact this
  · intro k
    change (as.matrix N *ᵥ fun i => vs.elem [k.1, i.1]) = fun i => w k.1 * vs.elem [k.1, i.1]
    rw [mulVec_iff (u := fun i => vs.elem [k.1, i]) (w := fun i => w k.1 * vs.elem [k.1, i]) hN]
    intro c m f hf
    obtain ⟨b, n, g, x, hg, hx, hk⟩ := exists_part (bs := vs) (i := k.1) (by rw [hs, ← hN]; exact k.2)
    obtain ⟨g', hg'⟩ := same_size hs.symm hf
    have hr := fun y : Fin m => row_part hg hx hg' y
    simp only [hs] at hr
    rw [hk, hs]
    simp only [hr]
    by_cases e : b = c
    · subst e
      rw [hg] at hg'
      obtain ⟨rfl, rfl⟩ := Prod.mk.inj (Option.some.inj hg')
      simp only [if_true]
      exact he b n f g hf hg ⟨x, hx⟩
    · simp only [e, if_false, mul_zero]
      funext y
      simp [mulVec, dotProduct]

end
end Einsums
