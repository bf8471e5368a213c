import Verif.Proofs.TiledDot
import Verif.Proofs.PyGeneric
import Verif.Proofs.PythonTensor
import Verif.Model.TileAlgebra
import Verif.Props.Dispatch
/-
Contraction of tiled tensors: sums over label assignments split by tiles, and the loop over the tiles.
-/
namespace Einsums
open Spec Model

variable {L : Type} [DecidableEq L] {R : Type}

/-! ### Sums with some labels fixed -/

theorem sum_range_single [AddMonoid R] {n r : Nat} (h : r < n) (v : R) :
    ((List.range n).map fun x => if x = r then v else 0).sum = v := by
  induction n with
  | zero => omega
  | succ n ih =>
    rw [List.range_succ, List.map_append, List.sum_append]
    simp only [List.map_cons, List.map_nil, List.sum_cons, List.sum_nil, add_zero]
    rcases Nat.lt_or_ge r n with c | c
    · rw [ih c, if_neg (by omega), add_zero]
    · have e : r = n := by omega
      subst e
      rw [if_pos rfl, List.sum_eq_zero, zero_add]
      intro x hx
      obtain ⟨y, hy, rfl⟩ := List.mem_map.1 hx
      rw [if_neg (by have := List.mem_range.1 hy; omega)]

/-- Summing over labels that are fixed by a condition. -/
theorem sumOver_delta [AddCommMonoid R] (δ : L → Nat) {xs : List L} (hn : xs.Nodup) {ρ : L → Nat} (hρ : InRange δ xs ρ)
    (σ₀ : L → Nat) (G : (L → Nat) → R) :
    sumOver δ xs σ₀ (fun σ => if ∀ l ∈ xs, σ l = ρ l then G σ else 0) = G fun l => if l ∈ xs then ρ l else σ₀ l := by
  induction xs generalizing σ₀ with
  | nil =>
    simp only [sumOver]
    rw [if_pos (by simp)]
    congr 1
  | cons m xs ih =>
    obtain ⟨hm, hn'⟩ := List.nodup_cons.1 hn
    have hr : InRange δ xs ρ := fun l hl => hρ l (by simp [hl])
    simp only [sumOver]
    have key : ∀ x, sumOver δ xs (update σ₀ m x) (fun σ => if ∀ l ∈ m :: xs, σ l = ρ l then G σ else 0)
        = if x = ρ m then G (fun l => if l ∈ m :: xs then ρ l else σ₀ l) else 0 := by
      intro x
      by_cases c : x = ρ m
      · rw [if_pos c]
        have e := ih hn' hr (update σ₀ m x)
        rw [sumOver_congr δ xs _ (G := fun σ => if ∀ l ∈ xs, σ l = ρ l then G σ else 0), e]
        · congr 1
          funext l
          by_cases h1 : l ∈ xs
          · simp [h1]
          · by_cases h2 : l = m
            · subst h2; simp [h1, update, c]
            · simp [h1, h2, update]
        · intro σ h1 _
          have : σ m = ρ m := by rw [h1 m hm]; simp [update, c]
          by_cases h3 : ∀ l ∈ xs, σ l = ρ l
          · rw [if_pos h3, if_pos]
            intro l hl
            rcases List.mem_cons.1 hl with rfl | hl
            · exact this
            · exact h3 l hl
          · rw [if_neg h3, if_neg]
            intro h4
            exact h3 fun l hl => h4 l (by simp [hl])
      · rw [if_neg c, sumOver_congr δ xs _ (G := fun _ => 0), sumOver_zero]
        intro σ h1 _
        rw [if_neg]
        intro h2
        have := h2 m (by simp)
        rw [h1 m hm] at this
        simp [update] at this
        exact c this
    rw [List.map_congr_left fun x _ => key x]
    exact sum_range_single (hρ m (by simp)) _

/-- The assignment outside does not matter for a function of the labels in `U`. -/
theorem sumOver_base [Add R] [Zero R] (δ : L → Nat) {U : List L} (ls : List L) {F : (L → Nat) → R}
    (hF : ∀ σ σ' : L → Nat, (∀ l ∈ U, σ l = σ' l) → F σ = F σ') {ρ σ : L → Nat} (h : ∀ l ∈ U, l ∉ ls → ρ l = σ l) :
    sumOver δ ls ρ F = sumOver δ ls σ F := by
  induction ls generalizing ρ σ with
  | nil => exact hF _ _ fun l hl => h l hl (by simp)
  | cons m ls ih =>
    simp only [sumOver]
    congr 1
    apply List.map_congr_left
    intro x _
    apply ih
    intro l hl hnl
    simp only [update]
    by_cases c : l = m
    · simp [c]
    · rw [if_neg c, if_neg c]
      exact h l hl (by simp [c, hnl])

/-- A sum over some of the labels, the others fixed, as a sum over all of them with a condition. -/
theorem sumOver_box [AddCommMonoid R] (δ : L → Nat) {U Cl ls : List L} (hU : U.Nodup) (hl : ls.Nodup)
    (hmem : ∀ l, l ∈ U ↔ l ∈ Cl ∨ l ∈ ls) (hdis : ∀ l ∈ ls, l ∉ Cl) {ρ : L → Nat} (hρ : InRange δ Cl ρ)
    {F : (L → Nat) → R} (hF : ∀ σ σ' : L → Nat, (∀ l ∈ U, σ l = σ' l) → F σ = F σ') (σ₀ : L → Nat) :
    sumOver δ ls ρ F = ((box (U.map δ)).map fun j =>
      if ∀ l ∈ Cl, bindEnv U j σ₀ l = ρ l then F (bindEnv U j σ₀) else 0).sum := by
  rw [← sumOver_eq δ U hU σ₀ (fun σ => if ∀ l ∈ Cl, σ l = ρ l then F σ else 0)]
  have hn : (unique Cl ++ ls).Nodup := by
    rw [List.nodup_append]
    refine ⟨nodup_unique _, hl, ?_⟩
    intro a ha b hb e
    subst e
    exact hdis a hb (mem_unique.1 ha)
  have hp : U.Perm (unique Cl ++ ls) := by
    rw [List.perm_ext_iff_of_nodup hU hn]
    intro l
    rw [hmem l, List.mem_append, mem_unique]
  rw [sumOver_perm δ hp hU, sumOver_append]
  have e : ∀ σ, sumOver δ ls σ (fun σ => if ∀ l ∈ Cl, σ l = ρ l then F σ else 0)
      = if ∀ l ∈ unique Cl, σ l = ρ l then sumOver δ ls σ F else 0 := by
    intro σ
    by_cases c : ∀ l ∈ unique Cl, σ l = ρ l
    · rw [if_pos c]
      apply sumOver_congr
      intro σ' h1 _
      rw [if_pos]
      intro l hl
      rw [h1 l fun h => hdis l h hl]
      exact c l (mem_unique.2 hl)
    · rw [if_neg c, sumOver_congr δ ls _ (G := fun _ => 0), sumOver_zero]
      intro σ' h1 _
      rw [if_neg]
      intro h2
      apply c
      intro l hl
      rw [mem_unique] at hl
      rw [← h1 l fun h => hdis l h hl]
      exact h2 l hl
  simp only [e]
  rw [sumOver_delta δ (nodup_unique Cl) (fun l hl => hρ l (mem_unique.1 hl)) σ₀ fun σ => sumOver δ ls σ F]
  apply sumOver_base δ ls hF
  intro l hlU hll
  rw [if_pos (mem_unique.2 (((hmem l).1 hlU).resolve_right hll))]

/-! ### Tiles by labels -/

omit [DecidableEq L] in
theorem tileDims_labels (P : L → List Nat) (τ : L → Nat) (Xl : List L) :
    tileDims (Xl.map P) (Xl.map τ) = Xl.map fun l => (P l).getD (τ l) 0 := by
  induction Xl with
  | nil => rfl
  | cons x Xl ih => simp only [List.map_cons, tileDims, ih]

omit [DecidableEq L] in
theorem tileGlobal_labels (P : L → List Nat) (τ lam : L → Nat) (Xl : List L) :
    tileGlobal (Xl.map P) (Xl.map τ) (Xl.map lam) = Xl.map fun l => tileStart (P l) (τ l) + lam l := by
  induction Xl with
  | nil => rfl
  | cons x Xl ih => simp only [List.map_cons, tileGlobal, ih]

omit [DecidableEq L] in
theorem gridDims_labels (P : L → List Nat) (Xl : List L) :
    gridDims (Xl.map P) = Xl.map fun l => (P l).length := by
  unfold gridDims; rw [List.map_map]; rfl

omit [DecidableEq L] in
theorem fullDims_labels (P : L → List Nat) (Xl : List L) :
    fullDims (Xl.map P) = Xl.map fun l => (P l).sum := by
  unfold fullDims; rw [List.map_map]; rfl

/-- A list over distinct labels is the list of the values of its assignment. -/
theorem map_bindEnv {U : List L} (hU : U.Nodup) {k : List Nat} (hk : k.length = U.length) (σ₀ : L → Nat) :
    U.map (bindEnv U k σ₀) = k := by
  induction U generalizing k with
  | nil => cases k with
    | nil => rfl
    | cons _ _ => simp at hk
  | cons u U ih =>
    cases k with
    | nil => simp at hk
    | cons v k =>
      obtain ⟨hu, hU'⟩ := List.nodup_cons.1 hU
      simp only [List.map_cons, List.cons.injEq]
      refine ⟨by simp [bindEnv], ?_⟩
      conv_rhs => rw [← ih hU' (k := k) (by simpa using hk)]
      apply List.map_congr_left
      intro l hl
      have : l ≠ u := fun e => hu (e ▸ hl)
      simp [bindEnv, this]

theorem idxOf_bindEnv {U : List L} {k : List Nat} (hk : k.length = U.length) (σ₀ : L → Nat) {l : L} (hl : l ∈ U) :
    k[U.idxOf l]? = some (bindEnv U k σ₀ l) := by
  induction U generalizing k with
  | nil => simp at hl
  | cons u U ih =>
    cases k with
    | nil => simp at hk
    | cons v k =>
      by_cases c : l = u
      · subst c; simp [bindEnv]
      · rw [List.idxOf_cons_ne _ (fun e => c e.symm)]
        simpa [bindEnv, c] using ih (k := k) (by simpa using hk) ((List.mem_cons.1 hl).resolve_left c)

theorem tableIndex_eq {U : List L} {k : List Nat} (hk : k.length = U.length) (σ₀ : L → Nat) {Xl : List L}
    (h : ∀ l ∈ Xl, l ∈ U) : tableIndex k (compileIndexTable U Xl) = .ok (Xl.map (bindEnv U k σ₀)) := by
  unfold compileIndexTable
  induction Xl with
  | nil => rfl
  | cons x Xl ih =>
    have hx := h x (by simp)
    simp only [List.map_cons, if_pos hx, tableIndex]
    rw [if_neg (by omega), Int.toNat_natCast, idxOf_bindEnv hk σ₀ hx]
    simp only
    rw [ih fun l hl => h l (by simp [hl])]
    rfl

theorem findPosition_map (P : L → Nat) {Xl : List L} {l : L} (h : l ∈ Xl) :
    gridSizeIn l Xl (Xl.map P) = some (P l) := by
  obtain ⟨k, h1, h2⟩ := findPosition_mem (p := 0) h
  unfold gridSizeIn
  rw [h1, Nat.zero_add]
  have := h2 (Xl.map P) (by simp) (fun _ => 0)
  rw [bindEnv_map, if_pos h] at this
  rw [Option.map_some, List.getD_eq_getElem?_getD, this]
  rfl

/-- The grid of the labels when every operand partitions every label in the same way. -/
theorem gridRanges_eq (P : L → Nat) (Cl Al Bl : List L) :
    gridRanges Cl (Cl.map P) Al (Al.map P) Bl (Bl.map P) = (uniqueLabels Cl Al Bl).map P := by
  unfold gridRanges
  apply List.map_congr_left
  intro l hl
  unfold uniqueLabels at hl
  rw [mem_unique, List.mem_append, List.mem_append] at hl
  unfold gridRange
  by_cases hc : l ∈ Cl
  · rw [findPosition_map P hc]
  · have e : gridSizeIn l Cl (Cl.map P) = none := by unfold gridSizeIn; rw [findPosition_not_mem hc]; rfl
    rw [e]
    simp only
    by_cases ha : l ∈ Al
    · rw [findPosition_map P ha]
    · have e : gridSizeIn l Al (Al.map P) = none := by unfold gridSizeIn; rw [findPosition_not_mem ha]; rfl
      rw [e]
      simp only
      rw [findPosition_map P ((hl.resolve_left (by simp [hc, ha])))]
      rfl

theorem gridCount_eq {g : List Nat} (h : g ≠ []) : gridCount g = numel g := head_mul_stride h

theorem mem_uniqueLabels {Cl Al Bl : List L} {l : L} : l ∈ uniqueLabels Cl Al Bl ↔ l ∈ Cl ∨ l ∈ Al ∨ l ∈ Bl := by
  unfold uniqueLabels
  rw [mem_unique, List.mem_append, List.mem_append, or_assoc]

/-! ### What one iteration contributes -/

/-- The term of the contraction at the assignment given by a multi-index over all labels; zero if it is not an
assignment that extends `ρ`. -/
def fixedTerm [Mul R] [Zero R] (U Cl Al Bl : List L) (fA fB : List Nat → R) (ρ : L → Nat) (j : List Nat) : R :=
  if ∀ l ∈ Cl, bindEnv U j (fun _ => 0) l = ρ l then
    fA (Al.map (bindEnv U j fun _ => 0)) * fB (Bl.map (bindEnv U j fun _ => 0)) else 0

/-- The sum of these terms over one tile. -/
def tilePart [Mul R] [Add R] [Zero R] (P : L → List Nat) (U Cl Al Bl : List L) (fA fB : List Nat → R) (ρ : L → Nat)
    (k : List Nat) : R :=
  ((box (tileDims (U.map P) k)).map fun x => fixedTerm U Cl Al Bl fA fB ρ (tileGlobal (U.map P) k x)).sum

/-- The labels of a contraction. -/
theorem labels_iff {Cl Al Bl ls : List L} (coverA : ∀ l ∈ Al, l ∈ Cl ∨ l ∈ Bl) (coverB : ∀ l ∈ Bl, l ∈ Cl ∨ l ∈ Al)
    (hls : Contracted Al Bl Cl ls) (l : L) : l ∈ uniqueLabels Cl Al Bl ↔ l ∈ Cl ∨ l ∈ ls := by
  rw [mem_uniqueLabels, hls.2 l]
  by_cases hc : l ∈ Cl
  · simp [hc]
  · have h1 := coverA l
    have h2 := coverB l
    simp only [hc, false_or, not_false_eq_true, and_true] at *
    tauto

section
variable [CommSemiring R]

/-- The whole contraction is the sum over all tiles. -/
theorem sum_tileParts (P : L → List Nat) {Cl Al Bl ls : List L} {fA fB : List Nat → R} {ρ : L → Nat}
    (coverA : ∀ l ∈ Al, l ∈ Cl ∨ l ∈ Bl) (coverB : ∀ l ∈ Bl, l ∈ Cl ∨ l ∈ Al) (hls : Contracted Al Bl Cl ls)
    (hρ : InRange (fun l => (P l).sum) Cl ρ) :
    ((box ((uniqueLabels Cl Al Bl).map fun l => (P l).length)).map
      (tilePart P (uniqueLabels Cl Al Bl) Cl Al Bl fA fB ρ)).sum
      = contraction (fun l => (P l).sum) ls Al Bl fA fB ρ := by
  unfold contraction
  rw [sumOver_box (fun l => (P l).sum) (U := uniqueLabels Cl Al Bl) (Cl := Cl) (nodup_unique _) hls.1
    (labels_iff coverA coverB hls) (fun l hl => ((hls.2 l).1 hl).2.2) hρ
    (F := fun σ => fA (Al.map σ) * fB (Bl.map σ)) ?_ (fun _ => 0)]
  · rw [← fullDims_labels, ← sum_tiles, gridDims_labels]
    rfl
  · intro σ σ' h
    have e1 : Al.map σ = Al.map σ' := List.map_congr_left fun l hl => h l (mem_uniqueLabels.2 (.inr (.inl hl)))
    have e2 : Bl.map σ = Bl.map σ' := List.map_congr_left fun l hl => h l (mem_uniqueLabels.2 (.inr (.inr hl)))
    simp only [e1, e2]

/-- A tile with an element of another tile of `C` contributes nothing; otherwise its part is the contraction of the
tiles. -/
theorem tilePart_eq (P : L → List Nat) {Cl Al Bl ls : List L} {fA fB : List Nat → R} {ρ : L → Nat}
    (coverA : ∀ l ∈ Al, l ∈ Cl ∨ l ∈ Bl) (coverB : ∀ l ∈ Bl, l ∈ Cl ∨ l ∈ Al) (hls : Contracted Al Bl Cl ls)
    (τ : L → Nat) (hin : ∀ l ∈ Cl, tileStart (P l) (τ l) ≤ ρ l ∧ ρ l < tileStart (P l) (τ l) + (P l).getD (τ l) 0) :
    tilePart P (uniqueLabels Cl Al Bl) Cl Al Bl fA fB ρ ((uniqueLabels Cl Al Bl).map τ)
      = contraction (fun l => (P l).getD (τ l) 0) ls Al Bl (fun x => fA (tileGlobal (Al.map P) (Al.map τ) x))
          (fun x => fB (tileGlobal (Bl.map P) (Bl.map τ) x)) (fun l => ρ l - tileStart (P l) (τ l)) := by
  have hU : (uniqueLabels Cl Al Bl).Nodup := nodup_unique (Cl ++ Al ++ Bl)
  unfold contraction
  rw [sumOver_box (fun l => (P l).getD (τ l) 0) (U := uniqueLabels Cl Al Bl) (Cl := Cl) (nodup_unique _) hls.1
    (labels_iff coverA coverB hls) (fun l hl => ((hls.2 l).1 hl).2.2) (fun l hl => by have := hin l hl; simp only; omega)
    (F := fun σ => fA (tileGlobal (Al.map P) (Al.map τ) (Al.map σ)) * fB (tileGlobal (Bl.map P) (Bl.map τ) (Bl.map σ)))
    ?_ (fun _ => 0)]
  · unfold tilePart
    rw [tileDims_labels]
    congr 1
    apply List.map_congr_left
    intro x hx
    have hlen : x.length = (uniqueLabels Cl Al Bl).length := by
      have := (mem_box.1 hx).length; simpa using this
    obtain ⟨lam, hlam⟩ : ∃ lam : L → Nat, lam = bindEnv (uniqueLabels Cl Al Bl) x fun _ => 0 := ⟨_, rfl⟩
    have ex : x = (uniqueLabels Cl Al Bl).map lam := by rw [hlam, map_bindEnv hU hlen]
    rw [ex, tileGlobal_labels]
    unfold fixedTerm
    have env : ∀ (f : L → Nat) l, l ∈ uniqueLabels Cl Al Bl →
        bindEnv (uniqueLabels Cl Al Bl) ((uniqueLabels Cl Al Bl).map f) (fun _ => 0) l = f l := by
      intro f l hl
      rw [bindEnv_map, if_pos hl]
    have mC : ∀ l ∈ Cl, l ∈ uniqueLabels Cl Al Bl := fun l hl => mem_uniqueLabels.2 (.inl hl)
    have mA : ∀ l ∈ Al, l ∈ uniqueLabels Cl Al Bl := fun l hl => mem_uniqueLabels.2 (.inr (.inl hl))
    have mB : ∀ l ∈ Bl, l ∈ uniqueLabels Cl Al Bl := fun l hl => mem_uniqueLabels.2 (.inr (.inr hl))
    have hc : (∀ l ∈ Cl, bindEnv (uniqueLabels Cl Al Bl)
          ((uniqueLabels Cl Al Bl).map fun l => tileStart (P l) (τ l) + lam l) (fun _ => 0) l = ρ l) ↔
        (∀ l ∈ Cl, bindEnv (uniqueLabels Cl Al Bl) ((uniqueLabels Cl Al Bl).map lam) (fun _ => 0) l
          = ρ l - tileStart (P l) (τ l)) := by
      constructor
      · intro h l hl
        have := h l hl
        rw [env _ l (mC l hl)] at this
        rw [env _ l (mC l hl)]
        omega
      · intro h l hl
        have := h l hl
        rw [env _ l (mC l hl)] at this
        rw [env _ l (mC l hl)]
        have := hin l hl
        omega
    have eA : ∀ f : L → Nat, Al.map (bindEnv (uniqueLabels Cl Al Bl) ((uniqueLabels Cl Al Bl).map f) fun _ => 0) = Al.map f :=
      fun f => List.map_congr_left fun l hl => env f l (mA l hl)
    have eB : ∀ f : L → Nat, Bl.map (bindEnv (uniqueLabels Cl Al Bl) ((uniqueLabels Cl Al Bl).map f) fun _ => 0) = Bl.map f :=
      fun f => List.map_congr_left fun l hl => env f l (mB l hl)
    simp only [eA, eB, tileGlobal_labels]
    by_cases c : ∀ l ∈ Cl, bindEnv (uniqueLabels Cl Al Bl) ((uniqueLabels Cl Al Bl).map lam) (fun _ => 0) l
          = ρ l - tileStart (P l) (τ l)
    · rw [if_pos c, if_pos (hc.2 c)]
    · rw [if_neg c, if_neg (fun h => c (hc.1 h))]
  · intro σ σ' h
    have e1 : Al.map σ = Al.map σ' := List.map_congr_left fun l hl => h l (mem_uniqueLabels.2 (.inr (.inl hl)))
    have e2 : Bl.map σ = Bl.map σ' := List.map_congr_left fun l hl => h l (mem_uniqueLabels.2 (.inr (.inr hl)))
    simp only [e1, e2]

/-- All terms vanish. -/
theorem tilePart_zero (P : L → List Nat) {Cl Al Bl : List L} {fA fB : List Nat → R} {ρ : L → Nat} (τ : L → Nat)
    (h : ∀ lam : L → Nat, (∀ l ∈ uniqueLabels Cl Al Bl, lam l < (P l).getD (τ l) 0) →
      (∀ l ∈ Cl, tileStart (P l) (τ l) + lam l = ρ l) →
      fA (tileGlobal (Al.map P) (Al.map τ) (Al.map lam)) * fB (tileGlobal (Bl.map P) (Bl.map τ) (Bl.map lam)) = 0) :
    tilePart P (uniqueLabels Cl Al Bl) Cl Al Bl fA fB ρ ((uniqueLabels Cl Al Bl).map τ) = 0 := by
  have hU : (uniqueLabels Cl Al Bl).Nodup := nodup_unique (Cl ++ Al ++ Bl)
  unfold tilePart
  apply List.sum_eq_zero
  intro y hy
  obtain ⟨x, hx, rfl⟩ := List.mem_map.1 hy
  rw [tileDims_labels] at hx
  have hlen : x.length = (uniqueLabels Cl Al Bl).length := by
    have := (mem_box.1 hx).length; simpa using this
  obtain ⟨lam, hlam⟩ : ∃ lam : L → Nat, lam = bindEnv (uniqueLabels Cl Al Bl) x fun _ => 0 := ⟨_, rfl⟩
  have ex : x = (uniqueLabels Cl Al Bl).map lam := by rw [hlam, map_bindEnv hU hlen]
  have hlt : ∀ l ∈ uniqueLabels Cl Al Bl, lam l < (P l).getD (τ l) 0 := by
    intro l hl
    rw [hlam]
    exact box_bindEnv_inBox (mem_box.1 hx) hl
  rw [ex, tileGlobal_labels]
  unfold fixedTerm
  have env : ∀ (f : L → Nat) l, l ∈ uniqueLabels Cl Al Bl →
      bindEnv (uniqueLabels Cl Al Bl) ((uniqueLabels Cl Al Bl).map f) (fun _ => 0) l = f l := by
    intro f l hl
    rw [bindEnv_map, if_pos hl]
  have eA : ∀ f : L → Nat, Al.map (bindEnv (uniqueLabels Cl Al Bl) ((uniqueLabels Cl Al Bl).map f) fun _ => 0) = Al.map f :=
    fun f => List.map_congr_left fun l hl => env f l (mem_uniqueLabels.2 (.inr (.inl hl)))
  have eB : ∀ f : L → Nat, Bl.map (bindEnv (uniqueLabels Cl Al Bl) ((uniqueLabels Cl Al Bl).map f) fun _ => 0) = Bl.map f :=
    fun f => List.map_congr_left fun l hl => env f l (mem_uniqueLabels.2 (.inr (.inr hl)))
  rw [eA, eB]
  split
  · rename_i hc
    have := h lam hlt fun l hl => by
      have := hc l hl
      rwa [env _ l (mem_uniqueLabels.2 (.inl hl))] at this
    rwa [tileGlobal_labels, tileGlobal_labels] at this
  · rfl

/-! ### The tiles an iteration uses -/

omit [CommSemiring R] in
theorem tileOfSentinel_eq {U : List L} {grid : List Nat} (hg : grid.length = U.length) {Xl : List L} (h : ∀ l ∈ Xl, l ∈ U)
    {s : Nat} (hs : s < numel grid) :
    tileOfSentinel U grid Xl s = .ok (Xl.map (bindEnv U (sentinelToIndices s (dimsToStrides grid).2) fun _ => 0)) := by
  unfold tileOfSentinel
  exact tableIndex_eq (by rw [(sentinelToIndices_spec hs).1.length, hg]) _ h

omit [CommSemiring R] in
/-- A tile number in the grid of all labels is in the grid of each operand. -/
theorem tile_inGrid {P : L → List Nat} {U : List L} {k : List Nat} (hk : InBox k (U.map fun l => (P l).length)) {Xl : List L}
    (h : ∀ l ∈ Xl, l ∈ U) : InBox (Xl.map (bindEnv U k fun _ => 0)) (gridDims (Xl.map P)) := by
  rw [gridDims_labels]
  exact inBox_map fun l hl => box_bindEnv_inBox hk (h l hl)

omit [CommSemiring R] in
theorem Model.Strided.IsTensor.operand {t : Strided R} (h : t.IsTensor) : (tensorOperand t).Valid :=
  ⟨h.wf, fun _ => h.rowMajor, fun _ => ⟨rfl, h⟩⟩

omit [CommSemiring R] [DecidableEq L] in
theorem hasZeroSize_labels {T : Tiled R} {P : L → List Nat} {Xl : List L} (sT : T.sizes = Xl.map P) {τ : L → Nat}
    (hk : InBox (Xl.map τ) (gridDims (Xl.map P))) :
    T.hasZeroSize (Xl.map τ) = true ↔ ∃ l ∈ Xl, (P l).getD (τ l) 0 = 0 := by
  rw [hasZeroSize_iff (by rw [sT]; exact hk), sT, tileDims_labels, List.mem_map]

omit [CommSemiring R] [DecidableEq L] in
theorem inTile_labels {P : L → List Nat} {τ ρ : L → Nat} {Xl : List L} (h : InTile (Xl.map P) (Xl.map τ) (Xl.map ρ)) :
    ∀ l ∈ Xl, tileStart (P l) (τ l) ≤ ρ l ∧ ρ l < tileStart (P l) (τ l) + (P l).getD (τ l) 0 := by
  induction Xl with
  | nil => simp
  | cons c Xl ih =>
    intro l hl
    obtain ⟨⟨w, h1, h2, h3⟩, h4⟩ := h
    rcases List.mem_cons.1 hl with rfl | hl
    · rw [List.getD_eq_getElem?_getD, h1]
      exact ⟨h2, h3⟩
    · exact ih h4 l hl

variable [BEq R] [LawfulBEq R]

omit [DecidableEq L] in
theorem prescale_holds {C : Tiled R} (w : C.WF) {f : List Nat → R} (h : C.Holds f) (cp : R) :
    (C.prescale cp).WF ∧ (C.prescale cp).sizes = C.sizes ∧ (C.prescale cp).Holds fun i => cp * f i := by
  unfold Tiled.prescale
  by_cases c : cp == 0
  · rw [if_pos c]
    refine ⟨mapTiles_wf w _, rfl, ?_⟩
    have e : cp = 0 := by simpa using c
    subst e
    have := mapTiles_holds w (fun _ => (0 : R)) rfl h
    simpa using this
  · rw [if_neg c]
    unfold Tiled.mulScalar
    rw [if_neg c]
    refine ⟨mapTiles_wf w _, rfl, ?_⟩
    have := mapTiles_holds w (fun x => x * cp) (zero_mul cp) h
    simpa [mul_comm] using this

variable [Div R]

/-- One iteration adds the part of its tile to every element of `C`. -/
theorem tiledEinsumStep_ok {P : L → List Nat} {Al Bl Cl ls : List L} {og check : Bool} {A B C : Tiled R}
    {fA fB f : List Nat → R} {ab : R} (wA : A.WF) (wB : B.WF) (wC : C.WF) (hA : A.Holds fA) (hB : B.Holds fB) (hC : C.Holds f)
    (sA : A.sizes = Al.map P) (sB : B.sizes = Bl.map P) (sC : C.sizes = Cl.map P)
    (hAn : Al.Nodup) (hA0 : Al ≠ []) (hB0 : Bl ≠ []) (hC0 : Cl ≠ [])
    (coverA : ∀ l ∈ Al, l ∈ Cl ∨ l ∈ Bl) (coverB : ∀ l ∈ Bl, l ∈ Cl ∨ l ∈ Al) (coverC : ∀ l ∈ Cl, l ∈ Al ∨ l ∈ Bl)
    (noTriple : choosePath og Al Bl Cl = .gemm → ∀ l ∈ Cl, ¬(l ∈ Al ∧ l ∈ Bl))
    (order : choosePath og Al Bl Cl = .outer → Cl = Al ++ Bl ∨ Cl = Bl ++ Al)
    (hls : Contracted Al Bl Cl ls) {s : Nat} (hs : s < numel ((uniqueLabels Cl Al Bl).map fun l => (P l).length)) :
    ∃ C' f', tiledEinsumStep og check (uniqueLabels Cl Al Bl) ((uniqueLabels Cl Al Bl).map fun l => (P l).length) Cl ab Al A Bl B
        C s = .ok C' ∧ C'.WF ∧ C'.sizes = C.sizes ∧ C'.Holds f' ∧
      ∀ ρ, InRange (fun l => (P l).sum) Cl ρ → f' (Cl.map ρ) = f (Cl.map ρ) + ab *
        tilePart P (uniqueLabels Cl Al Bl) Cl Al Bl fA fB ρ
          (sentinelToIndices s (dimsToStrides ((uniqueLabels Cl Al Bl).map fun l => (P l).length)).2) := by
  classical
  have mC : ∀ l ∈ Cl, l ∈ uniqueLabels Cl Al Bl := fun l hl => mem_uniqueLabels.2 (.inl hl)
  have mA : ∀ l ∈ Al, l ∈ uniqueLabels Cl Al Bl := fun l hl => mem_uniqueLabels.2 (.inr (.inl hl))
  have mB : ∀ l ∈ Bl, l ∈ uniqueLabels Cl Al Bl := fun l hl => mem_uniqueLabels.2 (.inr (.inr hl))
  obtain ⟨k, hkdef⟩ : ∃ k, k = sentinelToIndices s
      (dimsToStrides ((uniqueLabels Cl Al Bl).map fun l => (P l).length)).2 := ⟨_, rfl⟩
  have hk : InBox k ((uniqueLabels Cl Al Bl).map fun l => (P l).length) := by
    rw [hkdef]; exact (sentinelToIndices_spec hs).1
  unfold tiledEinsumStep
  rw [tileOfSentinel_eq (by simp) mA hs, tileOfSentinel_eq (by simp) mB hs, tileOfSentinel_eq (by simp) mC hs, ← hkdef]
  obtain ⟨τ, hτ⟩ : ∃ τ : L → Nat, τ = bindEnv (uniqueLabels Cl Al Bl) k fun _ => 0 := ⟨_, rfl⟩
  have kA : InBox (Al.map τ) (gridDims (Al.map P)) := by rw [hτ]; exact tile_inGrid hk mA
  have kB : InBox (Bl.map τ) (gridDims (Bl.map P)) := by rw [hτ]; exact tile_inGrid hk mB
  have kC : InBox (Cl.map τ) (gridDims (Cl.map P)) := by rw [hτ]; exact tile_inGrid hk mC
  have ek : k = (uniqueLabels Cl Al Bl).map τ := by
    rw [hτ]
    exact (map_bindEnv (U := uniqueLabels Cl Al Bl) (nodup_unique _) (by have := hk.length; simpa using this) _).symm
  simp only [Outcome.ok_bind, ← hτ]
  have kA' : InBox (Al.map τ) (gridDims A.sizes) := by rw [sA]; exact kA
  have kB' : InBox (Bl.map τ) (gridDims B.sizes) := by rw [sB]; exact kB
  have kC' : InBox (Cl.map τ) (gridDims C.sizes) := by rw [sC]; exact kC
  rw [hasTileContainer_eq kA', hasTileContainer_eq kB']
  by_cases skip : (!(A.tiles.lookup (Al.map τ)).isSome || !(B.tiles.lookup (Bl.map τ)).isSome || A.hasZeroSize (Al.map τ)
      || B.hasZeroSize (Bl.map τ) || C.hasZeroSize (Cl.map τ)) = true
  · rw [if_pos skip]
    refine ⟨C, f, rfl, wC, rfl, hC, ?_⟩
    intro ρ _
    rw [ek, tilePart_zero, mul_zero, add_zero]
    intro lam hlam _
    simp only [Bool.or_eq_true, Bool.not_eq_true'] at skip
    rw [hasZeroSize_labels sA kA, hasZeroSize_labels sB kB, hasZeroSize_labels sC kC] at skip
    rcases skip with (((h | h) | ⟨l, hl, h⟩) | ⟨l, hl, h⟩) | ⟨l, hl, h⟩
    · have := (hA _ kA').2 (by simpa using h) (Al.map lam) (by
        rw [sA, tileDims_labels]; exact inBox_map fun l hl => hlam l (mA l hl))
      rw [sA] at this
      rw [this, zero_mul]
    · have := (hB _ kB').2 (by simpa using h) (Bl.map lam) (by
        rw [sB, tileDims_labels]; exact inBox_map fun l hl => hlam l (mB l hl))
      rw [sB] at this
      rw [this, mul_zero]
    · have := hlam l (mA l hl); omega
    · have := hlam l (mB l hl); omega
    · have := hlam l (mC l hl); omega
  · rw [if_neg skip]
    simp only [Bool.or_eq_true, Bool.not_eq_true', not_or] at skip
    obtain ⟨⟨⟨⟨s1, s2⟩, s3⟩, s4⟩, s5⟩ := skip
    obtain ⟨α, hα⟩ : ∃ α, A.tiles.lookup (Al.map τ) = some α :=
      Option.isSome_iff_exists.1 (Bool.not_eq_false _ ▸ s1)
    obtain ⟨β, hβ⟩ : ∃ β, B.tiles.lookup (Bl.map τ) = some β :=
      Option.isSome_iff_exists.1 (Bool.not_eq_false _ ▸ s2)
    have eα : A.at (Al.map τ) = .ok α := by unfold Tiled.at; rw [hα]
    have eβ : B.at (Bl.map τ) = .ok β := by unfold Tiled.at; rw [hβ]
    obtain ⟨_, tα, dα⟩ := wA.tiles _ _ hα
    obtain ⟨_, tβ, dβ⟩ := wB.tiles _ _ hβ
    have rα := (hA _ kA').1 _ hα
    have rβ := (hB _ kB').1 _ hβ
    rw [sA] at dα rα
    rw [sB] at dβ rβ
    rw [tileDims_labels] at dα dβ
    obtain ⟨C2, γ, q1, q2, q3, q4, q5, q6, q7, q8, q9, q10, q11⟩ := tile_at wC hC kC'
    rw [sC] at q9 q10
    have q9' := q9
    rw [tileDims_labels] at q9'
    have hz : ∀ l ∈ Al, (P l).getD (τ l) 0 ≠ 0 := by
      intro l hl h
      rw [hasZeroSize_labels sA kA] at s3
      exact s3 ⟨l, hl, h⟩
    obtain ⟨γ', g1, g2, g3⟩ := Props.C15_einsum (fun l => (P l).getD (τ l) 0) Al Bl Cl ls og check (tensorOperand α)
      (tensorOperand β) (tensorOperand γ) _ _ _ 1 ab hAn hA0 hB0 hC0 dα dβ q9' tα.operand tβ.operand q8.operand rfl rα rβ q10
      coverA coverB coverC noTriple order hls (.inl fun l hl => hz l ((hls.2 l).1 hl).1)
    have tγ' : γ'.IsTensor := g2.isTensor q8
    have : Inhabited R := ⟨0⟩
    obtain ⟨g, hg⟩ := exists_represents tγ'.wf
    have dγ' : γ'.dims = tileDims C2.sizes (Cl.map τ) := by rw [g2.dims, q4, sC]; exact q9
    have kC2 : InBox (Cl.map τ) (gridDims C2.sizes) := by rw [q4]; exact kC'
    obtain ⟨w3, h3⟩ := setTile_update q3 q7 kC2 (by rw [q11]; rfl) tγ' dγ'
      (g := fun i => g (tileLocal C2.sizes (Cl.map τ) i)) (by
        intro l hl
        rw [hg l hl]
        simp only
        rw [tileLocal_global kC2 (by rw [← dγ']; exact hl)])
    refine ⟨_, _, ?_, w3, q4, h3, ?_⟩
    · rw [q1, Outcome.ok_bind]
      simp only
      rw [tileConst_eq kA', tileConst_eq kB', eα, eβ, Outcome.ok_bind, Outcome.ok_bind, q2, Outcome.ok_bind, g1]
      rfl
    · intro ρ hρ
      simp only [q4, sC]
      by_cases hin : ∀ l ∈ Cl, tileStart (P l) (τ l) ≤ ρ l ∧ ρ l < tileStart (P l) (τ l) + (P l).getD (τ l) 0
      · have el : Cl.map ρ = tileGlobal (Cl.map P) (Cl.map τ) (Cl.map fun l => ρ l - tileStart (P l) (τ l)) := by
          rw [tileGlobal_labels]
          apply List.map_congr_left
          intro l hl
          have := hin l hl
          omega
        have bl : InBox (Cl.map fun l => ρ l - tileStart (P l) (τ l)) (tileDims (Cl.map P) (Cl.map τ)) := by
          rw [tileDims_labels]
          exact inBox_map fun l hl => by have := hin l hl; omega
        have hit : InTile (Cl.map P) (Cl.map τ) (Cl.map ρ) := by rw [el]; exact inTile_global kC bl
        rw [if_pos hit, ek, tilePart_eq P coverA coverB hls τ hin]
        conv_lhs => rw [el]
        rw [tileLocal_global kC bl]
        have := g3 (fun l => ρ l - tileStart (P l) (τ l)) (fun l hl => by have := hin l hl; simp only; omega)
        rw [hg _ (by rw [g2.dims]; change InBox _ γ.dims; rw [q9]; exact bl)] at this
        rw [Outcome.ok.inj this, one_mul, ← el]
      · have hit : ¬ InTile (Cl.map P) (Cl.map τ) (Cl.map ρ) := by
          intro h
          apply hin
          exact inTile_labels h
        rw [if_neg hit, ek, tilePart_zero, mul_zero, add_zero]
        intro lam hlam hco
        exfalso
        apply hin
        intro l hl
        have h1 := hlam l (mC l hl)
        have h2 := hco l hl
        omega

/-- A sequence of iterations adds the parts of their tiles. -/
theorem tiledEinsum_loop {P : L → List Nat} {Al Bl Cl ls : List L} {og check : Bool} {A B : Tiled R}
    {fA fB : List Nat → R} {ab : R} (wA : A.WF) (wB : B.WF) (hA : A.Holds fA) (hB : B.Holds fB)
    (sA : A.sizes = Al.map P) (sB : B.sizes = Bl.map P)
    (hAn : Al.Nodup) (hA0 : Al ≠ []) (hB0 : Bl ≠ []) (hC0 : Cl ≠ [])
    (coverA : ∀ l ∈ Al, l ∈ Cl ∨ l ∈ Bl) (coverB : ∀ l ∈ Bl, l ∈ Cl ∨ l ∈ Al) (coverC : ∀ l ∈ Cl, l ∈ Al ∨ l ∈ Bl)
    (noTriple : choosePath og Al Bl Cl = .gemm → ∀ l ∈ Cl, ¬(l ∈ Al ∧ l ∈ Bl))
    (order : choosePath og Al Bl Cl = .outer → Cl = Al ++ Bl ∨ Cl = Bl ++ Al)
    (hls : Contracted Al Bl Cl ls) (sched : List Nat)
    (hs : ∀ s ∈ sched, s < numel ((uniqueLabels Cl Al Bl).map fun l => (P l).length)) :
    ∀ (C : Tiled R) (f : List Nat → R), C.WF → C.Holds f → C.sizes = Cl.map P →
    ∃ C' f', sched.foldlM (tiledEinsumStep og check (uniqueLabels Cl Al Bl)
        ((uniqueLabels Cl Al Bl).map fun l => (P l).length) Cl ab Al A Bl B) C = .ok C' ∧ C'.WF ∧ C'.sizes = C.sizes ∧
      C'.Holds f' ∧ ∀ ρ, InRange (fun l => (P l).sum) Cl ρ → f' (Cl.map ρ) = f (Cl.map ρ) + ab *
        (sched.map fun s => tilePart P (uniqueLabels Cl Al Bl) Cl Al Bl fA fB ρ
          (sentinelToIndices s (dimsToStrides ((uniqueLabels Cl Al Bl).map fun l => (P l).length)).2)).sum := by
  induction sched with
  | nil =>
    intro C f wC hC sC
    exact ⟨C, f, rfl, wC, rfl, hC, fun ρ _ => by simp⟩
  | cons s sched ih =>
    intro C f wC hC sC
    obtain ⟨C1, f1, e1, w1, s1, h1, v1⟩ := tiledEinsumStep_ok (og := og) (check := check) (ab := ab) wA wB wC hA hB hC sA sB sC
      hAn hA0 hB0 hC0 coverA coverB coverC noTriple order hls (hs s (by simp))
    obtain ⟨C2, f2, e2, w2, s2, h2, v2⟩ := ih (fun t ht => hs t (by simp [ht])) C1 f1 w1 h1 (s1.trans sC)
    refine ⟨C2, f2, ?_, w2, s2.trans s1, h2, ?_⟩
    · rw [List.foldlM_cons, e1]
      exact e2
    · intro ρ hρ
      rw [v2 ρ hρ, v1 ρ hρ, List.map_cons, List.sum_cons, mul_add, add_assoc]

/-- All tiles of the grid, in any order. -/
theorem tiledEinsum_ok {P : L → List Nat} {Al Bl Cl ls : List L} {og check : Bool} {A B C : Tiled R}
    {fA fB f : List Nat → R} {cp ab : R} (wA : A.WF) (wB : B.WF) (wC : C.WF) (hA : A.Holds fA) (hB : B.Holds fB)
    (hC : C.Holds f) (sA : A.sizes = Al.map P) (sB : B.sizes = Bl.map P) (sC : C.sizes = Cl.map P)
    (hAn : Al.Nodup) (hA0 : Al ≠ []) (hB0 : Bl ≠ []) (hC0 : Cl ≠ [])
    (coverA : ∀ l ∈ Al, l ∈ Cl ∨ l ∈ Bl) (coverB : ∀ l ∈ Bl, l ∈ Cl ∨ l ∈ Al) (coverC : ∀ l ∈ Cl, l ∈ Al ∨ l ∈ Bl)
    (noTriple : choosePath og Al Bl Cl = .gemm → ∀ l ∈ Cl, ¬(l ∈ Al ∧ l ∈ Bl))
    (order : choosePath og Al Bl Cl = .outer → Cl = Al ++ Bl ∨ Cl = Bl ++ Al)
    (hls : Contracted Al Bl Cl ls) {sched : List Nat} (hs : sched.Perm (List.range (tiledEinsumCount Cl C Al A Bl B))) :
    ∃ C' f', tiledEinsum og check cp Cl C ab Al A Bl B sched = .ok C' ∧ C'.WF ∧ C'.sizes = C.sizes ∧
      C'.Holds f' ∧ ∀ ρ, InRange (fun l => (P l).sum) Cl ρ →
        f' (Cl.map ρ) = cp * f (Cl.map ρ) + ab * contraction (fun l => (P l).sum) ls Al Bl fA fB ρ := by
  have g : ∀ {T : Tiled R} {Xl : List L}, T.sizes = Xl.map P → T.grid = Xl.map fun l => (P l).length := by
    intro T Xl h
    unfold Tiled.grid
    rw [h, List.map_map]
    rfl
  have hU : (uniqueLabels Cl Al Bl).map (fun l => (P l).length) ≠ [] := by
    obtain ⟨l, hl⟩ := List.exists_mem_of_ne_nil Cl hC0
    intro h
    have := mem_uniqueLabels (Al := Al) (Bl := Bl).2 (.inl hl)
    rw [List.map_eq_nil_iff.1 h] at this
    simp at this
  unfold tiledEinsumCount at hs
  unfold tiledEinsum
  rw [g sA, g sB, g sC, gridRanges_eq (fun l => (P l).length)] at hs ⊢
  rw [gridCount_eq hU] at hs
  obtain ⟨w0, s0, h0⟩ := prescale_holds wC hC cp
  obtain ⟨C', f', e, w, s', h, v⟩ := tiledEinsum_loop (og := og) (check := check) (ab := ab) wA wB hA hB sA sB hAn hA0 hB0 hC0
    coverA coverB coverC noTriple order hls sched (fun s h => List.mem_range.1 (hs.mem_iff.1 h)) _ _ w0 h0 (s0.trans sC)
  refine ⟨C', f', e, w, s'.trans s0, h, ?_⟩
  intro ρ hρ
  rw [v ρ hρ, (hs.map _).sum_eq, ← sum_tileParts P coverA coverB hls hρ, box_eq_map, List.map_map]
  rfl

/-! ### A scalar result -/

omit [Div R] in
/-- `einsum` of two operands into a scalar, whichever of its two paths is taken. -/
theorem einsumScalar_ok (δ : L → Nat) (Al Bl ls : List L) (check : Bool) (A B : Operand R) (fA fB : List Nat → R)
    (cp c ab : R) (hAn : Al.Nodup) (hA0 : Al ≠ []) (dA : A.t.dims = Al.map δ) (dB : B.t.dims = Bl.map δ) (vA : A.Valid)
    (vB : B.Valid) (hA : A.t.Represents fA) (hB : B.t.Represents fB) (coverA : ∀ l ∈ Al, l ∈ Bl) (coverB : ∀ l ∈ Bl, l ∈ Al)
    (hls : Contracted Al Bl [] ls) :
    einsumScalar check cp c ab Al A Bl B = .ok (cp * c + ab * contraction δ ls Al Bl fA fB fun _ => 0) := by
  have hok : labelsOk ([] : List L) (linkUnique Al Bl []) Al Bl = true := by
    simp only [labelsOk, linkUnique, List.all_eq_true, List.mem_append, Bool.or_eq_true, decide_eq_true_eq,
      mem_unique, mem_links]
    intro l hl; right
    rcases hl with hl | hl
    · exact ⟨hl, coverA l hl, by simp⟩
    · exact ⟨coverB l hl, hl, by simp⟩
  have hr : runtimeAbort Al Bl [] A.t.dims B.t.dims [] = false := by
    have e1 : ∀ (Xl : List L) (X : List Nat), dimsClash Xl X ([] : List L) [] = false := by intro Xl X; simp [dimsClash]
    unfold runtimeAbort
    rw [dA, dB, Props.no_clash_of_map, e1, e1]; rfl
  by_cases hd : isDotProduct Al Bl [] = true
  · have e : Al = Bl := by
      simp only [isDotProduct, Bool.and_eq_true, decide_eq_true_eq] at hd
      exact hd.1.2
    subst e
    rw [Props.C22_dot δ Al check A B fA fB cp c ab hAn hA0 dA dB vA vB hA hB]
    congr 3
    unfold contraction
    exact sumOver_perm δ ((List.perm_ext_iff_of_nodup hAn hls.1).2 fun l => by rw [hls.2 l]; simp) hAn _ _
  · unfold einsumScalar
    rw [hok, hr]
    simp only [Bool.true_eq_false, if_false, Bool.and_false, Bool.false_eq_true, hd]
    exact Props.C15_contraction_scalar δ Al Bl ls A.t B.t fA fB cp c ab dA dB hA hB coverA coverB hA0
      (fun l hl => List.count_eq_one_of_mem hAn ((hls.2 l).1 hl).1) hls

omit [Div R] in
/-- The contribution of one iteration. -/
theorem tiledScalarTerm_ok {P : L → List Nat} {Al Bl ls : List L} {check : Bool} {A B : Tiled R}
    {fA fB : List Nat → R} {ab : R} (wA : A.WF) (wB : B.WF) (hA : A.Holds fA) (hB : B.Holds fB)
    (sA : A.sizes = Al.map P) (sB : B.sizes = Bl.map P) (hAn : Al.Nodup) (hA0 : Al ≠ [])
    (coverA : ∀ l ∈ Al, l ∈ Bl) (coverB : ∀ l ∈ Bl, l ∈ Al) (hls : Contracted Al Bl [] ls) {s : Nat}
    (hs : s < numel ((uniqueLabels [] Al Bl).map fun l => (P l).length)) :
    tiledScalarTerm check (uniqueLabels [] Al Bl) ((uniqueLabels [] Al Bl).map fun l => (P l).length) ab Al A Bl B s
      = .ok (ab * tilePart P (uniqueLabels [] Al Bl) [] Al Bl fA fB (fun _ => 0)
          (sentinelToIndices s (dimsToStrides ((uniqueLabels [] Al Bl).map fun l => (P l).length)).2)) := by
  classical
  have mA : ∀ l ∈ Al, l ∈ uniqueLabels [] Al Bl := fun l hl => mem_uniqueLabels.2 (.inr (.inl hl))
  have mB : ∀ l ∈ Bl, l ∈ uniqueLabels [] Al Bl := fun l hl => mem_uniqueLabels.2 (.inr (.inr hl))
  obtain ⟨k, hkdef⟩ : ∃ k, k = sentinelToIndices s
      (dimsToStrides ((uniqueLabels [] Al Bl).map fun l => (P l).length)).2 := ⟨_, rfl⟩
  have hk : InBox k ((uniqueLabels [] Al Bl).map fun l => (P l).length) := by
    rw [hkdef]; exact (sentinelToIndices_spec hs).1
  unfold tiledScalarTerm
  rw [tileOfSentinel_eq (by simp) mA hs, tileOfSentinel_eq (by simp) mB hs, ← hkdef]
  obtain ⟨τ, hτ⟩ : ∃ τ : L → Nat, τ = bindEnv (uniqueLabels [] Al Bl) k fun _ => 0 := ⟨_, rfl⟩
  have kA : InBox (Al.map τ) (gridDims (Al.map P)) := by rw [hτ]; exact tile_inGrid hk mA
  have kB : InBox (Bl.map τ) (gridDims (Bl.map P)) := by rw [hτ]; exact tile_inGrid hk mB
  have ek : k = (uniqueLabels [] Al Bl).map τ := by
    rw [hτ]
    exact (map_bindEnv (U := uniqueLabels [] Al Bl) (nodup_unique _) (by have := hk.length; simpa using this) _).symm
  simp only [Outcome.ok_bind, ← hτ]
  have kA' : InBox (Al.map τ) (gridDims A.sizes) := by rw [sA]; exact kA
  have kB' : InBox (Bl.map τ) (gridDims B.sizes) := by rw [sB]; exact kB
  rw [hasTileContainer_eq kA', hasTileContainer_eq kB']
  by_cases skip : (!(A.tiles.lookup (Al.map τ)).isSome || !(B.tiles.lookup (Bl.map τ)).isSome || A.hasZeroSize (Al.map τ)
      || B.hasZeroSize (Bl.map τ)) = true
  · rw [if_pos skip, ek, tilePart_zero, mul_zero]
    · rfl
    intro lam hlam _
    simp only [Bool.or_eq_true, Bool.not_eq_true'] at skip
    rw [hasZeroSize_labels sA kA, hasZeroSize_labels sB kB] at skip
    rcases skip with ((h | h) | ⟨l, hl, h⟩) | ⟨l, hl, h⟩
    · have := (hA _ kA').2 (by simpa using h) (Al.map lam) (by
        rw [sA, tileDims_labels]; exact inBox_map fun l hl => hlam l (mA l hl))
      rw [sA] at this
      rw [this, zero_mul]
    · have := (hB _ kB').2 (by simpa using h) (Bl.map lam) (by
        rw [sB, tileDims_labels]; exact inBox_map fun l hl => hlam l (mB l hl))
      rw [sB] at this
      rw [this, mul_zero]
    · have := hlam l (mA l hl); omega
    · have := hlam l (mB l hl); omega
  · rw [if_neg skip]
    simp only [Bool.or_eq_true, Bool.not_eq_true', not_or] at skip
    obtain ⟨⟨⟨s1, s2⟩, s3⟩, s4⟩ := skip
    obtain ⟨α, hα⟩ : ∃ α, A.tiles.lookup (Al.map τ) = some α := Option.isSome_iff_exists.1 (Bool.not_eq_false _ ▸ s1)
    obtain ⟨β, hβ⟩ : ∃ β, B.tiles.lookup (Bl.map τ) = some β := Option.isSome_iff_exists.1 (Bool.not_eq_false _ ▸ s2)
    have eα : A.at (Al.map τ) = .ok α := by unfold Tiled.at; rw [hα]
    have eβ : B.at (Bl.map τ) = .ok β := by unfold Tiled.at; rw [hβ]
    obtain ⟨_, tα, dα⟩ := wA.tiles _ _ hα
    obtain ⟨_, tβ, dβ⟩ := wB.tiles _ _ hβ
    have rα := (hA _ kA').1 _ hα
    have rβ := (hB _ kB').1 _ hβ
    rw [sA] at dα rα
    rw [sB] at dβ rβ
    rw [tileDims_labels] at dα dβ
    rw [tileConst_eq kA', tileConst_eq kB', eα, eβ, Outcome.ok_bind, Outcome.ok_bind,
      einsumScalar_ok (fun l => (P l).getD (τ l) 0) Al Bl ls check (tensorOperand α) (tensorOperand β) _ _ 0 0 ab hAn hA0 dα dβ
        tα.operand tβ.operand rα rβ coverA coverB hls, ek,
      tilePart_eq P (fun l hl => .inr (coverA l hl)) (fun l hl => .inr (coverB l hl)) hls τ (by simp)]
    simp

omit [Div R] in
/-- All tiles, in any order. -/
theorem tiledEinsumScalar_ok {P : L → List Nat} {Al Bl ls : List L} {check : Bool} {A B : Tiled R}
    {fA fB : List Nat → R} {cp c ab : R} (wA : A.WF) (wB : B.WF) (hA : A.Holds fA) (hB : B.Holds fB)
    (sA : A.sizes = Al.map P) (sB : B.sizes = Bl.map P) (hAn : Al.Nodup) (hA0 : Al ≠ [])
    (coverA : ∀ l ∈ Al, l ∈ Bl) (coverB : ∀ l ∈ Bl, l ∈ Al) (hls : Contracted Al Bl [] ls) {sched : List Nat}
    (hs : sched.Perm (List.range (tiledScalarCount Al A Bl B))) :
    tiledEinsumScalar check cp c ab Al A Bl B sched
      = .ok (cp * c + ab * contraction (fun l => (P l).sum) ls Al Bl fA fB fun _ => 0) := by
  have g : ∀ {T : Tiled R} {Xl : List L}, T.sizes = Xl.map P → T.grid = Xl.map fun l => (P l).length := by
    intro T Xl h
    unfold Tiled.grid
    rw [h, List.map_map]
    rfl
  have hU : (uniqueLabels [] Al Bl).map (fun l => (P l).length) ≠ [] := by
    obtain ⟨l, hl⟩ := List.exists_mem_of_ne_nil Al hA0
    intro h
    have := mem_uniqueLabels (Cl := []) (Al := Al) (Bl := Bl).2 (.inr (.inl hl))
    rw [List.map_eq_nil_iff.1 h] at this
    simp at this
  have e := gridRanges_eq (fun l => (P l).length) [] Al Bl
  rw [List.map_nil] at e
  unfold tiledScalarCount at hs
  unfold tiledEinsumScalar
  rw [g sA, g sB, e] at hs ⊢
  rw [gridCount_eq hU] at hs
  rw [sumLoop_perm hs _ fun i hi => tiledScalarTerm_ok (check := check) (ab := ab) wA wB hA hB sA sB hAn hA0 coverA coverB hls hi,
    Outcome.ok_bind, ← sum_tileParts P (fun l hl => .inr (coverA l hl)) (fun l hl => .inr (coverB l hl)) hls (by simp [InRange]),
    box_eq_map, List.map_map, ← List.sum_map_mul_left]
  by_cases z : cp == 0
  · have : cp = 0 := by simpa using z
    subst this
    simp
  · rw [if_neg z, mul_comm]
    rfl

end
end Einsums
