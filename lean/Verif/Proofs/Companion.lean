import Verif.Proofs.Float
import Verif.Proofs.Laguerre
import Verif.Props.Utilities
/-
Proofs about views with a computed dimension and the companion matrix.
-/
namespace Einsums
open Polynomial Spec Model Props

/-! ### views -/

theorem autoDim_eq {fl : ℚ → ℚ} (h : NearestFloat fl) {N o s : Nat} (hN : N < 2 ^ 24) (hs0 : 0 < s)
    (hs : s < 2 ^ 24) : autoDim fl N o s = ⌈((N - o : Nat) : ℚ) / s⌉ := by
  unfold autoDim
  rw [h.exact (representable_nat hs), h.exact (representable_nat (by omega))]
  exact ceil_float_div h (by omega) hs0 hs

theorem ceil_div_spec {m s : Nat} (hs0 : 0 < s) : ∃ d : Nat, ⌈(m : ℚ) / s⌉ = d ∧ ∀ k, k < d ↔ k * s < m := by
  have hsQ : (0 : ℚ) < s := by exact_mod_cast hs0
  obtain ⟨d, hd⟩ := Int.eq_ofNat_of_zero_le (Int.ceil_nonneg (a := (m : ℚ) / s) (by positivity))
  refine ⟨d, hd, fun k => ?_⟩
  have : (k : Int) < ⌈(m : ℚ) / s⌉ ↔ ((k : Int) : ℚ) < (m : ℚ) / s := Int.lt_ceil
  rw [hd, lt_div_iff₀ hsQ] at this
  constructor
  · intro hk
    have := this.1 (by exact_mod_cast hk)
    exact_mod_cast this
  · intro hk
    exact_mod_cast this.2 (by exact_mod_cast hk)

section
variable {α : Type}

theorem mkView_vec {t : Strided α} {d o st : Nat} (h : t.off + dot [o] t.strides ≤ t.data.length) :
    mkView t [(d : Int)] (toIdx [o]) [st] = .ok ⟨t.data, t.off + dot [o] t.strides, [d], [st]⟩ := by
  unfold mkView
  have e : ((t.off : Int) + innerProduct (toIdx [o]) t.strides) = ((t.off + dot [o] t.strides : Nat) : Int) := by
    rw [show toIdx [o] = [(o : Int)] from rfl]
    cases t.strides with
    | nil => simp [innerProduct, dot]
    | cons a as => simp [innerProduct, dot]
  simp only [e]
  rw [if_neg (by omega), if_neg (by simp), Int.toNat_natCast]
  simp

/-- The view of a contiguous vector. -/
theorem autoView_vec (fl : ℚ → ℚ) {t : Strided α} {N o s d : Nat} (hst : t.strides = [1]) (hdims : t.dims = [N])
    (hfit : t.off + N ≤ t.data.length) (hN : N < 2 ^ 31) (ho : o ≤ N) (hs : s ≠ 0) (hd : autoDim fl N o s = d) :
    autoView fl t [o] (some s) = .ok ⟨t.data, t.off + o, [d], [s]⟩ := by
  unfold autoView
  have hsz : sizeMethod t.dims = N := by rw [hdims, sizeMethod_small (by simpa [numel] using hN)]; simp [numel]
  simp only [hsz, List.headD_cons]
  rw [if_neg (by omega), if_neg (by simpa using hs)]
  simp only [Option.getD_some, hd]
  rw [if_pos (by rw [hdims]; rfl), mkView_vec (by rw [hst]; simp only [dot]; omega), hst]
  simp [dot]

theorem autoView_matrix (fl : ℚ → ℚ) {t : Strided α} {n m : Nat} (hoff : t.off = 0) (hdims : t.dims = [n, m])
    (hN : n * m < 2 ^ 31) (hd : autoDim fl (n * m) 0 1 = (n * m : Nat)) :
    autoView fl t [0, 0] none = .ok ⟨t.data, 0, [n * m], [1]⟩ := by
  unfold autoView
  have hsz : sizeMethod t.dims = n * m := by
    rw [hdims, sizeMethod_small (by simpa [numel] using hN)]; simp [numel]
  simp only [hsz, List.headD_cons]
  rw [if_neg (by omega), if_neg (by simp)]
  simp only [Option.getD_none, hd]
  rw [if_neg (by rw [hdims]; simp), if_pos (by rw [hdims]; simp)]
  unfold mkView
  have e : innerProduct (toIdx [0, 0]) t.strides = 0 := by
    rw [show toIdx [0, 0] = [0, 0] from rfl]
    match t.strides with
    | [] => rfl
    | [a] => simp [innerProduct]
    | a :: b :: l => simp [innerProduct]
  simp only [e, hoff]
  generalize n * m = k
  rw [if_neg (by simp), if_neg (by simp)]
  simp

/-- Assignment to a view: the elements of the parent it shows are replaced, the others kept. -/
theorem viewAssign {t v src : Strided α} {φ : List Nat → List Nat} {f g F : List Nat → α} (w : t.WF) (hf : t.Represents f)
    (hv : t.ViewOf v φ) (hg : src.Represents g) (hsub : ∀ j, InBox j v.dims → InBox j src.dims)
    (hF1 : ∀ j, InBox j v.dims → F (φ j) = g j)
    (hF2 : ∀ i, InBox i t.dims → (∀ j, InBox j v.dims → φ j ≠ i) → F i = f i) :
    ∃ v', v.assignView src = .ok v' ∧ v'.data.length = t.data.length ∧
      ({ t with data := v'.data } : Strided α).Represents F := by
  have wv := hv.wf w
  have hr : v.Represents (fun j => f (φ j)) := by
    intro j hj
    rw [hv.read w hj, hf _ (hv.addr j hj).1]
  obtain ⟨v', e, fr, r⟩ := copyLoop_represents hg wv hr (cartesian v.dims) (by
    intro i hi; rw [cartesian_eq_box, mem_box] at hi; exact ⟨hsub i hi, hi⟩)
  refine ⟨v', e, by rw [fr.length, hv.data], ?_⟩
  have hl : v'.data.length = t.data.length := by rw [fr.length, hv.data]
  have wt : ({ t with data := v'.data } : Strided α).WF := ⟨w.len, by intro i hi; rw [hl]; exact w.bound i hi, w.inj⟩
  rw [represents_iff wt]
  intro i hi
  simp only at hi ⊢
  by_cases h : ∃ j, InBox j v.dims ∧ φ j = i
  · obtain ⟨j, hj, rfl⟩ := h
    rw [← (hv.addr j hj).2, hF1 j hj]
    have := (represents_iff (fr.wf wv)).1 r j (by rw [fr.dims]; exact hj)
    rw [fr.off, fr.strides, if_pos (by rw [cartesian_eq_box, mem_box]; exact hj)] at this
    exact this
  · have h' : ∀ j, InBox j v.dims → φ j ≠ i := fun j hj e => h ⟨j, hj, e⟩
    rw [fr.outside _ (by
      intro j hj e
      rw [(hv.addr j hj).2] at e
      exact h' j hj (w.inj _ _ (hv.addr j hj).1 hi (by omega))), hF2 i hi h', hv.data]
    exact (represents_iff w).1 hf i hi

end

/-! ### the companion matrix -/

section
variable {K : Type} [Field K] [LinearOrder K] [IsStrictOrderedRing K] [FloorRing K]

theorem arange_holds (z : Nat → K) {a n : Nat} (h : a ≤ n) (hn : n < 2 ^ 31) :
    ∃ t, arange (fieldArith K) z (a : K) (n : K) 1 = .ok t ∧ Holds t [n - a] fun i => (a : K) + (i.headD 0 : Nat) := by
  obtain ⟨t, m, h1, h2, h3, h4, h5⟩ := C40_field_partial z (a : K) (n : K) 1 one_pos (n - a)
    (by rw [Nat.cast_sub h]; ring) (by omega)
  have hm : m = n - a := by
    have : ∀ k : Nat, k < m ↔ k < n - a := by
      intro k
      rw [h4 k, mul_one, ← Nat.cast_add, Nat.cast_lt]
      omega
    have h6 := this m
    have h7 := this (n - a)
    omega
  exact ⟨t, h1, h2, by rw [h3, hm], fun i hi => by rw [h5 i hi]; simp⟩

/-- The elements `companion` writes when the diagonal view has `dm` elements. -/
def companionElem (dm : Nat) (i : List Nat) : K :=
  if i.getD 1 0 = i.headD 0 + 1 then -((i.headD 0 : Nat) + 1)
  else if i.getD 1 0 = i.headD 0 then (if i.headD 0 < dm then 2 * (i.headD 0 : Nat) + 1 else 0)
  else if i.headD 0 = i.getD 1 0 + 1 then -((i.getD 1 0 : Nat) + 1)
  else 0

omit [Field K] [LinearOrder K] [IsStrictOrderedRing K] [FloorRing K] in
theorem square_strides {t : Strided K} (h : t.IsTensor) {n : Nat} (hd : t.dims = [n, n]) : t.strides = [n, 1] := by
  rw [h.strides, hd]
  simp [dimsToStrides]

theorem companion_eq (fl : ℚ → ℚ) (z : Nat → K) {sch : Nat → List Nat} {c : Strided K} {n dm : Nat} (hn : 2 ≤ n)
    (hn31 : n * n < 2 ^ 31) (hc : c.dims = [n + 1]) (h1 : autoDim fl (n * n) 0 1 = (n * n : Nat))
    (h2 : autoDim fl (n * n) 1 (n + 1) = (n - 1 : Nat)) (h3 : autoDim fl (n * n) 0 (n + 1) = dm)
    (h4 : autoDim fl (n * n) n (n + 1) = (n - 1 : Nat)) (hdm : dm ≤ n)
    (s0 : AnySchedule (n - 1) (sch 0)) (s1 : AnySchedule n (sch 1)) (s2 : AnySchedule n (sch 2)) :
    ∃ M, companion fl z sch c = .ok M ∧ Holds M [n, n] (companionElem dm) := by
  have hdim : c.dim 0 = n + 1 := by simp [Strided.dim, hc]
  have hnn : n ≤ n * n := Nat.le_mul_self n
  have hmat := holds_set z (d := [n, n]) (by simp) (0 : K)
  generalize hM : (Strided.mk' z [n, n]).setAll 0 = mat at hmat
  have hlen : mat.data.length = n * n := by rw [hmat.length]; simp [numel]
  have hstr := square_strides hmat.tensor hmat.dims
  have e1 := autoView_matrix fl hmat.tensor.off hmat.dims hn31 h1
  obtain ⟨U, eU, hU⟩ := arange_holds z (a := 1) (n := n) (by omega) (by omega)
  obtain ⟨V, eV, hV⟩ := arange_holds z (a := 0) (n := n) (by omega) (by omega)
  have hU' := hU.scalar (· * ·) (-1) (s := sch 0) (by simpa [numel] using s0)
  have hV' := (hV.scalar (· * ·) 2 (s := sch 1) (by simpa [numel] using s1)).scalar (· + ·) 1 (s := sch 2)
    (by simpa [numel] using s2)
  rw [Nat.cast_one] at eU
  rw [Nat.cast_zero] at eV
  have hbox : ∀ i, InBox i [n, n] → ∃ a b, i = [a, b] ∧ a < n ∧ b < n := by
    intro i hi
    match i, hi with
    | [a, b], hi => exact ⟨a, b, rfl, hi.1, hi.2.1⟩
  -- top
  have e2 := autoView_vec fl (t := ⟨mat.data, 0, [n * n], [1]⟩) (N := n * n) (o := 1) (s := n + 1) rfl rfl
    (by simp [hlen]) hn31 (by omega) (by omega) h2
  have e3 := autoView_vec fl (t := ⟨mat.data, 0, [n * n], [1]⟩) (N := n * n) (o := 0) (s := n + 1) rfl rfl
    (by simp [hlen]) hn31 (by omega) (by omega) h3
  have e4 := autoView_vec fl (t := ⟨mat.data, 0, [n * n], [1]⟩) (N := n * n) (o := n) (s := n + 1) rfl rfl
    (by simp [hlen]) hn31 (by omega) (by omega) h4
  simp only [Nat.zero_add] at e2 e3 e4
  obtain ⟨top, t1, t2, t3⟩ := viewAssign (t := mat) (v := ⟨mat.data, 1, [n - 1], [n + 1]⟩) (src := _)
    (φ := fun j => [j.headD 0, j.headD 0 + 1]) (f := fun _ => 0)
    (F := fun i => if i.getD 1 0 = i.headD 0 + 1 then -((i.headD 0 : Nat) + 1 : K) else 0) hmat.tensor.wf hmat.elems
    ⟨rfl, rfl, by
      intro j hj
      obtain ⟨a, rfl, ha⟩ := inBox_one.1 hj
      refine ⟨by rw [hmat.dims]; exact ⟨by simp only [List.headD_cons]; omega, by simp only [List.headD_cons]; omega, trivial⟩, ?_⟩
      rw [hmat.tensor.off, hstr]
      simp only [dot, List.headD_cons]
      ring, by
      intro i j hi hj e
      obtain ⟨a, rfl, _⟩ := inBox_one.1 hi
      obtain ⟨b, rfl, _⟩ := inBox_one.1 hj
      simpa using e⟩
    hU'.elems (by intro j hj; rw [hU'.dims]; exact hj)
    (by
      intro j hj
      simp
      ring)
    (by
      intro i hi hne
      rw [hmat.dims] at hi
      obtain ⟨a, b, rfl, ha, hb⟩ := hbox i hi
      rw [if_neg]
      intro e
      simp only [List.getD_cons_succ, List.getD_cons_zero, List.headD_cons] at e
      exact hne [a] ⟨by omega, trivial⟩ (by simp [e]))
  -- the matrix after the first assignment
  have m1 : Holds ({ mat with data := top.data } : Strided K) [n, n] (fun i => if i.getD 1 0 = i.headD 0 + 1 then
      -((i.headD 0 : Nat) + 1 : K) else 0) :=
    ⟨⟨hmat.tensor.off, hmat.tensor.strides, t2.trans hmat.tensor.length⟩, hmat.dims, t3⟩
  obtain ⟨mid, u1, u2, u3⟩ := viewAssign (t := ({ mat with data := top.data } : Strided K))
    (v := ⟨top.data, 0, [dm], [n + 1]⟩) (src := _)
    (φ := fun j => [j.headD 0, j.headD 0])
    (F := fun i => if i.getD 1 0 = i.headD 0 + 1 then -((i.headD 0 : Nat) + 1 : K) else
      if i.getD 1 0 = i.headD 0 then (if i.headD 0 < dm then 2 * (i.headD 0 : Nat) + 1 else 0) else 0)
    m1.tensor.wf m1.elems
    ⟨rfl, rfl, by
      intro j hj
      obtain ⟨a, rfl, ha⟩ := inBox_one.1 hj
      refine ⟨by rw [m1.dims]; exact ⟨by simp only [List.headD_cons]; omega, by simp only [List.headD_cons]; omega, trivial⟩, ?_⟩
      rw [m1.tensor.off, square_strides m1.tensor m1.dims]
      simp only [dot, List.headD_cons]
      ring, by
      intro i j hi hj e
      obtain ⟨a, rfl, _⟩ := inBox_one.1 hi
      obtain ⟨b, rfl, _⟩ := inBox_one.1 hj
      simpa using e⟩
    hV'.elems (by
      intro j hj
      obtain ⟨a, rfl, ha⟩ := inBox_one.1 hj
      rw [hV'.dims]; exact ⟨by omega, trivial⟩)
    (by
      intro j hj
      obtain ⟨a, rfl, ha⟩ := inBox_one.1 hj
      simp [ha]
      ring)
    (by
      intro i hi hne
      rw [m1.dims] at hi
      obtain ⟨a, b, rfl, ha, hb⟩ := hbox i hi
      split
      · rfl
      · split
        · next e =>
          simp only [List.getD_cons_succ, List.getD_cons_zero, List.headD_cons] at e
          rw [if_neg]
          intro hlt
          exact hne [a] ⟨hlt, trivial⟩ (by simp [e])
        · rfl)
  have m2 : Holds ({ mat with data := mid.data } : Strided K) [n, n] _ :=
    ⟨⟨hmat.tensor.off, hmat.tensor.strides, u2.trans m1.tensor.length⟩, hmat.dims, u3⟩
  obtain ⟨bot, w1, w2, w3⟩ := viewAssign (t := ({ mat with data := mid.data } : Strided K))
    (v := ⟨mid.data, n, [n - 1], [n + 1]⟩) (src := _)
    (φ := fun j => [j.headD 0 + 1, j.headD 0])
    (F := companionElem dm)
    m2.tensor.wf m2.elems
    ⟨rfl, rfl, by
      intro j hj
      obtain ⟨a, rfl, ha⟩ := inBox_one.1 hj
      refine ⟨by rw [m2.dims]; exact ⟨by simp only [List.headD_cons]; omega, by simp only [List.headD_cons]; omega, trivial⟩, ?_⟩
      rw [m2.tensor.off, square_strides m2.tensor m2.dims]
      simp only [dot, List.headD_cons]
      ring, by
      intro i j hi hj e
      obtain ⟨a, rfl, _⟩ := inBox_one.1 hi
      obtain ⟨b, rfl, _⟩ := inBox_one.1 hj
      simpa using e⟩
    hU'.elems (by intro j hj; rw [hU'.dims]; exact hj)
    (by
      intro j hj
      obtain ⟨a, rfl, ha⟩ := inBox_one.1 hj
      unfold companionElem
      simp
      rw [if_neg (by omega)]
      ring)
    (by
      intro i hi hne
      rw [m2.dims] at hi
      obtain ⟨a, b, rfl, ha, hb⟩ := hbox i hi
      unfold companionElem
      split
      · rfl
      · split
        · rfl
        · rw [if_neg]
          intro e
          simp only [List.getD_cons_succ, List.getD_cons_zero, List.headD_cons] at e
          exact hne [b] ⟨by omega, trivial⟩ (by simp [e]))
  refine ⟨{ mat with data := bot.data }, ?_,
    ⟨hmat.tensor.off, hmat.tensor.strides, w2.trans m2.tensor.length⟩, hmat.dims, w3⟩
  unfold companion
  rw [if_neg (by omega), if_neg (by omega)]
  simp only [hdim, Nat.add_sub_cancel, hM]
  rw [e1, Outcome.ok_bind, e2, Outcome.ok_bind, e3, Outcome.ok_bind, e4, Outcome.ok_bind, eU, Outcome.ok_bind, t1,
    Outcome.ok_bind, eV, Outcome.ok_bind, u1, Outcome.ok_bind, w1]
  rfl

theorem ceil_div_eq {m s d : Nat} (hs0 : 0 < s) (h1 : ∀ k, k < d → k * s < m) (h2 : m ≤ d * s) :
    ⌈(m : ℚ) / s⌉ = (d : Int) := by
  obtain ⟨e, he, hk⟩ := ceil_div_spec (m := m) hs0
  rw [he]
  have a1 : ¬ d < e := by rw [hk d]; omega
  have a2 : ¬ e < d := fun h => by
    have := h1 e h
    rw [← hk e] at this
    omega
  congr 1
  omega

theorem companion_small {fl : ℚ → ℚ} (hfl : NearestFloat fl) (z : Nat → K) {sch : Nat → List Nat} {c : Strided K} {n : Nat}
    (hn : 2 ≤ n) (hn12 : n < 2 ^ 12) (hc : c.dims = [n + 1])
    (s0 : AnySchedule (n - 1) (sch 0)) (s1 : AnySchedule n (sch 1)) (s2 : AnySchedule n (sch 2)) :
    ∃ M, companion fl z sch c = .ok M ∧ Holds M [n, n] (companionElem n) := by
  have hnn : n * n < 2 ^ 24 := by nlinarith
  refine companion_eq fl z hn (by omega) hc ?_ ?_ ?_ ?_ (le_refl n) s0 s1 s2
  · rw [autoDim_eq hfl hnn (by omega) (by omega)]
    exact ceil_div_eq (by omega) (by intro k hk; omega) (by omega)
  · rw [autoDim_eq hfl hnn (by omega) (by omega)]
    obtain ⟨p, rfl⟩ := Nat.exists_eq_add_of_le hn
    refine ceil_div_eq (by omega) (fun k hk => ?_) ?_
    · have : k * (2 + p + 1) ≤ p * (2 + p + 1) := Nat.mul_le_mul_right _ (by omega)
      have e : (2 + p) * (2 + p) = p * (2 + p + 1) + p + 4 := by ring
      omega
    · have e : (2 + p) * (2 + p) = (2 + p - 1) * (2 + p + 1) + 1 := by
        rw [show 2 + p - 1 = p + 1 by omega]; ring
      omega
  · rw [autoDim_eq hfl hnn (by omega) (by omega)]
    refine ceil_div_eq (by omega) (fun k hk => ?_) ?_
    · obtain ⟨p, rfl⟩ := Nat.exists_eq_add_of_le hn
      have : k * (2 + p + 1) ≤ (p + 1) * (2 + p + 1) := Nat.mul_le_mul_right _ (by omega)
      have e : (2 + p) * (2 + p) = (p + 1) * (2 + p + 1) + 1 := by ring
      omega
    · rw [Nat.mul_add]; omega
  · rw [autoDim_eq hfl hnn (by omega) (by omega)]
    obtain ⟨p, rfl⟩ := Nat.exists_eq_add_of_le hn
    refine ceil_div_eq (by omega) (fun k hk => ?_) ?_
    · have : k * (2 + p + 1) ≤ p * (2 + p + 1) := Nat.mul_le_mul_right _ (by omega)
      have e : (2 + p) * (2 + p) = p * (2 + p + 1) + 2 + (2 + p) := by ring
      omega
    · have e : (2 + p) * (2 + p) = (2 + p - 1) * (2 + p + 1) + 1 := by
        rw [show 2 + p - 1 = p + 1 by omega]; ring
      omega

/-! ### degree 4098 -/

theorem float_near {fl : ℚ → ℚ} (hfl : NearestFloat fl) {x : ℚ} {a : Int} (ha : 4096 * 2048 < a) (ha2 : a < 2 ^ 23 * 2)
    (h1 : (a : ℚ) / 2048 - 1 / 4096 < x) (h2 : x < (a : ℚ) / 2048 + 1 / 4096) : fl x = (a : ℚ) / 2048 := by
  have hrep : Representable ((a : ℚ) / 2048) := by
    refine ⟨a, -11, ?_, ?_⟩
    · rw [abs_of_pos (by omega)]; omega
    · rw [zpow_neg]; norm_num; ring
  have hn := hfl.nearest x _ hrep
  have h3 : |x - (a : ℚ) / 2048| < 1 / 4096 := by rw [abs_lt]; constructor <;> linarith
  have h4 := lt_of_le_of_lt hn h3
  rw [abs_lt] at h4
  have haQ : (4096 * 2048 + 1 : ℚ) ≤ a := by exact_mod_cast ha
  have h5 : (2 : ℚ) ^ 12 ≤ fl x := by
    have : (4096 * 2048 + 1 : ℚ) / 2048 ≤ a / 2048 := by linarith
    norm_num at this ⊢
    linarith
  obtain ⟨k, hk⟩ := representable_grid (hfl.representable x) h5
  rw [hk] at h4 ⊢
  have h6 : (k : ℚ) < a + 1 := by linarith
  have h7 : (a : ℚ) < k + 1 := by linarith
  have h8 : k < a + 1 := by exact_mod_cast h6
  have h9 : a < k + 1 := by exact_mod_cast h7
  rw [show k = a by omega]

theorem representable_even {m : Nat} (h : m < 2 ^ 24) : Representable (((2 * m : Nat)) : ℚ) :=
  ⟨m, 1, by simp only [Nat.abs_cast]; exact_mod_cast h, by push_cast; ring⟩

theorem companion_4098 {fl : ℚ → ℚ} (hfl : NearestFloat fl) (z : Nat → K) {sch : Nat → List Nat} {c : Strided K}
    (hc : c.dims = [4099]) (s0 : AnySchedule 4097 (sch 0)) (s1 : AnySchedule 4098 (sch 1)) (s2 : AnySchedule 4098 (sch 2)) :
    ∃ M, companion fl z sch c = .ok M ∧ Holds M [4098, 4098] (companionElem 4097) := by
  have hs : fl ((4099 : Nat) : ℚ) = 4099 := by
    rw [hfl.exact (representable_nat (by norm_num))]; norm_num
  have hm : fl ((16793604 : Nat) : ℚ) = 16793604 := by
    rw [show (16793604 : Nat) = 2 * 8396802 by norm_num, hfl.exact (representable_even (by norm_num))]; norm_num
  have hceil : ∀ x : ℚ, x = ((4097 * 2048 : Int) : ℚ) / 2048 → ⌈x⌉ = ((4097 : Nat) : Int) := by
    intro x hx
    rw [hx, Int.ceil_eq_iff]
    constructor <;> norm_num
  refine companion_eq fl z (n := 4098) (dm := 4097) (by norm_num) (by norm_num) hc ?_ ?_ ?_ ?_ (by norm_num) s0 s1 s2
  · unfold autoDim
    rw [show 4098 * 4098 - 0 = 16793604 by norm_num, hm, hfl.exact (representable_nat (m := 1) (by norm_num))]
    have : (16793604 : ℚ) / ((1 : Nat) : ℚ) = ((16793604 : Nat) : ℚ) := by norm_num
    rw [this, hm, show ((16793604 : ℚ)) = ((16793604 : Int) : ℚ) by norm_num, Int.ceil_intCast]
    norm_num
  · unfold autoDim
    rw [show 4098 * 4098 - 1 = 16793603 by norm_num, show 4098 + 1 = 4099 by norm_num, hs]
    -- the numerator is rounded by at most one
    have hn := hfl.nearest ((16793603 : Nat) : ℚ) _ (representable_even (m := 8396802) (by norm_num))
    have h1 : |((16793603 : Nat) : ℚ) - ((2 * 8396802 : Nat) : ℚ)| = 1 := by norm_num
    rw [h1, abs_le] at hn
    apply hceil
    apply float_near hfl (by norm_num) (by norm_num)
    · have h2 : ((4097 : ℚ) * 4099 - 1) / 4099 ≤ fl ((16793603 : Nat) : ℚ) / 4099 := by
        apply div_le_div_of_nonneg_right _ (by norm_num)
        have := hn.2
        norm_num at this ⊢
        linarith
      norm_num at h2 ⊢
      linarith
    · have h2 : fl ((16793603 : Nat) : ℚ) / 4099 ≤ ((4097 : ℚ) * 4099 + 1) / 4099 := by
        apply div_le_div_of_nonneg_right _ (by norm_num)
        have := hn.1
        norm_num at this ⊢
        linarith
      norm_num at h2 ⊢
      linarith
  · unfold autoDim
    rw [show 4098 * 4098 - 0 = 16793604 by norm_num, show 4098 + 1 = 4099 by norm_num, hs, hm]
    apply hceil
    apply float_near hfl (by norm_num) (by norm_num) <;> norm_num
  · unfold autoDim
    rw [show 4098 * 4098 - 4098 = 2 * 8394753 by norm_num, show 4098 + 1 = 4099 by norm_num, hs,
      hfl.exact (representable_even (by norm_num))]
    have : fl (((2 * 8394753 : Nat) : ℚ) / 4099) = ((4096 * 2048 + 1 : Int) : ℚ) / 2048 := by
      apply float_near hfl (by norm_num) (by norm_num) <;> norm_num
    rw [this, Int.ceil_eq_iff]
    constructor <;> norm_num

/-! ### eigenvalues -/

omit [LinearOrder K] [IsStrictOrderedRing K] [FloorRing K] in
theorem companionElem_pair (dm a b : Nat) : (companionElem dm [a, b] : K) =
    if b = a + 1 then -((a : K) + 1) else if b = a then (if a < dm then 2 * (a : K) + 1 else 0)
    else if a = b + 1 then -((b : K) + 1) else 0 := rfl

omit [LinearOrder K] [IsStrictOrderedRing K] [FloorRing K] in
theorem tridiagonal_sum (n : Nat) (v : Nat → K) {a : Nat} (ha : a < n) :
    ∑ b ∈ Finset.range n, companionElem n [a, b] * v b =
      (2 * a + 1) * v a - a * v (a - 1) - (if a + 1 < n then ((a : K) + 1) * v (a + 1) else 0) := by
  have h : ∀ b ∈ Finset.range n, companionElem n [a, b] * v b =
      (if a = b then (2 * a + 1) * v a else 0) + (if a - 1 = b then -((a : K) * v (a - 1)) else 0) +
        (if a + 1 = b then -(((a : K) + 1) * v (a + 1)) else 0) := by
    intro b hb
    rw [companionElem_pair]
    by_cases h1 : b = a + 1
    · subst h1
      rw [if_pos rfl, if_neg (by omega), if_neg (by omega), if_pos rfl]; ring
    · rw [if_neg h1]
      by_cases h2 : b = a
      · subst h2
        rw [if_pos rfl, if_pos ha, if_pos rfl, if_neg (by omega : ¬ b + 1 = b)]
        by_cases h3 : b - 1 = b
        · rw [if_pos h3, show b = 0 by omega]; simp
        · rw [if_neg h3]; ring
      · rw [if_neg h2, if_neg (Ne.symm h2), if_neg (Ne.symm h1)]
        by_cases h3 : a = b + 1
        · subst h3
          rw [if_pos rfl, if_pos (by omega), show b + 1 - 1 = b by omega]
          push_cast
          ring
        · rw [if_neg h3]
          by_cases h4 : a - 1 = b
          · omega
          · rw [if_neg h4]; ring
  rw [Finset.sum_congr rfl h, Finset.sum_add_distrib, Finset.sum_add_distrib, Finset.sum_ite_eq, Finset.sum_ite_eq,
    Finset.sum_ite_eq]
  simp only [Finset.mem_range]
  rw [if_pos ha, if_pos (by omega)]
  split <;> ring

/-- The recurrence, with no exception for the first. -/
theorem laguerre_rec_eval (x : K) (a : Nat) :
    ((a : K) + 1) * (laguerre (a + 1)).eval x = (2 * a + 1 - x) * (laguerre a).eval x - a * (laguerre (a - 1)).eval x := by
  cases a with
  | zero => simp [laguerre_zero, laguerre_one]
  | succ a =>
    have hr := congrArg (Polynomial.eval x) (laguerre_rec (K := K) a)
    simp only [eval_mul, eval_sub, eval_C, eval_X] at hr
    rw [show a + 1 - 1 = a by omega]
    push_cast
    linear_combination hr

theorem companion_eigen {n : Nat} (hn : 0 < n) (x : K) :
    (∃ v : Nat → K, (∃ k, k < n ∧ v k ≠ 0) ∧
      ∀ a, a < n → ∑ b ∈ Finset.range n, companionElem n [a, b] * v b = x * v a) ↔ (laguerre n).eval x = 0 := by
  constructor
  · rintro ⟨v, ⟨k, hk, hvk⟩, hv⟩
    have hL : ∀ b, b < n → v b = (laguerre b).eval x * v 0 := by
      intro b
      induction b using Nat.strong_induction_on with
      | _ b ih =>
        intro hb
        cases b with
        | zero => simp [laguerre_zero]
        | succ b =>
          have h1 := hv b (by omega)
          rw [tridiagonal_sum n v (by omega), if_pos hb, ih b (by omega) (by omega), ih (b - 1) (by omega) (by omega)] at h1
          have h2 := laguerre_rec_eval x b
          have hb1 : ((b : K) + 1) ≠ 0 := by exact_mod_cast Nat.succ_ne_zero b
          apply mul_left_cancel₀ hb1
          linear_combination -h1 - v 0 * h2
    have hv0 : v 0 ≠ 0 := by
      intro h0
      apply hvk
      rw [hL k hk, h0, mul_zero]
    obtain ⟨m, rfl⟩ := Nat.exists_eq_succ_of_ne_zero hn.ne'
    have h1 := hv m (by omega)
    rw [tridiagonal_sum _ v (by omega), if_neg (by omega), hL m (by omega), hL (m - 1) (by omega)] at h1
    have h2 := laguerre_rec_eval x m
    have hb1 : ((m : K) + 1) ≠ 0 := by exact_mod_cast Nat.succ_ne_zero m
    have h3 : ((m : K) + 1) * v 0 * (laguerre (m + 1)).eval x = 0 := by linear_combination h1 + v 0 * h2
    rcases mul_eq_zero.1 h3 with h | h
    · rcases mul_eq_zero.1 h with h | h
      · exact absurd h hb1
      · exact absurd h hv0
    · exact h
  · intro h0
    refine ⟨fun b => (laguerre b).eval x, ⟨0, hn, by simp [laguerre_zero]⟩, fun a ha => ?_⟩
    rw [tridiagonal_sum n _ ha]
    have h2 := laguerre_rec_eval x a
    split
    · linear_combination -h2
    · rw [show a + 1 = n by omega, h0, mul_zero] at h2
      linear_combination -h2

end
end Einsums
