import Verif.Spec.GaussLaguerre
import Verif.Proofs.GaussPoly
import Verif.Proofs.Companion
import Verif.Props.Laguerre
import Verif.Props.Spectral
import Verif.Props.ElementOps
/-
Proofs about `gauss_laguerre`.
-/
namespace Einsums
open Polynomial Spec Model Props

section
variable {K : Type} [Field K] [LinearOrder K] [IsStrictOrderedRing K] [FloorRing K]

/-- The elements of the series `c`. -/
def lastOne (n : Nat) (i : List Nat) : K := if i = [n] then 1 else 0

omit [LinearOrder K] [IsStrictOrderedRing K] [FloorRing K] in
theorem gauss_c (z : Nat → K) (n : Nat) :
    ∃ c, ((Strided.mk' z [n + 1]).setAll 0).write [-1] 1 = .ok c ∧ Holds c [n + 1] (lastOne n) := by
  have h := holds_set z (d := [n + 1]) (by simp) (0 : K)
  have hp : pyIndices ((Strided.mk' z [n + 1]).setAll 0).dims [-1] = some [n] := by
    rw [h.dims]
    simp [pyIndices, pyIndex]
  rw [write_normalise h.tensor.wf _ hp]
  obtain ⟨t, e, ht⟩ := h.write (j := n) (by omega) 1
  exact ⟨t, e, ht⟩

omit [LinearOrder K] [IsStrictOrderedRing K] [FloorRing K] in
theorem lastOne_series (n : Nat) : laguerreSeries (n + 1) (fun j => (lastOne n [j] : K)) = laguerre n := by
  unfold laguerreSeries
  rw [Finset.sum_range_succ, Finset.sum_eq_zero, zero_add]
  · simp [lastOne]
  · intro k hk
    have : k ≠ n := by have := Finset.mem_range.mp hk; omega
    simp [lastOne, this]

omit [LinearOrder K] [IsStrictOrderedRing K] [FloorRing K] in
theorem lastOne_tail (n : Nat) : laguerreSeries (n + 1) (fun j => (lastOne (n + 1) [j + 1] : K)) = laguerre n := by
  rw [← lastOne_series]
  congr 1
  funext j
  simp [lastOne]

theorem gauss_companion {fl : ℚ → ℚ} (hfl : NearestFloat fl) (z : Nat → K) {sch : Nat → List Nat} {c : Strided K} {n : Nat}
    (hn : 0 < n) (hn12 : n < 2 ^ 12) (hc : Holds c [n + 1] (lastOne n))
    (s0 : AnySchedule (n - 1) (sch 0)) (s1 : AnySchedule n (sch 1)) (s2 : AnySchedule n (sch 2)) :
    ∃ M, companion fl z sch c = .ok M ∧ Holds M [n, n] (companionElem n) := by
  by_cases h1 : n = 1
  · subst h1
    have hdim : c.dim 0 = 2 := by simp [Strided.dim, hc.dims]
    have ht := isTensor_mk' z (dims := [1, 1]) (by simp)
    have : Inhabited K := ⟨0⟩
    obtain ⟨f, hf⟩ := exists_represents ht.wf
    obtain ⟨t, e, fr, r⟩ := write_represents ht.wf hf (j := [0, 0]) ⟨by simp, by simp, trivial⟩
      (1 + lastOne 1 [0] / lastOne 1 [1])
    refine ⟨t, ?_, (⟨fr.isTensor ht, fr.dims, r⟩ : Holds t [1, 1] _).congr ?_⟩
    · unfold companion
      rw [if_neg (by omega), if_pos hdim]
      have r0 := read_vec_nat hc.dims hc.elems (j := 0) (by omega)
      have r1 := read_vec_nat hc.dims hc.elems (j := 1) (by omega)
      simp only [Nat.cast_zero, Nat.cast_one] at r0 r1
      rw [r0, Outcome.ok_bind, r1, Outcome.ok_bind]
      exact e
    · intro i hi
      match i, hi with
      | [a, b], hi =>
        obtain ⟨ha, hb, -⟩ := hi
        obtain rfl : a = 0 := by omega
        obtain rfl : b = 0 := by omega
        rw [companionElem_pair]
        simp [lastOne]
  · exact companion_small hfl z (by omega) hn12 hc.dims s0 s1 s2

/-- An eigenvector of the companion matrix is determined by its first component. -/
theorem companion_vector {n : Nat} (x : K) (v : Nat → K)
    (hv : ∀ a, a < n → ∑ b ∈ Finset.range n, companionElem n [a, b] * v b = x * v a) (b : Nat) (hb : b < n) :
    v b = (laguerre b).eval x * v 0 := by
  induction b using Nat.strong_induction_on with
  | _ b ih =>
    cases b with
    | zero => simp [laguerre_zero]
    | succ b =>
      have h1 := hv b (by omega)
      rw [tridiagonal_sum n v (by omega), if_pos hb, ih b (by omega) (by omega), ih (b - 1) (by omega) (by omega)] at h1
      have h2 := laguerre_rec_eval x b
      have hb1 : ((b : K) + 1) ≠ 0 := by exact_mod_cast Nat.succ_ne_zero b
      apply mul_left_cancel₀ hb1
      linear_combination -h1 - v 0 * h2

/-- The companion matrix. -/
def companionMatrix (n : Nat) : Matrix (Fin n) (Fin n) K := fun i j => companionElem n [i.1, j.1]

omit [LinearOrder K] [IsStrictOrderedRing K] [FloorRing K] in
theorem companionMatrix_symm (n : Nat) : (companionMatrix n : Matrix (Fin n) (Fin n) K).IsSymm := by
  ext i j
  simp only [Matrix.transpose_apply, companionMatrix, companionElem_pair]
  by_cases h1 : j.1 = i.1 + 1
  · simp only [if_pos h1, if_neg (show ¬i.1 = j.1 + 1 by omega), if_neg (show ¬i.1 = j.1 by omega)]
  · by_cases h2 : j.1 = i.1
    · simp only [h2, if_neg (show ¬i.1 = i.1 + 1 by omega)]
    · by_cases h3 : i.1 = j.1 + 1
      · simp only [if_neg h1, if_pos h3, if_neg h2]
      · simp only [if_neg h1, if_neg h2, if_neg h3, if_neg (Ne.symm h2)]

/-- Orthonormal eigenvectors of the companion matrix have different eigenvalues, the roots of the polynomial. -/
theorem companion_nodes {n : Nat} (hn : 0 < n) (v : Matrix (Fin n) (Fin n) K) (w : Fin n → K)
    (ho : ∀ k l, dotProduct (v k) (v l) = if k = l then 1 else 0)
    (he : ∀ k, (companionMatrix n).mulVec (v k) = w k • v k) :
    Function.Injective w ∧ ∀ k, (laguerre n).eval (w k) = 0 := by
  let u : Fin n → Nat → K := fun k b => if h : b < n then v k ⟨b, h⟩ else 0
  have hu : ∀ k, ∀ a, a < n → ∑ b ∈ Finset.range n, companionElem n [a, b] * u k b = w k * u k a := by
    intro k a ha
    have := congrFun (he k) ⟨a, ha⟩
    simp only [Matrix.mulVec, dotProduct, companionMatrix, Pi.smul_apply, smul_eq_mul] at this
    rw [Finset.sum_range]
    simp only [u, Fin.is_lt, dif_pos, ha, Fin.eta]
    exact this
  have hd : ∀ k l, ∑ b ∈ Finset.range n, u k b * u l b = if k = l then 1 else 0 := by
    intro k l
    rw [← ho k l, Finset.sum_range]
    simp only [dotProduct, u, Fin.is_lt, dif_pos, Fin.eta]
  have hl := fun k => companion_vector (w k) (u k) (hu k)
  constructor
  · intro k l hkl
    by_contra hne
    have form : ∀ k' l', w k' = w k → w l' = w k → ∑ b ∈ Finset.range n, u k' b * u l' b =
        u k' 0 * u l' 0 * ∑ b ∈ Finset.range n, ((laguerre b).eval (w k)) ^ 2 := by
      intro k' l' h1 h2
      rw [Finset.mul_sum]
      apply Finset.sum_congr rfl
      intro b hb
      rw [hl k' b (Finset.mem_range.mp hb), hl l' b (Finset.mem_range.mp hb), h1, h2]
      ring
    have h1 := hd k k
    have h2 := hd l l
    have h3 := hd k l
    rw [form k k rfl rfl, if_pos rfl] at h1
    rw [form l l hkl.symm hkl.symm, if_pos rfl] at h2
    rw [form k l rfl hkl.symm, if_neg hne] at h3
    generalize ∑ b ∈ Finset.range n, ((laguerre b).eval (w k)) ^ 2 = S at h1 h2 h3
    have hS : S ≠ 0 := by
      rintro rfl
      simp at h1
    have ha : u k 0 ≠ 0 := by
      intro h
      rw [h] at h1
      simp at h1
    have hb : u l 0 ≠ 0 := by
      intro h
      rw [h] at h2
      simp at h2
    exact mul_ne_zero (mul_ne_zero ha hb) hS h3
  · intro k
    refine (companion_eigen hn (w k)).mp ⟨u k, ?_, hu k⟩
    by_contra hz
    push Not at hz
    have := hd k k
    rw [if_pos rfl, Finset.sum_eq_zero] at this
    · exact zero_ne_one this
    · intro b hb
      rw [hz b (Finset.mem_range.mp hb), zero_mul]

theorem gauss_nodes {fl : ℚ → ℚ} (hfl : NearestFloat fl) (syev : SyevFn K) (g : GaussRun K) {n : Nat} (hn : 0 < n)
    (hn12 : n < 2 ^ 12) (hg : GaussAllowed n g)
    (lapack : ∀ f, mat n n f = companionMatrix n → IsSyev n f (syev true n f)) :
    ∃ c x X, gaussNodes fl syev g n = .ok (c, x) ∧ Holds c [n + 1] (lastOne n) ∧ Holds x [n] X ∧
      (∀ i j, i < j → j < n → X [i] < X [j]) ∧ ∀ i, i < n → (laguerre n).eval (X [i]) = 0 := by
  obtain ⟨c, ec, hc⟩ := gauss_c g.z n
  obtain ⟨m, em, hm⟩ := gauss_companion hfl g.z hn hn12 hc hg.comp0 hg.comp1 hg.comp2
  have hx := holds_set g.z (d := [n]) (by simp) (0 : K)
  have hmH : Spec.Holds m (companionMatrix n) :=
    ⟨hm.dims, fun i j => hm.elems [i.1, j.1] (by rw [hm.dims]; exact ⟨i.2, j.2, trivial⟩)⟩
  obtain ⟨A', W', v, w, e, -, hW, -, fr, asc, ho, he⟩ := C106_syev_partial syev n n m
    ((Strided.mk' g.z [n]).setAll 0) (companionMatrix n) hmH (companionMatrix_symm n) (by omega)
    (tensor_strides2 hm.tensor hm.dims) (Nat.le_refl n) hx.tensor.wf hx.dims
    (by rw [hx.tensor.strides, hx.dims]; rfl) lapack
  obtain ⟨hinj, hroot⟩ := companion_nodes hn v w ho he
  let X : List Nat → K := fun i => if h : i.headD 0 < n then w ⟨i.headD 0, h⟩ else 0
  have hX : ∀ i (h : i < n), X [i] = w ⟨i, h⟩ := fun i h => by simp [X, h]
  refine ⟨c, W', X, ?_, hc, ⟨isTensor_of_frame hx.tensor fr, hW.dims, ?_⟩, ?_, ?_⟩
  · unfold gaussNodes
    rw [ec, Outcome.ok_bind, em, Outcome.ok_bind]
    dsimp only
    rw [e, Outcome.ok_bind]
    rfl
  · intro i hi
    rw [hW.dims] at hi
    obtain ⟨a, -, rfl, ha⟩ := inBox_head hi
    rw [hX a ha]
    exact hW.elems ⟨a, ha⟩
  · intro i j hij hj
    rw [hX i (by omega), hX j hj]
    refine lt_of_le_of_ne (asc _ _ (by simpa using hij.le)) fun h => ?_
    have := congrArg Fin.val (hinj h)
    simp at this
    omega
  · intro i hi
    rw [hX i hi]
    exact hroot _

omit [Field K] [LinearOrder K] [IsStrictOrderedRing K] [FloorRing K] in
/-- `abs`, `invert`. -/
theorem Holds.map (op : K → K) (z : Nat → K) {t : Strided K} {n : Nat} {f : List Nat → K} (h : Holds t [n] f) {team : Nat}
    (ht : 0 < team ∧ n + team ≤ 2 ^ 31) {order : List Nat}
    (hs : Schedule ((List.range team).map (countersOf n team)) order) :
    ∃ t', mapTensor op z t team order = .ok t' ∧ Holds t' [n] fun i => op (f i) := by
  have hnum : numel t.dims = n := by rw [h.dims]; simp [numel]
  obtain ⟨t', e, h1, h2, h3⟩ := mapTensor_eq op z h.tensor.wf (by rw [h.dims]; simp) h.elems ht.1 (by rw [hnum]; exact ht.2)
    (sched := order) (by rw [hnum]; exact hs.perm.trans (counters_perm ht.1))
  exact ⟨t', e, h1, h2.trans h.dims, h3⟩

omit [IsStrictOrderedRing K] [FloorRing K] in
/-- `max` of positive elements. -/
theorem Holds.max_pos {t : Strided K} {n : Nat} (hn : 0 < n) {f : List Nat → K} (h : Holds t [n] f) (hp : 0 < f [0]) (ninf : K)
    {maxThreads team : Nat} (ht : 0 < team ∧ team ≤ maxThreads ∧ n + team ≤ 2 ^ 31) :
    ∃ r, maxTensor (fun a b => decide (a < b)) ninf maxThreads team t = .ok r ∧ r ≠ 0 := by
  have hnum : numel t.dims = n := by rw [h.dims]; simp [numel]
  obtain ⟨r, e, -, hr⟩ := maxTensor_eq h.tensor.wf h.elems ninf ht.1 ht.2.1 (by rw [hnum]; exact ht.2.2)
  refine ⟨r, e, ne_of_gt (lt_of_lt_of_le hp (hr _ (List.mem_cons_of_mem _ (List.mem_map_of_mem (mem_box.2 ?_)))))⟩
  rw [h.dims]
  exact ⟨hn, trivial⟩

omit [LinearOrder K] [IsStrictOrderedRing K] [FloorRing K] in
theorem box_sum (n : Nat) (f : List Nat → K) : ((box [n]).map f).sum = ∑ i ∈ Finset.range n, f [i] := by
  have h : box [n] = (List.range n).map fun i => [i] := by
    simp only [box, List.map_cons, List.map_nil]
    induction List.range n with
    | nil => rfl
    | cons a l ih => simp [ih]
  rw [h, List.map_map]
  clear h
  induction n with
  | zero => rfl
  | succ n ih => rw [List.range_succ, List.map_append, List.sum_append, Finset.sum_range_succ, ih]; simp

omit [FloorRing K] in
/-- The weights, from the two factors. -/
theorem gauss_weights (g : GaussRun K) {n : Nat} (hn : 0 < n) (hg : GaussAllowed n g) {fm df : Strided K} {F D : List Nat → K}
    (hf : Holds fm [n] F) (hd : Holds df [n] D) (hF : F [0] ≠ 0) (hD : D [0] ≠ 0) :
    ∃ a b w, a ≠ 0 ∧ b ≠ 0 ∧ gaussWeights g fm df = .ok w ∧
      Holds w [n] fun i => (F i / a * (D i / b))⁻¹ / ∑ j ∈ Finset.range n, (F [j] / a * (D [j] / b))⁻¹ := by
  have : Inhabited K := ⟨0⟩
  have upd : ∀ k, AnySchedule (numel [n]) (g.upd k) := by
    intro k
    have := hg.upd k
    simpa [AnySchedule, numel] using this
  obtain ⟨A, eA, hA⟩ := hf.map (fun v => |v|) g.z (hg.mapTeam 0) (hg.mapOrder 0)
  obtain ⟨a, ea, ha⟩ := hA.max_pos hn (abs_pos.mpr hF) g.ninf (hg.maxTeam 0)
  have h1 := hf.scalar (· / ·) a (upd 2)
  obtain ⟨B, eB, hB⟩ := hd.map (fun v => |v|) g.z (hg.mapTeam 1) (hg.mapOrder 1)
  obtain ⟨b, eb, hb⟩ := hB.max_pos hn (abs_pos.mpr hD) g.ninf (hg.maxTeam 1)
  have h2 := hd.scalar (· / ·) b (upd 3)
  obtain ⟨P, eP, hP⟩ := h1.tensorOp h2 (· * ·) (upd 4)
  obtain ⟨w, ew, hw⟩ := hP.map (fun v => 1 / v) g.z (hg.mapTeam 2) (hg.mapOrder 2)
  have es := sumTensor_eq hw.tensor.wf hw.elems (parts := g.parts) (by rw [hw.dims]; simpa [numel] using hg.parts)
  rw [hw.dims, box_sum] at es
  have h3 := hw.scalar (· / ·) (∑ i ∈ Finset.range n, 1 / (F [i] / a * (D [i] / b))) (upd 5)
  refine ⟨a, b, _, ha, hb, ?_, h3.congr fun i _ => by simp only [one_div]⟩
  unfold gaussWeights
  rw [eA, Outcome.ok_bind, ea, Outcome.ok_bind]
  dsimp only
  rw [eB, Outcome.ok_bind, eb, Outcome.ok_bind]
  rw [eP, Outcome.ok_bind, ew, Outcome.ok_bind, es, Outcome.ok_bind]
  rfl

omit [LinearOrder K] [IsStrictOrderedRing K] [FloorRing K] in
/-- The view of the series without its first coefficient. -/
theorem gauss_view {fl : ℚ → ℚ} (hfl : NearestFloat fl) {n : Nat} (hn12 : n + 1 < 2 ^ 12) {c : Strided K}
    (hc : Holds c [n + 2] (lastOne (n + 1))) :
    ∃ v, autoView fl c [1] none = .ok v ∧ v.WF ∧ v.dims = [n + 1] ∧
      v.Represents fun i => lastOne (n + 1) [i.headD 0 + 1] := by
  have hst : c.strides = [1] := by rw [hc.tensor.strides, hc.dims]; rfl
  have hoff : c.off = 0 := hc.tensor.off
  have hlen : c.data.length = n + 2 := by rw [hc.length]; simp [numel]
  have hd : autoDim fl (n + 2) 1 1 = ((n + 1 : Nat) : Int) := by
    rw [autoDim_eq hfl (by omega) (by omega) (by omega)]
    exact ceil_div_eq (by omega) (by intro k hk; omega) (by omega)
  have same : autoView fl c [1] none = autoView fl c [1] (some 1) := by
    unfold autoView
    simp [hst, hc.dims]
  have e := autoView_vec fl hst hc.dims (by omega) (by omega) (by omega : 1 ≤ n + 2) (by omega) hd
  have wf : (⟨c.data, c.off + 1, [n + 1], [1]⟩ : Strided K).WF := by
    refine ⟨rfl, ?_, ?_⟩
    · intro i hi
      obtain ⟨a, -, rfl, ha⟩ := inBox_head hi
      simp only [dot]
      omega
    · intro i j hi hj h
      obtain ⟨a, -, rfl, ha⟩ := inBox_head hi
      obtain ⟨b, -, rfl, hb⟩ := inBox_head hj
      simp only [dot] at h
      simp
      omega
  refine ⟨_, same.trans e, wf, rfl, (represents_iff wf).2 ?_⟩
  intro i hi
  obtain ⟨a, -, rfl, ha⟩ := inBox_head hi
  have := (represents_iff hc.tensor.wf).1 hc.elems [a + 1] (by rw [hc.dims]; exact ⟨by omega, trivial⟩)
  rw [hst] at this
  simp only [dot] at this ⊢
  rw [← show c.off + ((a + 1) * 1 + 0) = c.off + 1 + (a * 1 + 0) by omega]
  exact this

/-- Nodes and weights. -/
theorem gaussLaguerre_eq {fl : ℚ → ℚ} (hfl : NearestFloat fl) (syev : SyevFn K) (g : GaussRun K) {n : Nat}
    (hn12 : n + 1 < 2 ^ 12) (hg : GaussAllowed (n + 1) g)
    (lapack : ∀ f, mat (n + 1) (n + 1) f = companionMatrix (n + 1) → IsSyev (n + 1) f (syev true (n + 1) f)) :
    ∃ x w, ∃ X W : List Nat → K, gaussLaguerre fl syev g (n + 1) = .ok (x, w) ∧ Holds x [n + 1] X ∧ Holds w [n + 1] W ∧
      (∀ i j, i < j → j < n + 1 → X [i] < X [j]) ∧ (∀ i, i < n + 1 → (laguerre (n + 1)).eval (X [i]) = 0) ∧
      ∀ i (_ : i < n + 1), W [i] = rootWeight (fun k : Fin (n + 1) => X [k.1]) ⟨i, by omega⟩ := by
  have : Inhabited K := ⟨0⟩
  obtain ⟨c, x, X, e0, hc, hx, asc, root⟩ := gauss_nodes hfl syev g (by omega) hn12 hg lapack
  have hinj : Function.Injective fun k : Fin (n + 1) => X [k.1] := by
    intro k l h
    by_contra hne
    rcases Nat.lt_or_gt_of_ne (fun e => hne (Fin.ext e)) with hlt | hlt
    · exact absurd h (asc _ _ hlt l.2).ne
    · exact absurd h (asc _ _ hlt k.2).ne'
  have hroot : ∀ k : Fin (n + 1), (laguerre (n + 1)).eval (X [k.1]) = 0 := fun k => root k.1 k.2
  have val : ∀ k i j, AnySchedule (numel [n + 1]) (g.value k i j) := by
    intro k i j
    have := hg.value k i j
    simpa [AnySchedule, numel] using this
  have upd : ∀ k, AnySchedule (numel [n + 1]) (g.upd k) := by
    intro k
    have := hg.upd k
    simpa [AnySchedule, numel] using this
  obtain ⟨dy, e1, h1⟩ := lagValue_eq g.z (by simp) hx (by omega) hc.tensor.wf hc.dims hc.elems (val 0)
  have e2' : ∃ dc, lagDerivative g.z g.der c 1 1 = .ok dc ∧ Holds dc [n + 1] fun i =>
      -tailSum (fun l => lastOne (n + 1) [l] * 1) (n + 1) (i.headD 0 + 1) := by
    obtain ⟨t, e, h⟩ := derStep_eq g.z (1 : K) (n := n + 1) (by omega) hc hg.der
    refine ⟨t, ?_, h⟩
    have hdim : c.dim 0 = n + 2 := by simp [Strided.dim, hc.dims]
    unfold lagDerivative
    rw [if_neg (by omega)]
    simp only [hdim]
    rw [if_neg (by omega)]
    simp only [List.range_one, List.foldlM_cons, List.foldlM_nil]
    rw [show n + 2 - (0 + 1) = n + 1 by omega, e]
    rfl
  obtain ⟨dc, e2, h2⟩ := e2'
  obtain ⟨df, e3, h3⟩ := lagValue_eq g.z (by simp) hx (by omega) h2.tensor.wf h2.dims h2.elems (val 1)
  have hder : laguerreSeries (n + 1) (fun j => -tailSum (fun l => (lastOne (n + 1) [l] : K) * 1) (n + 1) (([j] : List Nat).headD 0 + 1))
      = derivative (laguerre (n + 1)) := by
    have := series_derivative (fun l => (lastOne (n + 1) [l] : K) * 1) (n + 1)
    simp only [List.headD_cons]
    rw [this]
    congr 1
    rw [← lastOne_series]
    simp only [mul_one]
  simp only [hder] at h3
  simp only [lastOne_series] at h1
  obtain ⟨dy', e4, h4⟩ := h1.tensorOp h3 (· / ·) (upd 0)
  obtain ⟨x', e5, h5⟩ := hx.tensorOp h4 (· - ·) (upd 1)
  have h5' : Holds x' [n + 1] X := h5.congr fun i hi => by
    obtain ⟨a, -, rfl, ha⟩ := inBox_head hi
    simp only [root a ha, zero_div, sub_zero]
  obtain ⟨v, e6, wv, dv, hv⟩ := gauss_view hfl hn12 hc
  obtain ⟨fm, e7, h7⟩ := lagValue_eq g.z (by simp) h5' (by omega) wv dv hv (val 2)
  simp only [List.headD_cons, lastOne_tail] at h7
  obtain ⟨f0, d0⟩ := rootFactors_ne (fun k : Fin (n + 1) => X [k.1]) hinj hroot ⟨0, by omega⟩
  obtain ⟨a, b, w, ha, hb, e8, h8⟩ := gauss_weights g (by omega) hg h7 h3 f0 d0
  refine ⟨x', w, X, _, ?_, h5', h8, asc, root, ?_⟩
  · unfold gaussLaguerre
    rw [e0, Outcome.ok_bind]
    dsimp only
    rw [e1, Outcome.ok_bind, e2, Outcome.ok_bind, e3, Outcome.ok_bind, e4, Outcome.ok_bind, e5, Outcome.ok_bind, e6,
      Outcome.ok_bind, e7, Outcome.ok_bind, e8, Outcome.ok_bind]
    rfl
  · intro i hi
    rw [← (normalised_weight (fun k : Fin (n + 1) => X [k.1]) hinj hroot a b ha hb ⟨i, hi⟩).2, Finset.sum_range]

end
end Einsums
