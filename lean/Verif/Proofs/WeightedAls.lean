import Verif.Model.WeightedAls
import Verif.Proofs.Als
/-
Proofs about the weighted alternating least squares iteration.
-/
namespace Einsums
open Spec Model Props

/-- The factors with the rows of the first one multiplied by the weights. -/
def scaled {R : Type} [Mul R] (w : Nat → R) (F : Nat → Nat → Nat → R) : Nat → Nat → Nat → R :=
  fun m x r => if m = 0 then w x * F m x r else F m x r

section
variable {R : Type} [CommSemiring R] [BEq R] [LawfulBEq R] [Div R]

/-- What `V` and `KR` hold after the modes `ms`: `V` is made of `G`, `KR` of `F`. -/
def WInnerOk {R : Type} [CommSemiring R] (dims : List Nat) (rank : Nat) (G F : Nat → Nat → Nat → R) (ms : List Nat) :
    Option (Strided R × Strided R) → Prop
  | none => ms = []
  | some (V, KR) => ms ≠ [] ∧ V.IsTensor ∧ V.dims = [rank, rank] ∧
      V.Represents (fun i => (ms.map fun m => sumTo (dims.getD m 0) fun x => G m x (i.getD 0 0) * G m x (i.getD 1 0)).prod) ∧
      KR.IsTensor ∧ KR.dims = [numel (ms.map fun m => dims.getD m 0), rank] ∧
      ∀ j r, InBox j (ms.map fun m => dims.getD m 0) → r < rank →
        KR.read (toIdx [rowMajor j (ms.map fun m => dims.getD m 0), r]) = .ok (krElem F ms j r)

/-- The weights: a vector or a view of one, as long as the first dimension. -/
structure WeightsOk {R : Type} (dims : List Nat) (w : Strided R) (g : Nat → R) : Prop where
  dims_eq : w.dims = [dims.headD 0]
  rep : w.Represents fun i => g (i.headD 0)

omit [BEq R] [LawfulBEq R] [Div R] in
theorem gramFactor_ok (z : Nat → R) {dims : List Nat} {rank : Nat} {w : Strided R} {g : Nat → R} (hw : WeightsOk dims w g)
    {wsched : List (List Nat)} (hs : wsched.Perm (box [dims.headD 0, rank])) {m : Nat} (hm : m < dims.length) {f : Strided R}
    (hf : f.IsTensor) (df : f.dims = [dims[m], rank]) {F : Nat → Nat → Nat → R}
    (rf : f.Represents fun i => F m (i.getD 0 0) (i.getD 1 0)) :
    ∃ f', gramFactor z w wsched f m = .ok f' ∧ f'.IsTensor ∧ f'.dims = [dims[m], rank] ∧
      f'.Represents fun i => scaled g F m (i.getD 0 0) (i.getD 1 0) := by
  unfold gramFactor
  by_cases e : m = 0
  · subst e
    rw [if_pos rfl]
    have hd : dims[0] = dims.headD 0 := by cases dims <;> simp at hm ⊢
    obtain ⟨r, r1, r2, r3, r4⟩ := weight_eq z (t := f) (w := w) (sched := wsched) (by rw [df]; simp) rf
      (by rw [hw.dims_eq, df, hd]; rfl) hw.rep (by rw [df, hd]; exact hs)
    refine ⟨r, r1, r2, r3.trans df, ?_⟩
    intro i hi
    rw [r4 i hi]
    have h0 : i.headD 0 = i.getD 0 0 := by cases i <;> rfl
    simp only [scaled, if_true, List.headD_cons, h0]
  · rw [if_neg e]
    refine ⟨f, rfl, hf, df, ?_⟩
    simpa [scaled, e] using rf

theorem weightedInner_ok (z : Nat → R) (check : Bool) {dims : List Nat} {rank : Nat} (hp : ∀ d ∈ dims, d ≠ 0) (hr : rank ≠ 0)
    {factors : List (Strided R)} {F : Nat → Nat → Nat → R} (hF : FactorsOk dims rank factors F) {w : Strided R}
    {g : Nat → R} (hw : WeightsOk dims w g) {wsched : List (List Nat)} (hs : wsched.Perm (box [dims.headD 0, rank])) {n m : Nat}
    (hm : m < dims.length) {ms : List Nat} (hms : ∀ x ∈ ms, x < dims.length) {st : Option (Strided R × Strided R)}
    (hst : WInnerOk dims rank (scaled g F) F ms st) :
    ∃ st', weightedInner z check rank w wsched factors n st m = .ok st' ∧ WInnerOk dims rank (scaled g F) F (if m = n then ms else ms ++ [m]) st' := by
  unfold weightedInner
  by_cases e : m = n
  · rw [if_pos e, if_pos e]
    exact ⟨st, rfl, hst⟩
  rw [if_neg e, if_neg e]
  have hmf : m < factors.length := by rw [hF.1]; exact hm
  obtain ⟨f1, f2, f3⟩ := hF.2 m _ _ (List.getElem?_eq_getElem hmf) (List.getElem?_eq_getElem hm)
  have hd0 : dims[m] ≠ 0 := hp _ (List.getElem_mem hm)
  have hgd : dims.getD m 0 = dims[m] := by simp [List.getD_eq_getElem?_getD, hm]
  obtain ⟨fg, g1, g2, g3, g4⟩ := gramFactor_ok z hw hs hm f1 f2 f3
  obtain ⟨C, c1, c2, c3, c4⟩ := gram_eq z check hd0 g2 g3 g4
  have hfa : factorAt factors m = .ok factors[m] := by simp [factorAt, List.getElem?_eq_getElem hmf]
  rw [hfa]
  simp only [Outcome.ok_bind, g1, c1]
  match st, hst with
  | none, hst =>
    have hst : ms = [] := hst
    subst hst
    refine ⟨some (C, factors[m]), ?_, ?_⟩
    · rw [assign_block z (r := 2) (by decide) (.inl rfl) c2 (by rw [c3]; rfl),
        assign_block z (r := 2) (by decide) (.inl rfl) f1 (by rw [f2]; rfl)]
      rfl
    · refine ⟨by simp, c2, c3, ?_, f1, ?_, ?_⟩
      · simpa [List.getElem?_eq_getElem hm] using c4
      · rw [f2]
        have : dims[m]?.getD 0 = dims[m] := by simp [hm]
        simp [numel, this]
      · intro j r hj hr'
        simp only [List.nil_append, List.map_cons, List.map_nil, hgd] at hj ⊢
        match j, hj with
        | [x], hj =>
          have := f3 [x, r] (by rw [f2]; exact ⟨hj.1, hr', trivial⟩)
          simpa [rowMajor, krElem, numel] using this
  | some (V, KR), hst =>
    obtain ⟨s0, s1, s2, s3, s4, s5, s6⟩ := hst
    have hk : numel (ms.map fun m => dims.getD m 0) ≠ 0 := by
      rw [numel_ne_zero]
      intro d hd
      obtain ⟨x, hx, rfl⟩ := List.mem_map.1 hd
      have := hms x hx
      rw [show dims.getD x 0 = dims[x] by simp [List.getD_eq_getElem?_getD, this]]
      exact hp _ (List.getElem_mem this)
    obtain ⟨V', v1, v2, v3, v4⟩ := hadamard_eq check s1 s2 c3 s3 c4
    have : Inhabited R := ⟨0⟩
    obtain ⟨fK, rK⟩ := exists_represents s4.wf
    obtain ⟨T, k1, k2, k3, k4⟩ := kr_eq z check hk hd0 hr f1 s4 f2 s5 f3 rK
    refine ⟨some (V', T), ?_, ?_⟩
    · simp only [v1, Outcome.ok_bind, k1]
      rw [assign_block z (r := 2) (by decide) (.inr ⟨s4, by rw [s5]; rfl⟩) k2 (by rw [k3]; rfl)]
      rfl
    · refine ⟨by simp, v2, v3, ?_, k2, ?_, ?_⟩
      · intro i hi
        rw [v4 i hi]
        simp [List.getElem?_eq_getElem hm]
      · rw [k3, List.map_append, numel_append]
        simp [numel, List.getElem?_eq_getElem hm]
      · intro j r hj hr'
        have hjl := hj.length
        rw [List.length_map, List.length_append, List.length_singleton] at hjl
        obtain ⟨j', x, rfl⟩ : ∃ j' x, j = j' ++ [x] := by
          refine ⟨j.dropLast, j.getLast (by intro e; rw [e] at hjl; simp at hjl), ?_⟩
          rw [List.dropLast_append_getLast]
        have hj'l : j'.length = ms.length := by simpa using hjl
        rw [List.map_append, List.map_cons, List.map_nil, hgd, inBox_snoc (by simpa using hj'l)] at hj
        have hx : x < dims[m] := hj.2
        have := k4 _ x r (rowMajor_lt hj.1) hx hr'
        have hfk := s6 j' r hj.1 hr'
        rw [rK _ (by rw [s5]; exact ⟨rowMajor_lt hj.1, hr', trivial⟩)] at hfk
        rw [List.map_append, rowMajor_append (by simpa using hj'l), List.map_cons, List.map_nil, hgd]
        have e1 : rowMajor [x] [dims[m]] = x := by simp [rowMajor]
        have e2 : numel [dims[m]] = dims[m] := by simp [numel]
        rw [e1, e2, this]
        congr 1
        unfold krElem
        rw [List.zip_append hj'l.symm, List.map_append, List.prod_append]
        simp only [Outcome.ok.injEq] at hfk
        rw [hfk]
        simp [krElem]

theorem weightedInner_loop (z : Nat → R) (check : Bool) {dims : List Nat} {rank : Nat} (hp : ∀ d ∈ dims, d ≠ 0) (hr : rank ≠ 0)
    {factors : List (Strided R)} {F : Nat → Nat → Nat → R} (hF : FactorsOk dims rank factors F) {w : Strided R}
    {g : Nat → R} (hw : WeightsOk dims w g) {wsched : List (List Nat)} (hs : wsched.Perm (box [dims.headD 0, rank])) (n k : Nat)
    (hk : k ≤ dims.length) :
    ∃ st, (List.range k).foldlM (weightedInner z check rank w wsched factors n) none = .ok st ∧ WInnerOk dims rank (scaled g F) F (otherModes k n) st := by
  induction k with
  | zero => exact ⟨none, rfl, rfl⟩
  | succ k ih =>
    obtain ⟨st, h1, h2⟩ := ih (by omega)
    obtain ⟨st', h3, h4⟩ := weightedInner_ok z check hp hr hF hw hs (n := n) (m := k) (by omega) (ms := otherModes k n) (by
      intro x hx
      have := List.mem_range.1 (List.mem_filter.1 hx).1
      omega) h2
    refine ⟨st', ?_, ?_⟩
    · rw [List.range_succ, List.foldlM_append, h1]
      simp only [Outcome.ok_bind, List.foldlM_cons, List.foldlM_nil, h3]
      rfl
    · have : otherModes (k + 1) n = if k = n then otherModes k n else otherModes k n ++ [k] := by
        unfold otherModes
        rw [List.range_succ, List.filter_append]
        by_cases e : k = n <;> simp [e]
      rw [this]
      exact h4

theorem weightedUpdate_eq {R : Type} [CommRing R] [BEq R] [LawfulBEq R] [Div R] {solve : GesvFn R}
    (hsolve : GesvContract solve) (z : Nat → R) (check : Bool)
    {dims : List Nat} {rank : Nat} (hp : ∀ d ∈ dims, d ≠ 0) (hr : rank ≠ 0) (h2 : 2 ≤ dims.length)
    {factors : List (Strided R)} {F : Nat → Nat → Nat → R} (hF : FactorsOk dims rank factors F) {w : Strided R}
    {g : Nat → R} (hw : WeightsOk dims w g) {wsched : List (List Nat)} (hs : wsched.Perm (box [dims.headD 0, rank]))
    {unfolded : List (Strided R)} {T : List Nat → R} {n : Nat} (hn : n < dims.length) {U : Strided R}
    (hU : unfolded[n]? = some U) (iU : U.IsTensor) (dU : U.dims = [dims[n], numel (dims.eraseIdx n)])
    (rU : ∀ a j, a < dims[n] → InBox j (dims.eraseIdx n) →
      U.read (toIdx [a, rowMajor j (dims.eraseIdx n)]) = .ok (T (j.insertIdx n a))) :
    ∃ fs b X, weightedUpdate solve z check rank w wsched unfolded factors n = .ok (fs, b) ∧
      FactorsOk dims rank fs (withFactor F n X) ∧
      (b = true → ∃ V rhs : Strided R, b = (solve rank dims[n] V.data rank rhs.data rank).2 ∧ V.IsTensor ∧
        V.dims = [rank, rank] ∧ rhs.IsTensor ∧ rhs.dims = [dims[n], rank] ∧
        (V.Represents fun i => ((otherModes dims.length n).map fun m =>
          sumTo (dims.getD m 0) fun x => scaled g F m x (i.getD 0 0) * scaled g F m x (i.getD 1 0)).prod) ∧
        (rhs.Represents fun i => ((box (dims.eraseIdx n)).map fun j =>
          T (j.insertIdx n (i.getD 0 0)) * krElem F (otherModes dims.length n) j (i.getD 1 0)).sum) ∧
        ∀ a r, a < dims[n] → r < rank →
          X a r = (solve rank dims[n] V.data rank rhs.data rank).1.getD (a * rank + r) 0) := by
  have : Inhabited R := ⟨0⟩
  obtain ⟨st, s1, s2⟩ := weightedInner_loop z check hp hr hF hw hs n dims.length (Nat.le_refl _)
  have hone : otherModes dims.length n ≠ [] := by
    intro e
    have := congrArg List.length e
    rw [otherModes_eq hn, List.length_eraseIdx_of_lt (by simpa using hn)] at this
    simp at this
    omega
  match st, s2 with
  | none, s2 => exact absurd s2 hone
  | some (V, KR), ⟨_, v1, v2, v3, k1, k2, k3⟩ =>
    rw [otherModes_dims hn] at k2 k3
    obtain ⟨fU, hfU⟩ := exists_represents iU.wf
    obtain ⟨fK, hfK⟩ := exists_represents k1.wf
    have hnf : n < factors.length := by rw [hF.1]; exact hn
    obtain ⟨f1, f2, f3⟩ := hF.2 n _ _ (List.getElem?_eq_getElem hnf) (List.getElem?_eq_getElem hn)
    have hk0 : numel (dims.eraseIdx n) ≠ 0 := numel_ne_zero.2 fun d hd => hp d (List.mem_of_mem_eraseIdx hd)
    obtain ⟨rhs, r1, r2, r3, r4⟩ := mttkrp_eq check hk0 f1 iU k1 f2 dU k2 hfU hfK
    -- the right-hand side in terms of the tensor
    have r5 : rhs.Represents fun i => ((box (dims.eraseIdx n)).map fun j =>
          T (j.insertIdx n (i.getD 0 0)) * krElem F (otherModes dims.length n) j (i.getD 1 0)).sum := by
      intro i hi
      rw [r4 i hi]
      rw [r3] at hi
      match i, hi with
      | [a, r], hi =>
        have ha : a < dims[n] := hi.1
        have hr' : r < rank := hi.2.1
        congr 1
        unfold sumTo
        beta_reduce
        rw [← map_rowMajor_box, List.map_map]
        apply sum_congr_list
        intro j hj
        have hj := mem_box.1 hj
        have e1 := rU a j ha hj
        rw [hfU _ (by rw [dU]; exact ⟨ha, rowMajor_lt hj, trivial⟩)] at e1
        have e2 := k3 j r hj hr'
        rw [hfK _ (by rw [k2]; exact ⟨rowMajor_lt hj, hr', trivial⟩)] at e2
        simp only [Outcome.ok.injEq] at e1 e2
        simp only [Function.comp_apply]
        change fU [a, rowMajor j (dims.eraseIdx n)] * fK [rowMajor j (dims.eraseIdx n), r] = _
        rw [e1, e2]
        rfl
    let x := solve rank dims[n] V.data rank rhs.data rank
    let X : Nat → Nat → R := fun a r => x.1.getD (a * rank + r) 0
    have hlV : V.data.length = rank * rank := by rw [v1.length, v2]; simp [numel]
    have hlR : rhs.data.length = dims[n] * rank := by rw [r2.length, r3]; simp [numel]
    have hlen : x.1.length = rhs.data.length :=
      (hsolve rank dims[n] V.data rank rhs.data rank (Nat.le_refl _) (by omega) (Nat.le_refl _) (by omega)).1
    have ix : Strided.IsTensor { rhs with data := x.1 } :=
      ⟨r2.off, r2.strides, by rw [← r2.length]; exact hlen⟩
    refine ⟨factors.set n { rhs with data := x.1 }, x.2, X, ?_, ?_, ?_⟩
    · unfold weightedUpdate
      rw [hF.1, s1]
      have hfa : factorAt factors n = .ok factors[n] := by simp [factorAt, List.getElem?_eq_getElem hnf]
      have hua : factorAt unfolded n = .ok U := by simp [factorAt, hU]
      simp only [Outcome.ok_bind, hua, hfa, r1]
      simp [gesv, Strided.dim, v2, r3, x]
    · refine ⟨by simpa using hF.1, ?_⟩
      intro m f d hf hd
      by_cases e : m = n
      · subst e
        rw [List.getElem?_set_self hnf] at hf
        have hd' : d = dims[m] := by
          rw [List.getElem?_eq_getElem hn] at hd; exact (Option.some.inj hd).symm
        subst hd'
        obtain rfl := Option.some.inj hf
        refine ⟨ix, r3, ?_⟩
        rw [represents_iff ix.wf]
        intro i hi
        change InBox i rhs.dims at hi
        rw [r3] at hi
        match i, hi with
        | [a, r], hi =>
          have ha : a < dims[m] := hi.1
          have hr' : r < rank := hi.2.1
          have hs' : rhs.strides = [rank, 1] := matrix_strides r2 r3
          have hlt : a * rank + r < x.1.length := by
            rw [hlen, r2.length, r3]
            have : (a + 1) * rank ≤ dims[m] * rank := Nat.mul_le_mul_right _ ha
            simp [numel]
            rw [Nat.add_mul] at this
            omega
          simp [withFactor, r2.off, hs', dot, X, List.getElem?_eq_getElem hlt]
      · rw [List.getElem?_set_ne (fun h => e h.symm)] at hf
        have := hF.2 m f d hf hd
        simpa [withFactor, e] using this
    · intro _
      exact ⟨V, rhs, rfl, v1, v2, r2, r3, v3, r5, fun a r _ _ => rfl⟩

omit [BEq R] [LawfulBEq R] [Div R] in
theorem cpElem_scaled (w : Nat → R) (F : Nat → Nat → Nat → R) {N : Nat} (hN : N ≠ 0) (rank : Nat) (i : List Nat) :
    cpElem N rank (scaled w F) i = w (i.headD 0) * cpElem N rank F i := by
  obtain ⟨N, rfl⟩ := Nat.exists_eq_succ_of_ne_zero hN
  unfold cpElem sumTo
  rw [← List.sum_map_mul_left]
  apply sum_congr_list
  intro r _
  have h0 : i.headD 0 = i.getD 0 0 := by cases i <;> rfl
  rw [List.range_succ_eq_map]
  simp only [List.map_cons, List.prod_cons, List.map_map, scaled, if_true, h0, mul_assoc]
  congr 2

omit [BEq R] [LawfulBEq R] [Div R] in
theorem krElem_scaled (w : Nat → R) (F : Nat → Nat → Nat → R) {N n : Nat} (hn : n < N) (h0 : n ≠ 0) {j : List Nat}
    (hj : j.length = N - 1) (r : Nat) :
    krElem (scaled w F) (otherModes N n) j r = w (j.headD 0) * krElem F (otherModes N n) j r := by
  obtain ⟨N, rfl⟩ : ∃ M, N = M + 1 := ⟨N - 1, by omega⟩
  have e : otherModes (N + 1) n = 0 :: ((List.range N).map Nat.succ).filter (· ≠ n) := by
    unfold otherModes
    rw [List.range_succ_eq_map, List.filter_cons, if_pos (by simpa using fun h => h0 h.symm)]
  match j, hj with
  | [], hj => simp at hj; omega
  | x :: j, _ =>
    unfold krElem
    rw [e, List.zip_cons_cons, List.map_cons, List.map_cons, List.prod_cons, List.prod_cons]
    have : (List.map (fun p => scaled w F p.1 p.2 r) ((((List.range N).map Nat.succ).filter (· ≠ n)).zip j))
        = List.map (fun p => F p.1 p.2 r) ((((List.range N).map Nat.succ).filter (· ≠ n)).zip j) := by
      apply List.map_congr_left
      rintro ⟨m, y⟩ hm
      have := (List.mem_filter.1 (List.of_mem_zip hm).1).1
      obtain ⟨k, _, rfl⟩ := List.mem_map.1 this
      simp [scaled]
    rw [this]
    simp only [scaled, if_true, List.headD_cons, mul_assoc]

theorem scaled_withFactor {R : Type} [Mul R] (w : Nat → R) (F : Nat → Nat → Nat → R) {n : Nat} (h0 : n ≠ 0) (X : Nat → Nat → R) :
    scaled w (withFactor F n X) = withFactor (scaled w F) n X := by
  funext m x r
  unfold scaled withFactor
  by_cases e : m = n
  · subst e; simp [h0]
  · simp [e]

theorem headD_insertIdx {j : List Nat} {n a : Nat} (h0 : n ≠ 0) (hj : j ≠ []) : (j.insertIdx n a).headD 0 = j.headD 0 := by
  obtain ⟨n, rfl⟩ := Nat.exists_eq_succ_of_ne_zero h0
  cases j with
  | nil => exact absurd rfl hj
  | cons x j => rfl

section ordered
variable {S : Type} [CommRing S] [LinearOrder S] [IsStrictOrderedRing S]

omit [LinearOrder S] [IsStrictOrderedRing S] in
theorem weightedError_eq {dims : List Nat} (h0 : dims ≠ []) (rank : Nat) (w : Nat → S) (T : List Nat → S) (F : Nat → Nat → Nat → S) :
    weightedError dims rank w T F = cpError dims rank (fun i => w (i.headD 0) * T i) (scaled w F) := by
  unfold weightedError cpError
  apply sum_congr_list
  intro i _
  rw [cpElem_scaled w F (by simpa using h0)]
  ring

/-- The tensor whose unfolding along mode `n` is on the right-hand side: weighted unless `n = 0`. -/
def weightedFor {S : Type} [Mul S] (w : Nat → S) (T : List Nat → S) (n : Nat) : List Nat → S :=
  fun i => if n = 0 then T i else w (i.headD 0) * w (i.headD 0) * T i

theorem weighted_least_squares {dims : List Nat} {rank n : Nat} (hn : n < dims.length) (h2 : 2 ≤ dims.length) (w : Nat → S)
    (T : List Nat → S) (F : Nat → Nat → Nat → S) (X : Nat → Nat → S)
    (hX : ∀ a r, a < dims[n] → r < rank →
      sumTo rank (fun k => ((otherModes dims.length n).map fun m =>
        sumTo (dims.getD m 0) fun x => scaled w F m x k * scaled w F m x r).prod * X a k)
      = ((box (dims.eraseIdx n)).map fun j => weightedFor w T n (j.insertIdx n a) * krElem F (otherModes dims.length n) j r).sum)
    (Y : Nat → Nat → S) :
    weightedError dims rank w T (withFactor F n X) ≤ weightedError dims rank w T (withFactor F n Y) := by
  have hne : dims ≠ [] := by rintro rfl; simp at h2
  by_cases h0 : n = 0
  · subst h0
    unfold weightedError
    rw [sum_box_insert hn, sum_box_insert hn]
    unfold sumTo
    apply List.sum_le_sum
    intro a ha
    have ha := List.mem_range.1 ha
    have row := least_squares_row hn T F X (a := a) (by
      intro r hr
      have := hX a r ha hr
      simp only [weightedFor, if_true] at this
      rw [← this]
      apply sumTo_congr
      intro k _
      congr 2
      apply List.map_congr_left
      intro m hm
      have : m ≠ 0 := by simpa [otherModes] using (List.mem_filter.1 hm).2
      simp [scaled, this]) Y
    simp only [List.insertIdx_zero, List.headD_cons] at row ⊢
    rw [List.sum_map_mul_left, List.sum_map_mul_left]
    exact mul_le_mul_of_nonneg_left row (by positivity)
  · rw [weightedError_eq hne, weightedError_eq hne, scaled_withFactor w F h0, scaled_withFactor w F h0]
    apply least_squares hn
    intro a r ha hr
    rw [hX a r ha hr]
    apply sum_congr_list
    intro j hj
    have hjl : j.length = dims.length - 1 := by
      rw [(mem_box.1 hj).length, List.length_eraseIdx_of_lt hn]
    have hjn : j ≠ [] := by rintro rfl; simp at hjl; omega
    rw [krElem_scaled w F hn h0 hjl]
    simp only [weightedFor, if_neg h0, headD_insertIdx h0 hjn]
    ring

end ordered

section ordered
variable {S : Type} [CommRing S] [LinearOrder S] [IsStrictOrderedRing S] [BEq S] [LawfulBEq S] [Div S]

/-- What the unfoldings hold after `reweight`. -/
def WUnfoldedOk {R : Type} [Mul R] (dims : List Nat) (g : Nat → R) (T : List Nat → R) (us : List (Strided R)) : Prop :=
  ∀ (n : Nat) (hn : n < dims.length), ∃ U, us[n]? = some U ∧ U.IsTensor ∧
    U.dims = [dims[n], numel (dims.eraseIdx n)] ∧ ∀ a j, a < dims[n] → InBox j (dims.eraseIdx n) →
      U.read (toIdx [a, rowMajor j (dims.eraseIdx n)]) = .ok (weightedFor g T n (j.insertIdx n a))

theorem weightedUpdate_min {solve : GesvFn S} (hsolve : GesvContract solve) (z : Nat → S) (check : Bool)
    {dims : List Nat} {rank : Nat} (hp : ∀ d ∈ dims, d ≠ 0) (hr : rank ≠ 0) (h2 : 2 ≤ dims.length)
    {factors : List (Strided S)} {F : Nat → Nat → Nat → S} (hF : FactorsOk dims rank factors F) {w : Strided S}
    {g : Nat → S} (hw : WeightsOk dims w g) {wsched : List (List Nat)} (hs : wsched.Perm (box [dims.headD 0, rank]))
    {unfolded : List (Strided S)} {T : List Nat → S} (hU : WUnfoldedOk dims g T unfolded) {n : Nat} (hn : n < dims.length) :
    ∃ fs b X, weightedUpdate solve z check rank w wsched unfolded factors n = .ok (fs, b) ∧
      FactorsOk dims rank fs (withFactor F n X) ∧
      (b = true → ∀ Y, weightedError dims rank g T (withFactor F n X) ≤ weightedError dims rank g T (withFactor F n Y)) := by
  obtain ⟨U, u1, u2, u3, u4⟩ := hU n hn
  obtain ⟨fs, b, X, a1, a2, a3⟩ := weightedUpdate_eq hsolve z check hp hr h2 hF hw hs hn u1 u2 u3 u4
  refine ⟨fs, b, X, a1, a2, ?_⟩
  intro hb
  obtain ⟨V, rhs, b1, v1, v2, r1, r2, v3, r3, x1⟩ := a3 hb
  apply weighted_least_squares hn h2
  intro a r ha hr'
  have hlV : V.data.length = rank * rank := by rw [v1.length, v2]; simp [numel]
  have hlR : rhs.data.length = dims[n] * rank := by rw [r1.length, r2]; simp [numel]
  have := (hsolve rank dims[n] V.data rank rhs.data rank (Nat.le_refl _) (by omega) (Nat.le_refl _) (by omega)).2
    (by rw [← b1]; exact hb) a r ha hr'
  rw [matrix_getD r1 r2 r3 ha hr'] at this
  rw [← show _ = ((box (dims.eraseIdx n)).map fun j => weightedFor g T n (j.insertIdx n a) * krElem F (otherModes dims.length n) j r).sum from this]
  apply sumTo_congr
  intro k hk
  rw [matrix_getD v1 v2 v3 hk hr', x1 a k ha hk]
  rfl

theorem weightedSweep_ok {solve : GesvFn S} (hsolve : GesvContract solve) (z : Nat → S) (check : Bool)
    {dims : List Nat} {rank : Nat} (hp : ∀ d ∈ dims, d ≠ 0) (hr : rank ≠ 0) (h2 : 2 ≤ dims.length) {w : Strided S}
    {g : Nat → S} (hw : WeightsOk dims w g) {wsched : List (List Nat)} (hs : wsched.Perm (box [dims.headD 0, rank]))
    {st : List (Strided S) × Bool} {F : Nat → Nat → Nat → S} (hF : FactorsOk dims rank st.1 F)
    {unfolded : List (Strided S)} {T : List Nat → S} (hU : WUnfoldedOk dims g T unfolded) :
    ∃ st' F', weightedSweep solve z check rank w wsched unfolded st = .ok st' ∧ FactorsOk dims rank st'.1 F' ∧
      (st'.2 = true → st.2 = true ∧ weightedError dims rank g T F' ≤ weightedError dims rank g T F) := by
  have key : ∀ k, k ≤ dims.length → ∃ st' F', (List.range k).foldlM (fun (st : List (Strided S) × Bool) n => do
      let x ← weightedUpdate solve z check rank w wsched unfolded st.1 n
      return (x.1, st.2 && x.2)) st = Outcome.ok st' ∧ FactorsOk dims rank st'.1 F' ∧
      (st'.2 = true → st.2 = true ∧ weightedError dims rank g T F' ≤ weightedError dims rank g T F) := by
    intro k
    induction k with
    | zero => exact fun _ => ⟨st, F, rfl, hF, fun h => ⟨h, le_refl _⟩⟩
    | succ k ih =>
      intro hk
      obtain ⟨st1, F1, h1, h3, h4⟩ := ih (by omega)
      obtain ⟨fs, b, X, a1, a2, a3⟩ := weightedUpdate_min hsolve z check hp hr h2 h3 hw hs hU (n := k) (by omega)
      refine ⟨(fs, st1.2 && b), withFactor F1 k X, ?_, a2, ?_⟩
      · rw [List.range_succ, List.foldlM_append, h1]
        simp only [Outcome.ok_bind, List.foldlM_cons, List.foldlM_nil, a1, pure_bind]
        rfl
      · intro hb
        simp only [Bool.and_eq_true] at hb
        obtain ⟨b1, b2⟩ := h4 hb.1
        refine ⟨b1, le_trans ?_ b2⟩
        have := a3 hb.2 (F1 k)
        rwa [withFactor_self] at this
  obtain ⟨st', F', h1, h3, h4⟩ := key dims.length (Nat.le_refl _)
  refine ⟨st', F', ?_, h3, h4⟩
  unfold weightedSweep
  rw [hF.1]
  exact h1

theorem weightedLoop_ok {solve : GesvFn S} (hsolve : GesvContract solve) (z : Nat → S) (check : Bool)
    {dims : List Nat} {rank : Nat} (hp : ∀ d ∈ dims, d ≠ 0) (hr : rank ≠ 0) (h2 : 2 ≤ dims.length) {w : Strided S}
    {g : Nat → S} (hw : WeightsOk dims w g) {wsched : List (List Nat)} (hs : wsched.Perm (box [dims.headD 0, rank]))
    {unfolded : List (Strided S)} {T : List Nat → S} (hU : WUnfoldedOk dims g T unfolded) (stop : Nat → Bool)
    (fuel iter : Nat) {st : List (Strided S) × Bool} {F : Nat → Nat → Nat → S} (hF : FactorsOk dims rank st.1 F) :
    ∃ st' F', weightedLoop solve z check rank w wsched unfolded stop fuel iter st = .ok st' ∧ FactorsOk dims rank st'.1 F' ∧
      (st'.2 = true → st.2 = true ∧ weightedError dims rank g T F' ≤ weightedError dims rank g T F) := by
  induction fuel generalizing iter st F with
  | zero => exact ⟨st, F, rfl, hF, fun h => ⟨h, le_refl _⟩⟩
  | succ fuel ih =>
    obtain ⟨st1, F1, h1, h3, h4⟩ := weightedSweep_ok hsolve z check hp hr h2 hw hs hF hU
    unfold weightedLoop
    rw [h1]
    simp only [Outcome.ok_bind]
    by_cases e : stop iter = true
    · rw [if_pos e]
      exact ⟨st1, F1, rfl, h3, h4⟩
    · rw [if_neg e]
      obtain ⟨st2, F2, a1, a2, a3⟩ := ih (iter + 1) h3
      refine ⟨st2, F2, a1, a2, ?_⟩
      intro hb
      obtain ⟨b1, b2⟩ := a3 hb
      obtain ⟨c1, c2⟩ := h4 b1
      exact ⟨c1, le_trans b2 c2⟩

end ordered

/-! ### The weighted unfoldings -/

theorem squareWeights_ok (z : Nat → R) (check : Bool) {d : Nat} {w : Operand R} (dw : w.t.dims = [d]) {g : Nat → R}
    (rw' : w.t.Represents fun i => g (i.headD 0)) :
    ∃ sq, einsum false check 0 [AlsLabel.P] (tensorOperand (Strided.mk' z [w.t.dim 0])) 1 [.P] w [.P] w = .ok sq ∧
      sq.dims = [d] ∧ sq.Represents fun i => g (i.headD 0) * g (i.headD 0) := by
  have hd : w.t.dim 0 = d := by simp [Strided.dim, dw]
  rw [hd]
  have hm : (Strided.mk' z [d]).IsTensor := isTensor_mk' z (by simp)
  have : Inhabited R := ⟨0⟩
  obtain ⟨fC, hC⟩ := exists_represents hm.wf
  obtain ⟨C, h1, fr, h2⟩ := C23_elementwise (fun _ : AlsLabel => d) [.P] false check w w (tensorOperand (Strided.mk' z [d]))
    _ _ fC 0 1 (by decide) (by decide) dw dw rfl (tensorOperand_valid hm) rfl rw' rw' hC
  refine ⟨C, h1, fr.dims, ?_⟩
  intro i hi
  rw [h2 i hi]
  simp

theorem reweight_ok (z : Nat → R) (check : Bool) {t : Strided R} (h2 : 2 ≤ t.dims.length)
    {T : List Nat → R} (hT : t.Represents T) {w : Operand R} {g : Nat → R} (hw : WeightsOk t.dims w.t g)
    {sched : Nat → List (List Nat × List Nat × Nat)}
    (hs : ∀ n (u : Strided R), u.dims = t.dims → n < t.dims.length →
      (sched n).Perm (unfoldIterations (unfoldRanges n u).1 (unfoldRanges n u).2))
    {tsched : List (List Nat)} (ht : tsched.Perm (box t.dims)) {us : List (Strided R)}
    (hl : t.dims.length ≤ us.length) (hU : UnfoldedOk t.dims T us) :
    ∃ us', reweight z check t w sched tsched us = .ok us' ∧ WUnfoldedOk t.dims g T us' := by
  have h0 : t.dims ≠ [] := by intro e; rw [e] at h2; simp at h2
  obtain ⟨sq, q1, q2, q3⟩ := squareWeights_ok z check hw.dims_eq hw.rep
  obtain ⟨wt, w1, w2, w3, w4⟩ := weight_eq z h0 hT q2 q3 ht
  have hT' : wt.Represents fun i => g (i.headD 0) * g (i.headD 0) * T i := by
    intro i hi
    rw [w4 i hi]
    simp
  have key : ∀ k, k ≤ t.dims.length → ∃ us', (List.range k).foldlM (fun us i =>
      if i ≠ 0 then do
        let u ← unfold z i wt (sched i)
        let old ← factorAt us i
        let u' ← old.assign z u
        return us.set i u'
      else return us) us = Outcome.ok us' ∧ t.dims.length ≤ us'.length ∧
      ∀ (n : Nat) (hn : n < t.dims.length), ∃ U, us'[n]? = some U ∧ U.IsTensor ∧
        U.dims = [t.dims[n], numel (t.dims.eraseIdx n)] ∧ ∀ a j, a < t.dims[n] → InBox j (t.dims.eraseIdx n) →
          U.read (toIdx [a, rowMajor j (t.dims.eraseIdx n)]) =
            .ok (if n < k then weightedFor g T n (j.insertIdx n a) else T (j.insertIdx n a)) := by
    intro k
    induction k with
    | zero =>
      intro _
      refine ⟨us, rfl, hl, ?_⟩
      intro n hn
      obtain ⟨U, a1, a2, a3, a4⟩ := hU n hn
      exact ⟨U, a1, a2, a3, by simpa using a4⟩
    | succ k ih =>
      intro hk
      obtain ⟨us1, h1, h3, h4⟩ := ih (by omega)
      rw [List.range_succ, List.foldlM_append, h1]
      simp only [Outcome.ok_bind, List.foldlM_cons, List.foldlM_nil]
      by_cases e : k = 0
      · subst e
        refine ⟨us1, rfl, h3, ?_⟩
        intro n hn
        obtain ⟨U, a1, a2, a3, a4⟩ := h4 n hn
        refine ⟨U, a1, a2, a3, ?_⟩
        intro a j ha hj
        rw [a4 a j ha hj]
        by_cases e' : n = 0
        · simp [e', weightedFor]
        · rw [if_neg (by omega), if_neg (by omega)]
      · have hk' : k < t.dims.length := by omega
        obtain ⟨U, u1, u2, u3, u4⟩ := unfold_insert z (n := k) (t := wt) (by rw [w3]; exact hk') (by rw [w3]; exact h2) hT'
          (hs k wt w3 hk')
        simp only [w3] at u3 u4
        obtain ⟨V, v1, v2, v3, v4⟩ := h4 k hk'
        refine ⟨us1.set k U, ?_, by simpa using h3, ?_⟩
        · rw [if_pos e, u1]
          simp only [Outcome.ok_bind, factorAt, v1]
          rw [assign_block z (r := 2) (by decide) (.inr ⟨v2, by rw [v3]; rfl⟩) u2 (by rw [u3]; rfl)]
          rfl
        · intro n hn
          by_cases e' : n = k
          · subst e'
            refine ⟨U, List.getElem?_set_self (by omega), u2, u3, ?_⟩
            intro a j ha hj
            rw [u4 a j ha hj, if_pos (by omega)]
            simp [weightedFor, e]
          · obtain ⟨U', a1, a2, a3, a4⟩ := h4 n hn
            refine ⟨U', by rw [List.getElem?_set_ne (fun h => e' h.symm)]; exact a1, a2, a3, ?_⟩
            intro a j ha hj
            rw [a4 a j ha hj]
            by_cases e'' : n < k
            · rw [if_pos e'', if_pos (by omega)]
            · rw [if_neg e'', if_neg (by omega)]
  obtain ⟨us', k1, k2, k3⟩ := key t.dims.length (Nat.le_refl _)
  refine ⟨us', ?_, ?_⟩
  · unfold reweight
    simp only [q1, Outcome.ok_bind, w1]
    exact k1
  · intro n hn
    obtain ⟨U, a1, a2, a3, a4⟩ := k3 n hn
    refine ⟨U, a1, a2, a3, ?_⟩
    intro a j ha hj
    rw [a4 a j ha hj, if_pos hn]

end
end Einsums
