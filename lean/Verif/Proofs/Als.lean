import Verif.Model.Als
import Verif.Spec.Lapack
import Mathlib.Tactic.Ring
import Mathlib.Algebra.Order.Ring.Defs
import Mathlib.Algebra.Order.BigOperators.Group.List
import Mathlib.Tactic.Positivity
import Mathlib.Tactic.Linarith
import Verif.Proofs.Decomposition
import Verif.Props.TensorAlgebra
import Verif.Props.Block
import Mathlib.Tactic.FinCases
/-
Proofs about the alternating least squares iteration.
-/
namespace Einsums
open Spec Model Props

section
variable {R : Type} [CommSemiring R] [BEq R] [LawfulBEq R] [Div R]

theorem numel_ne_zero {l : List Nat} : numel l ≠ 0 ↔ ∀ d ∈ l, d ≠ 0 := by
  induction l with
  | nil => simp [numel]
  | cons d l ih => rw [numel_cons, Nat.mul_ne_zero_iff, ih]; simp

theorem inBox_snoc {j a : List Nat} {x d : Nat} (h : j.length = a.length) : InBox (j ++ [x]) (a ++ [d]) ↔ InBox j a ∧ x < d := by
  rw [inBox_append_iff]
  constructor
  · rintro ⟨i, k, e, h1, h2⟩
    obtain ⟨rfl, rfl⟩ := List.append_inj e (by rw [h, h1.length])
    exact ⟨h1, h2.1⟩
  · rintro ⟨h1, h2⟩
    exact ⟨j, [x], rfl, h1, h2, trivial⟩

/-- A matrix product through einsum, `C(a,b) = Σ_k A(..) B(..)`, from its value at every assignment. -/
theorem gram_eq (z : Nat → R) (check : Bool) {rank d : Nat} (hd : d ≠ 0) {f : Strided R} (hf : f.IsTensor)
    (df : f.dims = [d, rank]) {F : Nat → Nat → R} (rf : f.Represents fun i => F (i.getD 0 0) (i.getD 1 0)) :
    ∃ C, einsum false check 0 [AlsLabel.r, .s] (tensorOperand (Strided.mk' z [rank, rank])) 1 [.I, .r]
        (tensorOperand f) [.I, .s] (tensorOperand f) = .ok C ∧ C.IsTensor ∧ C.dims = [rank, rank] ∧
      C.Represents fun i => sumTo d fun x => F x (i.getD 0 0) * F x (i.getD 1 0) := by
  have hm : (Strided.mk' z [rank, rank]).IsTensor := isTensor_mk' z (by simp)
  have : Inhabited R := ⟨0⟩
  obtain ⟨fC, hC⟩ := exists_represents hm.wf
  let δ : AlsLabel → Nat := fun l => if l = .I then d else rank
  obtain ⟨C, h1, fr, h2⟩ := C15_einsum δ [AlsLabel.I, .r] [.I, .s] [.r, .s] [.I] false check (tensorOperand f)
    (tensorOperand f) (tensorOperand (Strided.mk' z [rank, rank])) _ _ fC 0 1 (by decide) (by decide) (by decide)
    (by decide) df df rfl (tensorOperand_valid hf) (tensorOperand_valid hf) (tensorOperand_valid hm) rfl rf rf hC
    (by decide) (by decide) (by decide) (fun _ => by decide) (fun h => absurd h (by decide))
    ⟨by decide, fun l => by cases l <;> decide⟩ (.inl (by simpa [δ] using hd))
  refine ⟨C, h1, fr.isTensor hm, fr.dims, ?_⟩
  intro i hi
  rw [fr.dims] at hi
  match i, hi with
  | [a, b], hi =>
    have ha : a < rank := hi.1
    have hb : b < rank := hi.2.1
    have := h2 (fun l => if l = .r then a else b) (by
      intro l hl
      fin_cases hl <;> simpa [δ])
    simp only [List.map_cons, List.map_nil, if_true, reduceCtorEq, if_false, zero_mul, zero_add, one_mul] at this
    rw [this]
    simp [contraction, sumOver, update, sumTo, δ]

theorem hadamard_eq (check : Bool) {rank : Nat} {V A : Strided R} (hV : V.IsTensor)
    (dV : V.dims = [rank, rank]) (dA : A.dims = [rank, rank]) {fV fA : List Nat → R} (rV : V.Represents fV)
    (rA : A.Represents fA) :
    ∃ C, einsum false check 0 [AlsLabel.r, .s] (tensorOperand V) 1 [.r, .s] (tensorOperand V) [.r, .s]
        (tensorOperand A) = .ok C ∧ C.IsTensor ∧ C.dims = [rank, rank] ∧ C.Represents fun i => fV i * fA i := by
  obtain ⟨C, h1, fr, h2⟩ := C23_elementwise (fun _ : AlsLabel => rank) [.r, .s] false check (tensorOperand V)
    (tensorOperand A) (tensorOperand V) fV fA fV 0 1 (by decide) (by decide) dV dA dV (tensorOperand_valid hV) rfl rV rA rV
  refine ⟨C, h1, fr.isTensor hV, fr.dims.trans dV, ?_⟩
  intro i hi
  rw [h2 i hi]
  simp

theorem mttkrp_eq (check : Bool) {rank d k : Nat} (hk : k ≠ 0) {f U KR : Strided R} (hf : f.IsTensor) (hU : U.IsTensor)
    (hKR : KR.IsTensor) (df : f.dims = [d, rank]) (dU : U.dims = [d, k]) (dK : KR.dims = [k, rank])
    {fU fK : List Nat → R} (rU : U.Represents fU) (rK : KR.Represents fK) :
    ∃ C, einsum false check 0 [AlsLabel.I, .r] (tensorOperand f) 1 [.I, .K] (tensorOperand U) [.K, .r]
        (tensorOperand KR) = .ok C ∧ C.IsTensor ∧ C.dims = [d, rank] ∧
      C.Represents fun i => sumTo k fun c => fU [i.getD 0 0, c] * fK [c, i.getD 1 0] := by
  have : Inhabited R := ⟨0⟩
  obtain ⟨fC, hC⟩ := exists_represents hf.wf
  let δ : AlsLabel → Nat := fun l => if l = .I then d else if l = .K then k else rank
  obtain ⟨C, h1, fr, h2⟩ := C15_einsum δ [AlsLabel.I, .K] [.K, .r] [.I, .r] [.K] false check (tensorOperand U)
    (tensorOperand KR) (tensorOperand f) _ _ fC 0 1 (by decide) (by decide) (by decide)
    (by decide) dU dK df (tensorOperand_valid hU) (tensorOperand_valid hKR) (tensorOperand_valid hf) rfl rU rK hC
    (by decide) (by decide) (by decide) (fun _ => by decide) (fun h => absurd h (by decide))
    ⟨by decide, fun l => by cases l <;> decide⟩ (.inl (by simpa [δ] using hk))
  refine ⟨C, h1, fr.isTensor hf, fr.dims.trans df, ?_⟩
  intro i hi
  rw [fr.dims] at hi
  change InBox i f.dims at hi
  rw [df] at hi
  match i, hi with
  | [a, b], hi =>
    have ha : a < d := hi.1
    have hb : b < rank := hi.2.1
    have := h2 (fun l => if l = .I then a else b) (by
      intro l hl
      fin_cases hl <;> simpa [δ])
    simp only [List.map_cons, List.map_nil, if_true, reduceCtorEq, if_false, zero_mul, zero_add, one_mul] at this
    rw [this]
    simp [contraction, sumOver, update, sumTo, δ]

theorem kr_eq (z : Nat → R) (check : Bool) {rank d k : Nat} (hk : k ≠ 0) (hd : d ≠ 0) (hr : rank ≠ 0) {f KR : Strided R}
    (hf : f.IsTensor) (hKR : KR.IsTensor) (df : f.dims = [d, rank]) (dK : KR.dims = [k, rank])
    {F : Nat → Nat → R} {fK : List Nat → R} (rf : f.Represents fun i => F (i.getD 0 0) (i.getD 1 0))
    (rK : KR.Represents fK) :
    ∃ T, khatriRao z check [AlsLabel.I, .r] (tensorOperand KR) [.M, .r] (tensorOperand f) = .ok T ∧ T.IsTensor ∧
      T.dims = [k * d, rank] ∧
      ∀ c x b, c < k → x < d → b < rank → T.read (toIdx [c * d + x, b]) = .ok (fK [c, b] * F x b) := by
  let δ : AlsLabel → Nat := fun l => if l = .I then k else if l = .M then d else rank
  obtain ⟨T, h1, h2, h3, h4⟩ := C29_khatri_rao_partial z δ [AlsLabel.I] [.M] [.r] check (tensorOperand KR) (tensorOperand f)
    fK _ (by decide) (by decide) (by decide) dK df (tensorOperand_valid hKR) (tensorOperand_valid hf) rK rf (by
      intro l hl
      fin_cases hl <;> simpa [δ])
  refine ⟨T, h1, h2, ?_, ?_⟩
  · rw [h3]
    simp [δ, numel]
  · intro c x b hc hx hb
    have := h4 (fun l => if l = .I then c else if l = .M then x else b) (by
      intro l hl
      fin_cases hl <;> simpa [δ])
    simpa [rowMajor, numel, δ] using this

/-! ### The loop over the other modes -/

/-- What `V` and `KR` hold after the modes `ms`. -/
def InnerOk {R : Type} [CommSemiring R] (dims : List Nat) (rank : Nat) (F : Nat → Nat → Nat → R) (ms : List Nat) :
    Option (Strided R × Strided R) → Prop
  | none => ms = []
  | some (V, KR) => ms ≠ [] ∧ V.IsTensor ∧ V.dims = [rank, rank] ∧
      V.Represents (fun i => (ms.map fun m => sumTo (dims.getD m 0) fun x => F m x (i.getD 0 0) * F m x (i.getD 1 0)).prod) ∧
      KR.IsTensor ∧ KR.dims = [numel (ms.map fun m => dims.getD m 0), rank] ∧
      ∀ j r, InBox j (ms.map fun m => dims.getD m 0) → r < rank →
        KR.read (toIdx [rowMajor j (ms.map fun m => dims.getD m 0), r]) = .ok (krElem F ms j r)

theorem alsInner_ok (z : Nat → R) (check : Bool) {dims : List Nat} {rank : Nat} (hp : ∀ d ∈ dims, d ≠ 0) (hr : rank ≠ 0)
    {factors : List (Strided R)} {F : Nat → Nat → Nat → R} (hF : FactorsOk dims rank factors F) {n m : Nat}
    (hm : m < dims.length) {ms : List Nat} (hms : ∀ x ∈ ms, x < dims.length) {st : Option (Strided R × Strided R)}
    (hst : InnerOk dims rank F ms st) :
    ∃ st', alsInner z check rank factors n st m = .ok st' ∧ InnerOk dims rank F (if m = n then ms else ms ++ [m]) st' := by
  unfold alsInner
  by_cases e : m = n
  · rw [if_pos e, if_pos e]
    exact ⟨st, rfl, hst⟩
  rw [if_neg e, if_neg e]
  have hmf : m < factors.length := by rw [hF.1]; exact hm
  obtain ⟨f1, f2, f3⟩ := hF.2 m _ _ (List.getElem?_eq_getElem hmf) (List.getElem?_eq_getElem hm)
  have hd0 : dims[m] ≠ 0 := hp _ (List.getElem_mem hm)
  have hgd : dims.getD m 0 = dims[m] := by simp [List.getD_eq_getElem?_getD, hm]
  obtain ⟨C, c1, c2, c3, c4⟩ := gram_eq z check hd0 f1 f2 f3
  have hfa : factorAt factors m = .ok factors[m] := by simp [factorAt, List.getElem?_eq_getElem hmf]
  rw [hfa]
  simp only [Outcome.ok_bind, c1]
  match st, hst with
  | none, hst =>
    have hst : ms = [] := hst
    subst hst
    refine ⟨some (C, factors[m]), ?_, ?_⟩
    · rw [assign_block z (r := 2) (by decide) (.inl rfl) c2 (by rw [c3]; rfl),
        assign_block z (r := 2) (by decide) (.inl rfl) f1 (by rw [f2]; rfl)]
      rfl
    · refine ⟨by simp, c2, c3, ?_, f1, ?_, ?_⟩
      · simpa [List.getElem?_eq_getElem hm] using c4
      · rw [f2]
        have : dims[m]?.getD 0 = dims[m] := by simp [hm]
        simp [numel, this]
      · intro j r hj hr'
        simp only [List.nil_append, List.map_cons, List.map_nil, hgd] at hj ⊢
        match j, hj with
        | [x], hj =>
          have := f3 [x, r] (by rw [f2]; exact ⟨hj.1, hr', trivial⟩)
          simpa [rowMajor, krElem, numel] using this
  | some (V, KR), hst =>
    obtain ⟨s0, s1, s2, s3, s4, s5, s6⟩ := hst
    have hk : numel (ms.map fun m => dims.getD m 0) ≠ 0 := by
      rw [numel_ne_zero]
      intro d hd
      obtain ⟨x, hx, rfl⟩ := List.mem_map.1 hd
      have := hms x hx
      rw [show dims.getD x 0 = dims[x] by simp [List.getD_eq_getElem?_getD, this]]
      exact hp _ (List.getElem_mem this)
    obtain ⟨V', v1, v2, v3, v4⟩ := hadamard_eq check s1 s2 c3 s3 c4
    have : Inhabited R := ⟨0⟩
    obtain ⟨fK, rK⟩ := exists_represents s4.wf
    obtain ⟨T, k1, k2, k3, k4⟩ := kr_eq z check hk hd0 hr f1 s4 f2 s5 f3 rK
    refine ⟨some (V', T), ?_, ?_⟩
    · simp only [v1, Outcome.ok_bind, k1]
      rw [assign_block z (r := 2) (by decide) (.inr ⟨s4, by rw [s5]; rfl⟩) k2 (by rw [k3]; rfl)]
      rfl
    · refine ⟨by simp, v2, v3, ?_, k2, ?_, ?_⟩
      · intro i hi
        rw [v4 i hi]
        simp [List.getElem?_eq_getElem hm]
      · rw [k3, List.map_append, numel_append]
        simp [numel, List.getElem?_eq_getElem hm]
      · intro j r hj hr'
        have hjl := hj.length
        rw [List.length_map, List.length_append, List.length_singleton] at hjl
        obtain ⟨j', x, rfl⟩ : ∃ j' x, j = j' ++ [x] := by
          refine ⟨j.dropLast, j.getLast (by intro e; rw [e] at hjl; simp at hjl), ?_⟩
          rw [List.dropLast_append_getLast]
        have hj'l : j'.length = ms.length := by simpa using hjl
        rw [List.map_append, List.map_cons, List.map_nil, hgd, inBox_snoc (by simpa using hj'l)] at hj
        have hx : x < dims[m] := hj.2
        have := k4 _ x r (rowMajor_lt hj.1) hx hr'
        have hfk := s6 j' r hj.1 hr'
        rw [rK _ (by rw [s5]; exact ⟨rowMajor_lt hj.1, hr', trivial⟩)] at hfk
        rw [List.map_append, rowMajor_append (by simpa using hj'l), List.map_cons, List.map_nil, hgd]
        have e1 : rowMajor [x] [dims[m]] = x := by simp [rowMajor]
        have e2 : numel [dims[m]] = dims[m] := by simp [numel]
        rw [e1, e2, this]
        congr 1
        unfold krElem
        rw [List.zip_append hj'l.symm, List.map_append, List.prod_append]
        simp only [Outcome.ok.injEq] at hfk
        rw [hfk]
        simp [krElem]

theorem alsInner_loop (z : Nat → R) (check : Bool) {dims : List Nat} {rank : Nat} (hp : ∀ d ∈ dims, d ≠ 0) (hr : rank ≠ 0)
    {factors : List (Strided R)} {F : Nat → Nat → Nat → R} (hF : FactorsOk dims rank factors F) (n k : Nat)
    (hk : k ≤ dims.length) :
    ∃ st, (List.range k).foldlM (alsInner z check rank factors n) none = .ok st ∧ InnerOk dims rank F (otherModes k n) st := by
  induction k with
  | zero => exact ⟨none, rfl, rfl⟩
  | succ k ih =>
    obtain ⟨st, h1, h2⟩ := ih (by omega)
    obtain ⟨st', h3, h4⟩ := alsInner_ok z check hp hr hF (n := n) (m := k) (by omega) (ms := otherModes k n) (by
      intro x hx
      have := List.mem_range.1 (List.mem_filter.1 hx).1
      omega) h2
    refine ⟨st', ?_, ?_⟩
    · rw [List.range_succ, List.foldlM_append, h1]
      simp only [Outcome.ok_bind, List.foldlM_cons, List.foldlM_nil, h3]
      rfl
    · have : otherModes (k + 1) n = if k = n then otherModes k n else otherModes k n ++ [k] := by
        unfold otherModes
        rw [List.range_succ, List.filter_append]
        by_cases e : k = n <;> simp [e]
      rw [this]
      exact h4

/-! ### Summing over one mode and the others -/

theorem sum_box_insert {R : Type} [AddCommMonoid R] {dims : List Nat} {n : Nat} (hn : n < dims.length) (g : List Nat → R) :
    ((box dims).map g).sum =
      sumTo dims[n] fun a => ((box (dims.eraseIdx n)).map fun j => g (j.insertIdx n a)).sum := by
  induction dims generalizing n g with
  | nil => simp at hn
  | cons d ds ih =>
    have outer : ∀ h : List Nat → R, ((box (d :: ds)).map h).sum
        = ((List.range d).map fun x => ((box ds).map fun j => h (x :: j)).sum).sum := by
      intro h
      simp only [box]
      rw [List.map_flatMap, List.flatMap_def, List.sum_flatten, List.map_map]
      apply sum_congr_list
      intro x _
      simp only [Function.comp_apply, List.map_map]
      rfl
    cases n with
    | zero =>
      rw [outer]
      simp only [List.eraseIdx_cons_zero, List.insertIdx_zero, List.getElem_cons_zero]
      rfl
    | succ n =>
      have hn' : n < ds.length := by simpa using hn
      rw [outer]
      simp only [List.eraseIdx_cons_succ, List.getElem_cons_succ]
      have : ∀ a, ((box (d :: ds.eraseIdx n)).map fun j => g (j.insertIdx (n + 1) a)).sum
          = ((List.range d).map fun x => ((box (ds.eraseIdx n)).map fun j => g (x :: j.insertIdx n a)).sum).sum := by
        intro a
        simp only [box]
        rw [List.map_flatMap, List.flatMap_def, List.sum_flatten, List.map_map]
        apply sum_congr_list
        intro x _
        simp only [Function.comp_apply, List.map_map]
        rfl
      simp only [this]
      unfold sumTo
      rw [sum_list_comm (List.range ds[n])]
      apply sum_congr_list
      intro x _
      rw [ih hn' (fun j => g (x :: j))]
      rfl

theorem otherModes_eq {N n : Nat} (hn : n < N) : otherModes N n = (List.range N).eraseIdx n := filter_ne_range N n hn

theorem otherModes_dims {dims : List Nat} {n : Nat} (hn : n < dims.length) :
    ((otherModes dims.length n).map fun m => dims.getD m 0) = dims.eraseIdx n := by
  rw [otherModes_eq hn, ← List.eraseIdx_map]
  congr 1
  apply List.ext_getElem (by simp)
  intro k h1 h2
  simp [List.getD_eq_getElem?_getD, h2]

omit [BEq R] [LawfulBEq R] [Div R] in
theorem prod_zip_range (h : Nat → Nat → R) (i : List Nat) :
    ((List.range i.length).map fun m => h m (i.getD m 0)).prod = (((List.range i.length).zip i).map fun p => h p.1 p.2).prod := by
  congr 1
  apply List.ext_getElem (by simp)
  intro k h1 h2
  have : k < i.length := by simpa using h1
  simp [List.getD_eq_getElem?_getD, this]

theorem zip_insertIdx {α β : Type} (l : List α) (k : List β) (n : Nat) (a : α) (b : β) (h : l.length = k.length) :
    (l.insertIdx n a).zip (k.insertIdx n b) = (l.zip k).insertIdx n (a, b) := by
  induction l generalizing k n with
  | nil =>
    cases k with
    | nil => cases n <;> rfl
    | cons _ _ => simp at h
  | cons x l ih =>
    cases k with
    | nil => simp at h
    | cons y k =>
      cases n with
      | zero => rfl
      | succ n => simp [ih k n (by simpa using h)]

omit [BEq R] [LawfulBEq R] [Div R] in
theorem cpElem_insert {N n : Nat} (hn : n < N) (rank : Nat) (F : Nat → Nat → Nat → R) {j : List Nat} (hj : j.length = N - 1)
    (a : Nat) : cpElem N rank F (j.insertIdx n a) = sumTo rank fun r => F n a r * krElem F (otherModes N n) j r := by
  unfold cpElem
  congr 1
  funext r
  have hl : (j.insertIdx n a).length = N := by
    rw [List.length_insertIdx_of_le_length (by omega)]; omega
  have := prod_zip_range (fun m x => F m x r) (j.insertIdx n a)
  rw [hl] at this
  rw [this]
  have e : List.range N = (otherModes N n).insertIdx n n := by
    rw [otherModes_eq hn]
    have := List.insertIdx_eraseIdx_getElem (l := List.range N) (n := n) (by simpa using hn)
    rw [List.getElem_range] at this
    exact this.symm
  have hol : (otherModes N n).length = j.length := by
    rw [otherModes_eq hn, List.length_eraseIdx_of_lt (by simpa using hn), List.length_range, hj]
  rw [e, zip_insertIdx _ _ _ _ _ hol]
  rw [((List.perm_insertIdx (n, a) ((otherModes N n).zip j) (by simp [hol]; omega)).map _).prod_eq]
  simp [krElem]

/-! ### One update -/

theorem alsUpdate_eq {R : Type} [CommRing R] [BEq R] [LawfulBEq R] [Div R] {solve : GesvFn R}
    (hsolve : GesvContract solve) (z : Nat → R) (check : Bool)
    {dims : List Nat} {rank : Nat} (hp : ∀ d ∈ dims, d ≠ 0) (hr : rank ≠ 0) (h2 : 2 ≤ dims.length)
    {factors : List (Strided R)} {F : Nat → Nat → Nat → R} (hF : FactorsOk dims rank factors F)
    {unfolded : List (Strided R)} {T : List Nat → R} {n : Nat} (hn : n < dims.length) {U : Strided R}
    (hU : unfolded[n]? = some U) (iU : U.IsTensor) (dU : U.dims = [dims[n], numel (dims.eraseIdx n)])
    (rU : ∀ a j, a < dims[n] → InBox j (dims.eraseIdx n) →
      U.read (toIdx [a, rowMajor j (dims.eraseIdx n)]) = .ok (T (j.insertIdx n a))) :
    ∃ fs b X, alsUpdate solve z check rank unfolded factors n = .ok (fs, b) ∧
      FactorsOk dims rank fs (withFactor F n X) ∧
      (b = true → ∃ V rhs : Strided R, b = (solve rank dims[n] V.data rank rhs.data rank).2 ∧ V.IsTensor ∧
        V.dims = [rank, rank] ∧ rhs.IsTensor ∧ rhs.dims = [dims[n], rank] ∧
        (V.Represents fun i => ((otherModes dims.length n).map fun m =>
          sumTo (dims.getD m 0) fun x => F m x (i.getD 0 0) * F m x (i.getD 1 0)).prod) ∧
        (rhs.Represents fun i => ((box (dims.eraseIdx n)).map fun j =>
          T (j.insertIdx n (i.getD 0 0)) * krElem F (otherModes dims.length n) j (i.getD 1 0)).sum) ∧
        ∀ a r, a < dims[n] → r < rank →
          X a r = (solve rank dims[n] V.data rank rhs.data rank).1.getD (a * rank + r) 0) := by
  have : Inhabited R := ⟨0⟩
  obtain ⟨st, s1, s2⟩ := alsInner_loop z check hp hr hF n dims.length (Nat.le_refl _)
  have hone : otherModes dims.length n ≠ [] := by
    intro e
    have := congrArg List.length e
    rw [otherModes_eq hn, List.length_eraseIdx_of_lt (by simpa using hn)] at this
    simp at this
    omega
  match st, s2 with
  | none, s2 => exact absurd s2 hone
  | some (V, KR), ⟨_, v1, v2, v3, k1, k2, k3⟩ =>
    rw [otherModes_dims hn] at k2 k3
    obtain ⟨fU, hfU⟩ := exists_represents iU.wf
    obtain ⟨fK, hfK⟩ := exists_represents k1.wf
    have hnf : n < factors.length := by rw [hF.1]; exact hn
    obtain ⟨f1, f2, f3⟩ := hF.2 n _ _ (List.getElem?_eq_getElem hnf) (List.getElem?_eq_getElem hn)
    have hk0 : numel (dims.eraseIdx n) ≠ 0 := numel_ne_zero.2 fun d hd => hp d (List.mem_of_mem_eraseIdx hd)
    obtain ⟨rhs, r1, r2, r3, r4⟩ := mttkrp_eq check hk0 f1 iU k1 f2 dU k2 hfU hfK
    -- the right-hand side in terms of the tensor
    have r5 : rhs.Represents fun i => ((box (dims.eraseIdx n)).map fun j =>
          T (j.insertIdx n (i.getD 0 0)) * krElem F (otherModes dims.length n) j (i.getD 1 0)).sum := by
      intro i hi
      rw [r4 i hi]
      rw [r3] at hi
      match i, hi with
      | [a, r], hi =>
        have ha : a < dims[n] := hi.1
        have hr' : r < rank := hi.2.1
        congr 1
        unfold sumTo
        beta_reduce
        rw [← map_rowMajor_box, List.map_map]
        apply sum_congr_list
        intro j hj
        have hj := mem_box.1 hj
        have e1 := rU a j ha hj
        rw [hfU _ (by rw [dU]; exact ⟨ha, rowMajor_lt hj, trivial⟩)] at e1
        have e2 := k3 j r hj hr'
        rw [hfK _ (by rw [k2]; exact ⟨rowMajor_lt hj, hr', trivial⟩)] at e2
        simp only [Outcome.ok.injEq] at e1 e2
        simp only [Function.comp_apply]
        change fU [a, rowMajor j (dims.eraseIdx n)] * fK [rowMajor j (dims.eraseIdx n), r] = _
        rw [e1, e2]
        rfl
    let x := solve rank dims[n] V.data rank rhs.data rank
    let X : Nat → Nat → R := fun a r => x.1.getD (a * rank + r) 0
    have hlV : V.data.length = rank * rank := by rw [v1.length, v2]; simp [numel]
    have hlR : rhs.data.length = dims[n] * rank := by rw [r2.length, r3]; simp [numel]
    have hlen : x.1.length = rhs.data.length :=
      (hsolve rank dims[n] V.data rank rhs.data rank (Nat.le_refl _) (by omega) (Nat.le_refl _) (by omega)).1
    have ix : Strided.IsTensor { rhs with data := x.1 } :=
      ⟨r2.off, r2.strides, by rw [← r2.length]; exact hlen⟩
    refine ⟨factors.set n { rhs with data := x.1 }, x.2, X, ?_, ?_, ?_⟩
    · unfold alsUpdate
      rw [hF.1, s1]
      have hfa : factorAt factors n = .ok factors[n] := by simp [factorAt, List.getElem?_eq_getElem hnf]
      have hua : factorAt unfolded n = .ok U := by simp [factorAt, hU]
      simp only [Outcome.ok_bind, hua, hfa, r1]
      simp [gesv, Strided.dim, v2, r3, x]
    · refine ⟨by simpa using hF.1, ?_⟩
      intro m f d hf hd
      by_cases e : m = n
      · subst e
        rw [List.getElem?_set_self hnf] at hf
        have hd' : d = dims[m] := by
          rw [List.getElem?_eq_getElem hn] at hd; exact (Option.some.inj hd).symm
        subst hd'
        obtain rfl := Option.some.inj hf
        refine ⟨ix, r3, ?_⟩
        rw [represents_iff ix.wf]
        intro i hi
        change InBox i rhs.dims at hi
        rw [r3] at hi
        match i, hi with
        | [a, r], hi =>
          have ha : a < dims[m] := hi.1
          have hr' : r < rank := hi.2.1
          have hs : rhs.strides = [rank, 1] := matrix_strides r2 r3
          have hlt : a * rank + r < x.1.length := by
            rw [hlen, r2.length, r3]
            have : (a + 1) * rank ≤ dims[m] * rank := Nat.mul_le_mul_right _ ha
            simp [numel]
            rw [Nat.add_mul] at this
            omega
          simp [withFactor, r2.off, hs, dot, X, List.getElem?_eq_getElem hlt]
      · rw [List.getElem?_set_ne (fun h => e h.symm)] at hf
        have := hF.2 m f d hf hd
        simpa [withFactor, e] using this
    · intro _
      exact ⟨V, rhs, rfl, v1, v2, r2, r3, v3, r5, fun a r _ _ => rfl⟩

/-! ### The update is a least squares solution -/

omit [BEq R] [LawfulBEq R] [Div R] in
theorem gram_prod (d : Nat → Nat) (F : Nat → Nat → Nat → R) (ms : List Nat) (k r : Nat) :
    (ms.map fun m => sumTo (d m) fun x => F m x k * F m x r).prod
      = ((box (ms.map d)).map fun j => krElem F ms j k * krElem F ms j r).sum := by
  induction ms with
  | nil => simp [box, krElem]
  | cons m ms ih =>
    rw [List.map_cons, List.prod_cons, ih, List.map_cons, box, List.map_flatMap, List.flatMap_def, List.sum_flatten,
      List.map_map, sumTo, ← List.sum_map_mul_right]
    apply sum_congr_list
    intro x _
    simp only [Function.comp_apply, List.map_map]
    rw [← List.sum_map_mul_left]
    apply sum_congr_list
    intro j _
    simp only [Function.comp_apply, krElem, List.zip_cons_cons, List.map_cons, List.prod_cons]
    ring

omit [BEq R] [LawfulBEq R] [Div R] in
theorem krElem_withFactor (F : Nat → Nat → Nat → R) (N n : Nat) (X : Nat → Nat → R) (j : List Nat) (r : Nat) :
    krElem (withFactor F n X) (otherModes N n) j r = krElem F (otherModes N n) j r := by
  unfold krElem
  congr 1
  apply List.map_congr_left
  rintro ⟨m, x⟩ hm
  have := (List.mem_filter.1 (List.of_mem_zip hm).1).2
  simp only [ne_eq, decide_not, Bool.not_eq_eq_eq_not, Bool.not_true, decide_eq_false_iff_not] at this
  simp [withFactor, this]

theorem sum_map_sub' {R β : Type} [AddCommGroup R] (l : List β) (f g : β → R) :
    (l.map fun x => f x - g x).sum = (l.map f).sum - (l.map g).sum := by
  induction l with
  | nil => simp
  | cons a l ih => simp only [List.map_cons, List.sum_cons, ih]; abel

/-- The residual of a solution of the normal equations is orthogonal to every CP tensor with the same other factors. -/
theorem residual_orthogonal {R β : Type} [CommRing R] (l : List β) (rank : Nat) (T : β → R) (kr : β → Nat → R)
    (x d : Nat → R)
    (hx : ∀ r, r < rank → sumTo rank (fun k => (l.map fun j => kr j k * kr j r).sum * x k) = (l.map fun j => T j * kr j r).sum) :
    (l.map fun j => (T j - sumTo rank fun s => x s * kr j s) * sumTo rank fun r => d r * kr j r).sum = 0 := by
  have e1 : ∀ j, (T j - sumTo rank fun s => x s * kr j s) * (sumTo rank fun r => d r * kr j r)
      = sumTo rank fun r => d r * (T j * kr j r - sumTo rank fun s => x s * (kr j s * kr j r)) := by
    intro j
    unfold sumTo
    rw [← List.sum_map_mul_left]
    apply sum_congr_list
    intro r _
    have : ((List.range rank).map fun s => x s * (kr j s * kr j r)).sum
        = ((List.range rank).map fun s => x s * kr j s).sum * kr j r := by
      rw [← List.sum_map_mul_right]
      apply sum_congr_list
      intro s _
      ring
    rw [this]
    ring
  simp only [e1]
  unfold sumTo
  rw [sum_list_comm]
  apply List.sum_eq_zero
  intro y hy
  obtain ⟨r, hr, rfl⟩ := List.mem_map.1 hy
  rw [List.sum_map_mul_left, sum_map_sub', sum_list_comm, ← hx r (List.mem_range.1 hr)]
  have : ((List.range rank).map fun c => (l.map fun s => x c * (kr s c * kr s r)).sum).sum
      = sumTo rank fun k => (l.map fun j => kr j k * kr j r).sum * x k := by
    unfold sumTo
    apply sum_congr_list
    intro c _
    rw [List.sum_map_mul_left, mul_comm]
  rw [this]
  simp

section ordered
variable {S : Type} [CommRing S] [LinearOrder S] [IsStrictOrderedRing S]

/-- One row of a solution of the normal equations is at least as good as any other row. -/
theorem least_squares_row {dims : List Nat} {rank n : Nat} (hn : n < dims.length) (T : List Nat → S) (F : Nat → Nat → Nat → S)
    (X : Nat → Nat → S) {a : Nat}
    (hX : ∀ r, r < rank →
      sumTo rank (fun k => ((otherModes dims.length n).map fun m =>
        sumTo (dims.getD m 0) fun x => F m x k * F m x r).prod * X a k)
      = ((box (dims.eraseIdx n)).map fun j => T (j.insertIdx n a) * krElem F (otherModes dims.length n) j r).sum)
    (Y : Nat → Nat → S) :
    ((box (dims.eraseIdx n)).map fun j =>
      (T (j.insertIdx n a) - cpElem dims.length rank (withFactor F n X) (j.insertIdx n a)) ^ 2).sum
    ≤ ((box (dims.eraseIdx n)).map fun j =>
      (T (j.insertIdx n a) - cpElem dims.length rank (withFactor F n Y) (j.insertIdx n a)) ^ 2).sum := by
  have hcp : ∀ (Z : Nat → Nat → S) a j, j ∈ box (dims.eraseIdx n) →
      cpElem dims.length rank (withFactor F n Z) (j.insertIdx n a)
        = sumTo rank fun r => Z a r * krElem F (otherModes dims.length n) j r := by
    intro Z a j hj
    have hjl : j.length = dims.length - 1 := by
      rw [(mem_box.1 hj).length, List.length_eraseIdx_of_lt hn]
    rw [cpElem_insert hn rank _ hjl]
    congr 1
    funext r
    rw [krElem_withFactor]
    simp [withFactor]
  have rw1 : ∀ Z : Nat → Nat → S, ((box (dims.eraseIdx n)).map fun j =>
      (T (j.insertIdx n a) - cpElem dims.length rank (withFactor F n Z) (j.insertIdx n a)) ^ 2).sum
      = ((box (dims.eraseIdx n)).map fun j =>
        (T (j.insertIdx n a) - sumTo rank fun r => Z a r * krElem F (otherModes dims.length n) j r) ^ 2).sum := by
    intro Z
    apply sum_congr_list
    intro j hj
    rw [hcp Z a j hj]
  rw [rw1 X, rw1 Y]
  -- orthogonality
  have orth := residual_orthogonal (box (dims.eraseIdx n)) rank (fun j => T (j.insertIdx n a))
    (fun j r => krElem F (otherModes dims.length n) j r) (X a) (fun r => X a r - Y a r) (by
      intro r hr
      rw [← hX r hr]
      apply sumTo_congr
      intro k _
      rw [gram_prod (fun m => dims.getD m 0), otherModes_dims hn])
  have expand : ∀ j, (T (j.insertIdx n a) - sumTo rank fun r => Y a r * krElem F (otherModes dims.length n) j r) ^ 2
      = (T (j.insertIdx n a) - sumTo rank fun r => X a r * krElem F (otherModes dims.length n) j r) ^ 2
        + ((T (j.insertIdx n a) - sumTo rank fun r => X a r * krElem F (otherModes dims.length n) j r)
            * sumTo rank fun r => (X a r - Y a r) * krElem F (otherModes dims.length n) j r) * 2
        + (sumTo rank fun r => (X a r - Y a r) * krElem F (otherModes dims.length n) j r) ^ 2 := by
    intro j
    have : (sumTo rank fun r => (X a r - Y a r) * krElem F (otherModes dims.length n) j r)
        = (sumTo rank fun r => X a r * krElem F (otherModes dims.length n) j r)
          - sumTo rank fun r => Y a r * krElem F (otherModes dims.length n) j r := by
      unfold sumTo
      rw [← sum_map_sub']
      apply sum_congr_list
      intro r _
      ring
    rw [this]
    ring
  rw [sum_congr_list (fun j _ => expand j), List.sum_map_add, List.sum_map_add, List.sum_map_mul_right, orth]
  have : 0 ≤ ((box (dims.eraseIdx n)).map fun j =>
      (sumTo rank fun r => (X a r - Y a r) * krElem F (otherModes dims.length n) j r) ^ 2).sum := by
    apply List.sum_nonneg
    intro y hy
    obtain ⟨j, _, rfl⟩ := List.mem_map.1 hy
    positivity
  linarith

theorem least_squares {dims : List Nat} {rank n : Nat} (hn : n < dims.length) (T : List Nat → S) (F : Nat → Nat → Nat → S)
    (X : Nat → Nat → S)
    (hX : ∀ a r, a < dims[n] → r < rank →
      sumTo rank (fun k => ((otherModes dims.length n).map fun m =>
        sumTo (dims.getD m 0) fun x => F m x k * F m x r).prod * X a k)
      = ((box (dims.eraseIdx n)).map fun j => T (j.insertIdx n a) * krElem F (otherModes dims.length n) j r).sum)
    (Y : Nat → Nat → S) :
    cpError dims rank T (withFactor F n X) ≤ cpError dims rank T (withFactor F n Y) := by
  unfold cpError
  rw [sum_box_insert hn, sum_box_insert hn]
  unfold sumTo
  apply List.sum_le_sum
  intro a ha
  have ha := List.mem_range.1 ha
  exact least_squares_row hn T F X (fun r hr => hX a r ha hr) Y

end ordered

/-! ### The unfoldings -/

theorem inBox_insertIdx {j dims : List Nat} {n a : Nat} (hn : n < dims.length) (ha : a < dims[n])
    (hj : InBox j (dims.eraseIdx n)) : InBox (j.insertIdx n a) dims := by
  induction dims generalizing j n with
  | nil => simp at hn
  | cons d ds ih =>
    cases n with
    | zero => exact ⟨ha, hj⟩
    | succ n =>
      cases j with
      | nil => exact hj.elim
      | cons x j => exact ⟨hj.1, ih (by simpa using hn) (by simpa using ha) hj.2⟩

omit [BEq R] [LawfulBEq R] [Div R] in
theorem unfold_insert (z : Nat → R) {n : Nat} {t : Strided R} (hn : n < t.dims.length) (h2 : 2 ≤ t.dims.length)
    {T : List Nat → R} (hT : t.Represents T) {sched : List (List Nat × List Nat × Nat)}
    (hs : sched.Perm (unfoldIterations (unfoldRanges n t).1 (unfoldRanges n t).2)) :
    ∃ U, unfold z n t sched = .ok U ∧ U.IsTensor ∧ U.dims = [t.dims[n], numel (t.dims.eraseIdx n)] ∧
      ∀ a j, a < t.dims[n] → InBox j (t.dims.eraseIdx n) →
        U.read (toIdx [a, rowMajor j (t.dims.eraseIdx n)]) = .ok (T (j.insertIdx n a)) := by
  obtain ⟨U, h1, h3, h4, h5⟩ := C28_unfold_partial z n t T hn h2 hT sched hs
  refine ⟨U, h1, h3, h4, ?_⟩
  intro a j ha hj
  have hjl : j.length = t.dims.length - 1 := by rw [hj.length, List.length_eraseIdx_of_lt hn]
  have := h5 (j.insertIdx n a) (inBox_insertIdx hn ha hj) a (by rw [List.getElem?_insertIdx_self]; simp; omega)
  rwa [List.eraseIdx_insertIdx_self] at this

omit [BEq R] [LawfulBEq R] [Div R] in
theorem unfoldAll_ok (z : Nat → R) {t : Strided R} (h2 : 2 ≤ t.dims.length)
    {T : List Nat → R} (hT : t.Represents T) {sched : Nat → List (List Nat × List Nat × Nat)}
    (hs : ∀ n, n < t.dims.length → (sched n).Perm (unfoldIterations (unfoldRanges n t).1 (unfoldRanges n t).2)) :
    ∃ us, unfoldAll z t sched = .ok us ∧ ∀ (n : Nat) (hn : n < t.dims.length), ∃ U, us[n]? = some U ∧ U.IsTensor ∧
      U.dims = [t.dims[n], numel (t.dims.eraseIdx n)] ∧ ∀ a j, a < t.dims[n] → InBox j (t.dims.eraseIdx n) →
        U.read (toIdx [a, rowMajor j (t.dims.eraseIdx n)]) = .ok (T (j.insertIdx n a)) := by
  have key : ∀ k, k ≤ t.dims.length → ∃ us, (List.range k).foldlM (fun us i => do
      let u ← unfold z i t (sched i)
      return us ++ [u]) [] = Outcome.ok us ∧ us.length = k ∧ ∀ (n : Nat) (hn : n < t.dims.length), n < k →
      ∃ U, us[n]? = some U ∧ U.IsTensor ∧
      U.dims = [t.dims[n], numel (t.dims.eraseIdx n)] ∧ ∀ a j, a < t.dims[n] → InBox j (t.dims.eraseIdx n) →
        U.read (toIdx [a, rowMajor j (t.dims.eraseIdx n)]) = .ok (T (j.insertIdx n a)) := by
    intro k
    induction k with
    | zero => exact fun _ => ⟨[], rfl, rfl, fun n _ h => absurd h (by omega)⟩
    | succ k ih =>
      intro hk
      obtain ⟨us, h1, h3, h4⟩ := ih (by omega)
      obtain ⟨U, u1, u2, u3, u4⟩ := unfold_insert z (n := k) (by omega) h2 hT (hs k (by omega))
      refine ⟨us ++ [U], ?_, by simp [h3], ?_⟩
      · rw [List.range_succ, List.foldlM_append, h1]
        simp only [Outcome.ok_bind, List.foldlM_cons, List.foldlM_nil, u1, pure_bind]
        rfl
      · intro n hn hnk
        by_cases e : n = k
        · subst e
          exact ⟨U, by rw [← h3]; simp, u2, u3, u4⟩
        · obtain ⟨U', a1, a2⟩ := h4 n hn (by omega)
          exact ⟨U', by rw [List.getElem?_append_left (by omega)]; exact a1, a2⟩
  obtain ⟨us, h1, _, h3⟩ := key t.dims.length (Nat.le_refl _)
  exact ⟨us, h1, fun n hn => h3 n hn hn⟩

/-! ### Sweeps -/

section ordered
variable {S : Type} [CommRing S] [LinearOrder S] [IsStrictOrderedRing S] [BEq S] [LawfulBEq S] [Div S]

/-- What the unfoldings hold. -/
def UnfoldedOk {R : Type} (dims : List Nat) (T : List Nat → R) (us : List (Strided R)) : Prop :=
  ∀ (n : Nat) (hn : n < dims.length), ∃ U, us[n]? = some U ∧ U.IsTensor ∧
    U.dims = [dims[n], numel (dims.eraseIdx n)] ∧ ∀ a j, a < dims[n] → InBox j (dims.eraseIdx n) →
      U.read (toIdx [a, rowMajor j (dims.eraseIdx n)]) = .ok (T (j.insertIdx n a))

omit [LinearOrder S] [IsStrictOrderedRing S] [BEq S] [LawfulBEq S] [Div S] in
theorem matrix_getD {t : Strided S} (h : t.IsTensor) {d k : Nat} (hd : t.dims = [d, k]) {f : List Nat → S}
    (hf : t.Represents f) {a b : Nat} (ha : a < d) (hb : b < k) : t.data.getD (a * k + b) 0 = f [a, b] := by
  have := (represents_iff h.wf).1 hf [a, b] (by rw [hd]; exact ⟨ha, hb, trivial⟩)
  rw [h.off, matrix_strides h hd] at this
  simp only [dot, Nat.zero_add, Nat.mul_one, Nat.add_zero] at this
  rw [List.getD_eq_getElem?_getD, this]
  rfl

theorem alsUpdate_min {solve : GesvFn S} (hsolve : GesvContract solve) (z : Nat → S) (check : Bool)
    {dims : List Nat} {rank : Nat} (hp : ∀ d ∈ dims, d ≠ 0) (hr : rank ≠ 0) (h2 : 2 ≤ dims.length)
    {factors : List (Strided S)} {F : Nat → Nat → Nat → S} (hF : FactorsOk dims rank factors F)
    {unfolded : List (Strided S)} {T : List Nat → S} (hU : UnfoldedOk dims T unfolded) {n : Nat} (hn : n < dims.length) :
    ∃ fs b X, alsUpdate solve z check rank unfolded factors n = .ok (fs, b) ∧
      FactorsOk dims rank fs (withFactor F n X) ∧
      (b = true → ∀ Y, cpError dims rank T (withFactor F n X) ≤ cpError dims rank T (withFactor F n Y)) := by
  obtain ⟨U, u1, u2, u3, u4⟩ := hU n hn
  obtain ⟨fs, b, X, a1, a2, a3⟩ := alsUpdate_eq hsolve z check hp hr h2 hF hn u1 u2 u3 u4
  refine ⟨fs, b, X, a1, a2, ?_⟩
  intro hb
  obtain ⟨V, rhs, b1, v1, v2, r1, r2, v3, r3, x1⟩ := a3 hb
  apply least_squares hn
  intro a r ha hr'
  have hlV : V.data.length = rank * rank := by rw [v1.length, v2]; simp [numel]
  have hlR : rhs.data.length = dims[n] * rank := by rw [r1.length, r2]; simp [numel]
  have := (hsolve rank dims[n] V.data rank rhs.data rank (Nat.le_refl _) (by omega) (Nat.le_refl _) (by omega)).2
    (by rw [← b1]; exact hb) a r ha hr'
  rw [matrix_getD r1 r2 r3 ha hr'] at this
  rw [← show _ = ((box (dims.eraseIdx n)).map fun j => T (j.insertIdx n a) * krElem F (otherModes dims.length n) j r).sum from this]
  apply sumTo_congr
  intro k hk
  rw [matrix_getD v1 v2 v3 hk hr', x1 a k ha hk]
  rfl

theorem withFactor_self {S : Type} (F : Nat → Nat → Nat → S) (n : Nat) : withFactor F n (F n) = F := by
  funext m
  unfold withFactor
  split
  · rename_i h; rw [h]
  · rfl

theorem alsSweep_ok {solve : GesvFn S} (hsolve : GesvContract solve) (z : Nat → S) (check : Bool)
    {dims : List Nat} {rank : Nat} (hp : ∀ d ∈ dims, d ≠ 0) (hr : rank ≠ 0) (h2 : 2 ≤ dims.length)
    {st : List (Strided S) × Bool} {F : Nat → Nat → Nat → S} (hF : FactorsOk dims rank st.1 F)
    {unfolded : List (Strided S)} {T : List Nat → S} (hU : UnfoldedOk dims T unfolded) :
    ∃ st' F', alsSweep solve z check rank unfolded st = .ok st' ∧ FactorsOk dims rank st'.1 F' ∧
      (st'.2 = true → st.2 = true ∧ cpError dims rank T F' ≤ cpError dims rank T F) := by
  have key : ∀ k, k ≤ dims.length → ∃ st' F', (List.range k).foldlM (fun (st : List (Strided S) × Bool) n => do
      let x ← alsUpdate solve z check rank unfolded st.1 n
      return (x.1, st.2 && x.2)) st = Outcome.ok st' ∧ FactorsOk dims rank st'.1 F' ∧
      (st'.2 = true → st.2 = true ∧ cpError dims rank T F' ≤ cpError dims rank T F) := by
    intro k
    induction k with
    | zero => exact fun _ => ⟨st, F, rfl, hF, fun h => ⟨h, le_refl _⟩⟩
    | succ k ih =>
      intro hk
      obtain ⟨st1, F1, h1, h3, h4⟩ := ih (by omega)
      obtain ⟨fs, b, X, a1, a2, a3⟩ := alsUpdate_min hsolve z check hp hr h2 h3 hU (n := k) (by omega)
      refine ⟨(fs, st1.2 && b), withFactor F1 k X, ?_, a2, ?_⟩
      · rw [List.range_succ, List.foldlM_append, h1]
        simp only [Outcome.ok_bind, List.foldlM_cons, List.foldlM_nil, a1, pure_bind]
        rfl
      · intro hb
        simp only [Bool.and_eq_true] at hb
        obtain ⟨b1, b2⟩ := h4 hb.1
        refine ⟨b1, le_trans ?_ b2⟩
        have := a3 hb.2 (F1 k)
        rwa [withFactor_self] at this
  obtain ⟨st', F', h1, h3, h4⟩ := key dims.length (Nat.le_refl _)
  refine ⟨st', F', ?_, h3, h4⟩
  unfold alsSweep
  rw [hF.1]
  exact h1

theorem alsLoop_ok {solve : GesvFn S} (hsolve : GesvContract solve) (z : Nat → S) (check : Bool)
    {dims : List Nat} {rank : Nat} (hp : ∀ d ∈ dims, d ≠ 0) (hr : rank ≠ 0) (h2 : 2 ≤ dims.length)
    {unfolded : List (Strided S)} {T : List Nat → S} (hU : UnfoldedOk dims T unfolded) (stop : Nat → Bool)
    (fuel iter : Nat) {st : List (Strided S) × Bool} {F : Nat → Nat → Nat → S} (hF : FactorsOk dims rank st.1 F) :
    ∃ st' F', alsLoop solve z check rank unfolded stop fuel iter st = .ok st' ∧ FactorsOk dims rank st'.1 F' ∧
      (st'.2 = true → st.2 = true ∧ cpError dims rank T F' ≤ cpError dims rank T F) := by
  induction fuel generalizing iter st F with
  | zero => exact ⟨st, F, rfl, hF, fun h => ⟨h, le_refl _⟩⟩
  | succ fuel ih =>
    obtain ⟨st1, F1, h1, h3, h4⟩ := alsSweep_ok hsolve z check hp hr h2 hF hU
    unfold alsLoop
    rw [h1]
    simp only [Outcome.ok_bind]
    by_cases e : stop iter = true
    · rw [if_pos e]
      exact ⟨st1, F1, rfl, h3, h4⟩
    · rw [if_neg e]
      obtain ⟨st2, F2, a1, a2, a3⟩ := ih (iter + 1) h3
      refine ⟨st2, F2, a1, a2, ?_⟩
      intro hb
      obtain ⟨b1, b2⟩ := a3 hb
      obtain ⟨c1, c2⟩ := h4 b1
      exact ⟨c1, le_trans b2 c2⟩

end ordered

end
end Einsums
