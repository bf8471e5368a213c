import Verif.Proofs.PyLabels
import Verif.Proofs.OuterPath
/-
The BLAS plans of the Python interface on the label patterns they handle correctly.
-/
namespace Einsums
open Spec Model

section
variable {L : Type} [DecidableEq L]

omit [DecidableEq L] in
theorem contiguous_range' (ys : List L) (a : Nat) (f : L → Nat) (h : ys.map f = List.range' a ys.length) :
    contiguousPositions (ys.map fun l => (l, f l)) = true := by
  induction ys generalizing a with
  | nil => rfl
  | cons y ys ih =>
    rw [List.map_cons, List.length_cons, List.range'_succ] at h
    injection h with h1 h2
    have := ih (a + 1) h2
    cases ys with
    | nil => rfl
    | cons z ys =>
      rw [List.map_cons, List.length_cons, List.range'_succ] at h2
      injection h2 with h3 _
      simp only [List.map_cons, contiguousPositions, Bool.and_eq_true, decide_eq_true_eq] at this ⊢
      exact ⟨by omega, this⟩

theorem contiguous_block {p ys q : List L} (hn : (p ++ ys ++ q).Nodup) :
    contiguousPositions (ys.map fun l => (l, (p ++ ys ++ q).idxOf l)) = true :=
  contiguous_range' ys p.length _ (idxOf_block_range hn)

theorem sameOrdering_map {ys : List L} (hy : ys ≠ []) (f g : L → Nat) :
    isSameOrdering (ys.map fun l => (l, f l)) (ys.map fun l => (l, g l)) = true := by
  unfold isSameOrdering
  rw [if_neg (by simp [hy]), if_neg (by simp)]
  simp [Function.comp_def]

/-- Positions and strides of an operand with two nonempty blocks `P`, `K` of labels. -/
theorem py_two_blocks {R : Type} {X : Strided R} {δ : L → Nat} {P K xs : List L} (t : Bool)
    (e : xs = if t then K ++ P else P ++ K) (hn : xs.Nodup) (hP : P ≠ []) (hK : K ≠ [])
    (hd : X.dims = xs.map δ) (hst : X.strides = (dimsToStrides X.dims).2) :
    ∃ a b, pyMaxPos (P.map fun l => (l, xs.idxOf l)) = .ok a ∧ pyMaxPos (K.map fun l => (l, xs.idxOf l)) = .ok b ∧
      pyStride X a = .ok (if t then 1 else numel (K.map δ)) ∧
      pyStride X b = .ok (if t then numel (P.map δ) else 1) ∧
      pyFirstPos (K.map fun l => (l, xs.idxOf l)) = .ok (if t then 0 else P.length) ∧
      pyFirstPos (P.map fun l => (l, xs.idxOf l)) = .ok (if t then K.length else 0) ∧
      contiguousPositions (P.map fun l => (l, xs.idxOf l)) = true ∧
      contiguousPositions (K.map fun l => (l, xs.idxOf l)) = true ∧
      pyProd X (P.map fun l => xs.idxOf l) P.length = .ok (numel (P.map δ)) ∧
      (∀ n ≤ K.length, pyProd X (K.map fun l => xs.idxOf l) n = .ok (numel ((K.take n).map δ))) := by
  have m1 : ∀ l ∈ P, l ∈ xs := by intro l hl; rw [e]; cases t <;> simp [hl]
  have m2 : ∀ l ∈ K, l ∈ xs := by intro l hl; rw [e]; cases t <;> simp [hl]
  have p1 := pyProd_all hd m1
  have p2 := pyProd_take hd m2
  cases t
  · simp only [Bool.false_eq_true, if_false] at e ⊢
    have e1 : xs = [] ++ P ++ K := by simpa using e
    have e2 : xs = P ++ K ++ [] := by simpa using e
    have n1 : ([] ++ P ++ K).Nodup := e1 ▸ hn
    have n2 : (P ++ K ++ []).Nodup := e2 ▸ hn
    have a1 := pyMaxPos_block n1 hP
    have a2 := pyMaxPos_block n2 hK
    have s1 := pyStride_block (X := X) (δ := δ) (by rw [hd, ← e1]) hst n1 hP
    have s2 := pyStride_block (X := X) (δ := δ) (by rw [hd, ← e2]) hst n2 hK
    have f1 := pyFirstPos_block n1 hP
    have f2 := pyFirstPos_block n2 hK
    have c1 := contiguous_block n1
    have c2 := contiguous_block n2
    rw [← e1] at a1 f1 c1
    rw [← e2] at a2 f2 c2
    exact ⟨_, _, a1, a2, s1, by simpa using s2, f2, f1, c1, c2, p1, p2⟩
  · simp only [if_true] at e ⊢
    have e1 : xs = [] ++ K ++ P := by simpa using e
    have e2 : xs = K ++ P ++ [] := by simpa using e
    have n1 : ([] ++ K ++ P).Nodup := e1 ▸ hn
    have n2 : (K ++ P ++ []).Nodup := e2 ▸ hn
    have a1 := pyMaxPos_block n1 hK
    have a2 := pyMaxPos_block n2 hP
    have s1 := pyStride_block (X := X) (δ := δ) (by rw [hd, ← e1]) hst n1 hK
    have s2 := pyStride_block (X := X) (δ := δ) (by rw [hd, ← e2]) hst n2 hP
    have f1 := pyFirstPos_block n1 hK
    have f2 := pyFirstPos_block n2 hP
    have c1 := contiguous_block n1
    have c2 := contiguous_block n2
    rw [← e1] at a1 f1 c1
    rw [← e2] at a2 f2 c2
    exact ⟨_, _, a2, a1, by simpa using s2, s1, f1, f2, c2, c1, p1, p2⟩

/-- Label facts of the matrix-product pattern. -/
theorem gemm_labels {T U K Al Bl Cl : List L} (ta tb tc : Bool) (hn : (T ++ U ++ K).Nodup)
    (eA : Al = if ta then K ++ T else T ++ K) (eB : Bl = if tb then U ++ K else K ++ U)
    (eC : Cl = if tc then U ++ T else T ++ U) :
    Al.Nodup ∧ Bl.Nodup ∧ Cl.Nodup ∧ links Al Bl Cl = K ∧ (∀ l ∈ T, l ∉ K) ∧ (∀ l ∈ U, l ∉ K) ∧
    (∀ l ∈ T, l ∉ U) ∧
    Cl.filter (· ∈ Al) = T ∧ Cl.filter (· ∈ Bl) = U ∧ Al.filter (· ∈ Cl) = T ∧ Bl.filter (· ∈ Cl) = U := by
  rw [List.nodup_append, List.nodup_append] at hn
  obtain ⟨⟨nT, nU, dTU⟩, nK, dK⟩ := hn
  have hTU : ∀ l ∈ T, l ∉ U := fun l h1 h2 => dTU l h1 l h2 rfl
  have hUT : ∀ l ∈ U, l ∉ T := fun l h1 h2 => hTU l h2 h1
  have hTK : ∀ l ∈ T, l ∉ K := fun l h1 h2 => dK l (by simp [h1]) l h2 rfl
  have hUK : ∀ l ∈ U, l ∉ K := fun l h1 h2 => dK l (by simp [h1]) l h2 rfl
  have hKT : ∀ l ∈ K, l ∉ T := fun l h1 h2 => hTK l h2 h1
  have hKU : ∀ l ∈ K, l ∉ U := fun l h1 h2 => hUK l h2 h1
  have self : ∀ (P : List L) (q : L → Bool), (∀ l ∈ P, q l = true) → P.filter q = P :=
    fun P q h => List.filter_eq_self.2 h
  have none : ∀ (P : List L) (q : L → Bool), (∀ l ∈ P, q l = false) → P.filter q = [] :=
    fun P q h => List.filter_eq_nil_iff.2 fun l hl => by simp [h l hl]
  have nodup2 : ∀ {P Q : List L}, P.Nodup → Q.Nodup → (∀ l ∈ P, l ∉ Q) → (P ++ Q).Nodup :=
    fun h1 h2 h3 => List.nodup_append.2 ⟨h1, h2, fun a ha b hb e => h3 a ha (e ▸ hb)⟩
  have memA : ∀ l, l ∈ Al ↔ l ∈ T ∨ l ∈ K := by intro l; rw [eA]; cases ta <;> simp [or_comm]
  have memB : ∀ l, l ∈ Bl ↔ l ∈ U ∨ l ∈ K := by intro l; rw [eB]; cases tb <;> simp [or_comm]
  have memC : ∀ l, l ∈ Cl ↔ l ∈ T ∨ l ∈ U := by intro l; rw [eC]; cases tc <;> simp [or_comm]
  refine ⟨?_, ?_, ?_, ?_, hTK, hUK, hTU, ?_, ?_, ?_, ?_⟩
  · rw [eA]; cases ta
    · exact nodup2 nT nK hTK
    · exact nodup2 nK nT hKT
  · rw [eB]; cases tb
    · exact nodup2 nK nU hKU
    · exact nodup2 nU nK hUK
  · rw [eC]; cases tc
    · exact nodup2 nT nU hTU
    · exact nodup2 nU nT hUT
  · have h1 : links Al Bl Cl = Al.filter fun l => decide (l ∈ K) := by
      unfold links difference intersect
      rw [List.filter_filter]
      apply List.filter_congr
      intro l hl
      simp only [memA, memB, memC] at hl ⊢
      by_cases hk : l ∈ K
      · simp [hk, hKT l hk, hKU l hk]
      · have ht : l ∈ T := hl.resolve_right hk
        simp [hk, ht]
    rw [h1, eA]
    have k1 := self K (fun l => decide (l ∈ K)) (by simp)
    have k2 := none T (fun l => decide (l ∈ K)) (by simpa using hTK)
    cases ta <;> simp [k1, k2]
  · simp only [memA]
    have k1 := self T (fun l => decide (l ∈ T ∨ l ∈ K)) (by intro l hl; simp [hl])
    have k2 := none U (fun l => decide (l ∈ T ∨ l ∈ K)) (by intro l hl; simp [hUT l hl, hUK l hl])
    rw [eC]; cases tc
    · simp only [Bool.false_eq_true, if_false, List.filter_append, k1, k2, List.append_nil]
    · simp only [if_true, List.filter_append, k1, k2, List.nil_append]
  · simp only [memB]
    have k1 := self U (fun l => decide (l ∈ U ∨ l ∈ K)) (by intro l hl; simp [hl])
    have k2 := none T (fun l => decide (l ∈ U ∨ l ∈ K)) (by intro l hl; simp [hTU l hl, hTK l hl])
    rw [eC]; cases tc
    · simp only [Bool.false_eq_true, if_false, List.filter_append, k1, k2, List.nil_append]
    · simp only [if_true, List.filter_append, k1, k2, List.append_nil]
  · simp only [memC]
    have k1 := self T (fun l => decide (l ∈ T ∨ l ∈ U)) (by intro l hl; simp [hl])
    have k2 := none K (fun l => decide (l ∈ T ∨ l ∈ U)) (by intro l hl; simp [hKT l hl, hKU l hl])
    rw [eA]; cases ta
    · simp only [Bool.false_eq_true, if_false, List.filter_append, k1, k2, List.append_nil]
    · simp only [if_true, List.filter_append, k1, k2, List.nil_append]
  · simp only [memC]
    have k1 := self U (fun l => decide (l ∈ T ∨ l ∈ U)) (by intro l hl; simp [hl])
    have k2 := none K (fun l => decide (l ∈ T ∨ l ∈ U)) (by intro l hl; simp [hKT l hl, hKU l hl])
    rw [eB]; cases tb
    · simp only [Bool.false_eq_true, if_false, List.filter_append, k1, k2, List.nil_append]
    · simp only [if_true, List.filter_append, k1, k2, List.append_nil]

end

section gemm
variable {L : Type} [DecidableEq L] {R : Type} [Add R] [Mul R] [Zero R] [One R] [BEq R]

omit [DecidableEq L] in
theorem take_len {K : List L} {n : Nat} (h : n = K.length) : K.take n = K := by rw [h]; exact List.take_length

omit [Add R] [Mul R] [Zero R] [One R] [BEq R] in
/-- The matrix-product plan. -/
theorem pyGemm_plan {δ : L → Nat} {T U K Al Bl Cl : List L} (ta tb tc : Bool) {A B C : Strided R}
    (hn : (T ++ U ++ K).Nodup) (hT0 : T ≠ []) (hU0 : U ≠ []) (hK0 : K ≠ [])
    (eA : Al = if ta then K ++ T else T ++ K) (eB : Bl = if tb then U ++ K else K ++ U)
    (eC : Cl = if tc then U ++ T else T ++ U)
    (dA : A.dims = Al.map δ) (dB : B.dims = Bl.map δ) (dC : C.dims = Cl.map δ)
    (rA : A.strides = (dimsToStrides A.dims).2) (rB : B.strides = (dimsToStrides B.dims).2)
    (rC : C.strides = (dimsToStrides C.dims).2) :
    ∃ a1 a2 b1 b2 c1 c2, compilePlan Cl Al Bl = .ok (.gemm (K.map fun l => Al.idxOf l) (K.map fun l => Bl.idxOf l)
      (T.map fun l => Cl.idxOf l) (U.map fun l => Cl.idxOf l) a1 a2 b1 b2 c1 c2 ta tb tc) ∧
      pyStride A a1 = .ok (if ta then 1 else numel (K.map δ)) ∧ pyStride A a2 = .ok (if ta then numel (T.map δ) else 1) ∧
      pyStride B b1 = .ok (if !tb then 1 else numel (K.map δ)) ∧ pyStride B b2 = .ok (if !tb then numel (U.map δ) else 1) ∧
      pyStride C c1 = .ok (if tc then 1 else numel (U.map δ)) ∧ pyStride C c2 = .ok (if tc then numel (T.map δ) else 1) ∧
      pyProd C (T.map fun l => Cl.idxOf l) T.length = .ok (numel (T.map δ)) ∧
      pyProd C (U.map fun l => Cl.idxOf l) U.length = .ok (numel (U.map δ)) := by
  obtain ⟨hAn, hBn, hCn, hlinks, hTK, hUK, hTU, fCA, fCB, fAC, fBC⟩ := gemm_labels ta tb tc hn eA eB eC
  have pA := linkPosA_eq (Bl := Bl) (Cl := Cl) hAn
  have pB := linkPosB_eq (Cl := Cl) hAn hBn
  have tA := targetPos_eq hCn hAn
  have tB := targetPos_eq hCn hBn
  have cA := posInC_eq (Xl := Al) hCn
  have cB := posInC_eq (Xl := Bl) hCn
  rw [hlinks] at pA pB
  rw [fCA] at tA
  rw [fCB] at tB
  rw [fAC] at cA
  rw [fBC] at cB
  have eB' : Bl = if !tb then K ++ U else U ++ K := by rw [eB]; cases tb <;> rfl
  have nT : T.Nodup := by rw [← fAC]; exact hAn.filter _
  have nU : U.Nodup := by rw [← fBC]; exact hBn.filter _
  have nK : K.Nodup := by rw [← hlinks]; exact links_nodup hAn
  have mTA : ∀ l ∈ T, l ∈ Al := by intro l hl; rw [eA]; cases ta <;> simp [hl]
  have mKA : ∀ l ∈ K, l ∈ Al := by intro l hl; rw [eA]; cases ta <;> simp [hl]
  have mUB : ∀ l ∈ U, l ∈ Bl := by intro l hl; rw [eB]; cases tb <;> simp [hl]
  have mKB : ∀ l ∈ K, l ∈ Bl := by intro l hl; rw [eB]; cases tb <;> simp [hl]
  have mTC : ∀ l ∈ T, l ∈ Cl := by intro l hl; rw [eC]; cases tc <;> simp [hl]
  have mUC : ∀ l ∈ U, l ∈ Cl := by intro l hl; rw [eC]; cases tc <;> simp [hl]
  obtain ⟨a1, a2, A1, A2, A3, A4, A5, _, A7, A8, _, _⟩ := py_two_blocks (X := A) (δ := δ) ta eA hAn hT0 hK0 dA rA
  obtain ⟨b1, b2, B1, B2, B3, B4, B5, _, B7, B8, _, _⟩ := py_two_blocks (X := B) (δ := δ) (!tb) eB' hBn hU0 hK0 dB rB
  obtain ⟨c1, c2, C1, C2, C3, C4, _, C6, C7, C8, C9, _⟩ := py_two_blocks (X := C) (δ := δ) tc eC hCn hT0 hU0 dC rC
  have C10 := pyProd_all dC mUC
  obtain ⟨u0, hu0⟩ := List.exists_mem_of_ne_nil _ hU0
  obtain ⟨t0, ht0⟩ := List.exists_mem_of_ne_nil _ hT0
  obtain ⟨k0, hk0⟩ := List.exists_mem_of_ne_nil _ hK0
  have hC0 : Cl ≠ [] := fun h => by have := mTC t0 ht0; rw [h] at this; simp at this
  have uA : u0 ∉ Al := by
    have : u0 ∉ T := fun h => hTU u0 h hu0
    rw [eA]; cases ta <;> simp [hUK u0 hu0, this]
  have tB' : t0 ∉ Bl := by
    rw [eB]; cases tb <;> simp [hTK t0 ht0, hTU t0 ht0]
  have nh : noHadamard Al Bl Cl = true := noHadamard_iff.2 ⟨hAn, hBn, hCn⟩
  have q1 : isDotProduct Al Bl Cl = false := by simp [isDotProduct, hC0]
  have q2 : isElementWise Al Bl Cl = false := by
    have : Cl ≠ Al := fun h => uA (h ▸ mUC u0 hu0)
    simp [isElementWise, this]
  have q3 : isOuterProduct Al Bl Cl = false := by
    have : intersect Al Bl ≠ [] := by
      intro h
      have : k0 ∈ intersect Al Bl := by simp [intersect, mKA k0 hk0, mKB k0 hk0]
      rw [h] at this; simp at this
    simp [isOuterProduct, this]
  have q4 : isGemvNormalPossible Al Bl Cl = false := by
    have : (posInC Bl Cl).length ≠ 0 := by rw [cB]; simpa using hU0
    simp [isGemvNormalPossible, this]
  have q5 : pyIsGemvBA Al Bl Cl = false := by
    have : (posInC Al Cl).length ≠ 0 := by rw [cA]; simpa using hT0
    rw [pyIsGemvBA_eq hBn]
    simp [this]
  have q6 : isGemmPossible Al Bl Cl = true := by
    have d1 : (difference Cl Al).length ≠ 0 := by
      intro h
      have : u0 ∈ difference Cl Al := by simp [difference, mUC u0 hu0, uA]
      rw [List.length_eq_zero_iff.1 h] at this; simp at this
    have d2 : (difference Cl Bl).length ≠ 0 := by
      intro h
      have : t0 ∈ difference Cl Bl := by simp [difference, mTC t0 ht0, tB']
      rw [List.length_eq_zero_iff.1 h] at this; simp at this
    simp only [isGemmPossible, pA, pB, tA, tB, cA, cB, A7, A8, B7, B8, C7, C8, nh, sameOrdering_map hK0,
      sameOrdering_map hT0, sameOrdering_map hU0, decide_eq_true d1, decide_eq_true d2, Bool.and_self]
  have lu : pyLinkUnique Al Bl Cl = K := by
    rw [pyLinkUnique_eq hBn, linkUnique_eq hAn, hlinks]
  have lA : pyFind K Al = K.map fun l => (l, Al.idxOf l) := by
    rw [pyFind_eq, find_nodup hAn]
    congr 1
    exact List.filter_eq_self.2 fun l hl => by simpa using mKA l hl
  have lB : pyFind K Bl = K.map fun l => (l, Bl.idxOf l) := by
    rw [pyFind_eq, find_nodup hBn]
    congr 1
    exact List.filter_eq_self.2 fun l hl => by simpa using mKB l hl
  have gA : pyFind (pyUnique Cl) Al = T.map fun l => (l, Al.idxOf l) := by rw [pyFind_eq, pyUnique_eq]; exact tA
  have gB : pyFind (pyUnique Cl) Bl = U.map fun l => (l, Bl.idxOf l) := by rw [pyFind_eq, pyUnique_eq]; exact tB
  have gCA : pyFind Al Cl = T.map fun l => (l, Cl.idxOf l) := by rw [pyFind_eq]; exact cA
  have gCB : pyFind Bl Cl = U.map fun l => (l, Cl.idxOf l) := by rw [pyFind_eq]; exact cB
  refine ⟨a1, a2, b1, b2, c1, c2, ?_, A3, A4, B3, B4, C3, C4, C9, C10⟩
  unfold compilePlan
  simp only [pyIsDot_eq, pyIsElementWise_eq, pyIsOuter_eq, pyIsGemvAB_eq, pyIsGemm_eq, q1, q2, q3, q4, q5, q6,
    Bool.false_eq_true, if_false, Bool.or_self, if_true, lu]
  unfold pyGemmPlan
  simp only [lA, lB, gA, gB, gCA, gCB, A1, A2, B1, B2, C1, C2, A5, B5, C6, Outcome.ok_bind,
    pyPositions_eq nK mKA, pyPositions_eq nK mKB, pyPositions_eq nT mTC, pyPositions_eq nU mUC]
  have z1 : decide ((if ta = true then 0 else T.length) = 0) = ta := by
    cases ta <;> simp [hT0]
  have z2 : decide ((if (!tb) = true then 0 else U.length) ≠ 0) = tb := by
    cases tb <;> simp [hU0]
  have z3 : decide ((if tc = true then U.length else 0) ≠ 0) = tc := by
    cases tc <;> simp [hU0]
  rw [z1, z2, z3]
  rfl

/-- The matrix-product plan and its execution, before any assumption on sizes. -/
theorem pyGemm_reduce {δ : L → Nat} {T U K Al Bl Cl : List L} (ta tb tc : Bool) {A B C : Strided R}
    (sz : Nat) (run : OmpRun) (cp ab : R)
    (hn : (T ++ U ++ K).Nodup) (hT0 : T ≠ []) (hU0 : U ≠ []) (hK0 : K ≠ [])
    (eA : Al = if ta then K ++ T else T ++ K) (eB : Bl = if tb then U ++ K else K ++ U)
    (eC : Cl = if tc then U ++ T else T ++ U)
    (dA : A.dims = Al.map δ) (dB : B.dims = Bl.map δ) (dC : C.dims = Cl.map δ)
    (rA : A.strides = (dimsToStrides A.dims).2) (rB : B.strides = (dimsToStrides B.dims).2)
    (rC : C.strides = (dimsToStrides C.dims).2) :
    pyEinsum sz run cp Cl C ab Al A Bl B =
      (pyProd A (K.map fun l => Al.idxOf l) T.length >>= fun kA =>
       pyProd B (K.map fun l => Bl.idxOf l) U.length >>= fun kB =>
       (if tc then
          vendorGemm (!tb) (!ta) (if tb then kB else numel (U.map δ)) (if ta then kA else numel (T.map δ))
            (if ta then numel (T.map δ) else kA) ab B.data B.off (if tb then numel (K.map δ) else numel (U.map δ))
            A.data A.off (if ta then numel (T.map δ) else numel (K.map δ)) cp C.data C.off (numel (T.map δ))
        else
          vendorGemm ta tb (if ta then kA else numel (T.map δ)) (if tb then kB else numel (U.map δ))
            (if ta then numel (T.map δ) else kA) ab A.data A.off (if ta then numel (T.map δ) else numel (K.map δ))
            B.data B.off (if tb then numel (K.map δ) else numel (U.map δ)) cp C.data C.off (numel (U.map δ))) >>=
       fun mem => .ok { C with data := mem }) := by
  obtain ⟨a1, a2, b1, b2, c1, c2, plan, A3, A4, B3, B4, C3, C4, C9, C10⟩ :=
    pyGemm_plan (δ := δ) ta tb tc hn hT0 hU0 hK0 eA eB eC dA dB dC rA rB rC
  have ug : (!pyContiguousBuffer C || !pyContiguousBuffer A || !pyContiguousBuffer B) = false := by
    simp [pyContiguousBuffer, ← rA, ← rB, ← rC]
  unfold pyEinsum
  rw [plan]
  simp only [Outcome.ok_bind, pyExecute, ug, Bool.false_eq_true, if_false]
  unfold pyExecGemm
  simp only [List.length_map, C9, C10, A3, A4, B3, B4, C3, C4, Outcome.ok_bind]
  cases hA : pyProd A (K.map fun l => Al.idxOf l) T.length with
  | error e => cases ta <;> rfl
  | ub e => cases ta <;> rfl
  | ok kA =>
    cases hB : pyProd B (K.map fun l => Bl.idxOf l) U.length with
    | error e => cases ta <;> simp only [Outcome.ok_bind] <;> rfl
    | ub e => cases ta <;> simp only [Outcome.ok_bind] <;> rfl
    | ok kB =>
      cases ta <;> cases tb <;> cases tc <;> simp only [Outcome.ok_bind] <;> rfl

/-- With as many links as target labels of `A`, at least as many as of `B`, and every transposed operand
square, the plan does what the C++ dispatcher does. -/
theorem pyGemm_eq {δ : L → Nat} {T U K Al Bl Cl : List L} (ta tb tc : Bool) {A B C : Strided R}
    (sz : Nat) (run : OmpRun) (cp ab : R)
    (hn : (T ++ U ++ K).Nodup) (hT0 : T ≠ []) (hU0 : U ≠ []) (hK0 : K ≠ [])
    (eA : Al = if ta then K ++ T else T ++ K) (eB : Bl = if tb then U ++ K else K ++ U)
    (eC : Cl = if tc then U ++ T else T ++ U)
    (dA : A.dims = Al.map δ) (dB : B.dims = Bl.map δ) (dC : C.dims = Cl.map δ)
    (rA : A.RowMajor) (rB : B.RowMajor) (rC : C.RowMajor)
    (hTK : T.length = K.length) (hUK : U.length ≤ K.length)
    (sqA : ta = true → numel (T.map δ) = numel (K.map δ))
    (sqB : tb = true → U.length = K.length ∧ numel (U.map δ) = numel (K.map δ)) :
    pyEinsum sz run cp Cl C ab Al A Bl B = einsumGemm cp Cl C ab Al A Bl B := by
  obtain ⟨hAn, hBn, hCn, hlinks, _, _, _, fCA, fCB, fAC, fBC⟩ := gemm_labels ta tb tc hn eA eB eC
  rw [einsumGemm_eq (δ := δ) ta tb tc cp ab hAn hBn hCn hT0 hU0 hK0 hlinks fCA fCB fAC fBC eA eB eC dA dB dC
    rA rB rC,
    pyGemm_reduce (δ := δ) ta tb tc sz run cp ab hn hT0 hU0 hK0 eA eB eC dA dB dC rA.strides rB.strides rC.strides]
  have mKA : ∀ l ∈ K, l ∈ Al := by intro l hl; rw [eA]; cases ta <;> simp [hl]
  have mKB : ∀ l ∈ K, l ∈ Bl := by intro l hl; rw [eB]; cases tb <;> simp [hl]
  have h1 := pyProd_take dA mKA T.length (by omega)
  have h2 := pyProd_take dB mKB U.length hUK
  rw [take_len hTK] at h1
  rw [h1, h2]
  simp only [Outcome.ok_bind]
  have e1 : (if ta then numel (K.map δ) else numel (T.map δ)) = numel (T.map δ) := by
    cases ta
    · rfl
    · exact (sqA rfl).symm
  have e2 : (if ta then numel (T.map δ) else numel (K.map δ)) = numel (K.map δ) := by
    cases ta
    · rfl
    · exact sqA rfl
  have e3 : (if tb then numel ((K.take U.length).map δ) else numel (U.map δ)) = numel (U.map δ) := by
    cases tb
    · rfl
    · obtain ⟨h3, h4⟩ := sqB rfl
      rw [take_len h3]; exact h4.symm
  rw [e1, e2, e3]
  cases tc
  · simp only [Bool.false_eq_true, if_false, gemm]
    rw [bind_assoc]
    simp only [Outcome.ok_bind]
    cases ta
    · cases tb <;> rfl
    · have := sqA rfl
      simp only [if_true] at e2
      cases tb <;> simp [opView, matView, Strided.viewAs, Strided.dim, Strided.stride, this]
  · simp only [if_true, gemm]
    rw [bind_assoc]
    simp only [Outcome.ok_bind]
    cases ta
    · cases tb <;> rfl
    · have := sqA rfl
      cases tb <;> simp [opView, matView, Strided.viewAs, Strided.dim, Strided.stride, this]

end gemm

section gemv
variable {L : Type} [DecidableEq L] {R : Type} [Add R] [Mul R] [Zero R] [One R] [BEq R]

theorem pyFind_sub {ys xs : List L} (hn : xs.Nodup) (hs : ∀ y ∈ ys, y ∈ xs) :
    pyFind ys xs = ys.map fun l => (l, xs.idxOf l) := by
  rw [pyFind_eq, find_nodup hn]
  congr 1
  exact List.filter_eq_self.2 fun l hl => by simpa using hs l hl

/-- The matrix-vector plan and its execution, for matrix labels of two blocks. -/
theorem pyGemvPlan_reduce {δ : L → Nat} {T K Xl : List L} (t sw : Bool) {A B X Y C : Strided R} (cp ab : R)
    (b : PyBase) (sz : Nat) (run : OmpRun)
    (hn : (T ++ K).Nodup) (hT0 : T ≠ []) (hK0 : K ≠ [])
    (eX : Xl = if t then K ++ T else T ++ K)
    (dX : X.dims = Xl.map δ) (dY : Y.dims = K.map δ) (dC : C.dims = T.map δ)
    (rX : X.strides = (dimsToStrides X.dims).2) (rY : Y.strides = (dimsToStrides Y.dims).2)
    (rC : C.strides = (dimsToStrides C.dims).2)
    (eAB : (if sw then (B, A) else (A, B)) = (X, Y)) :
    (pyGemvPlan K Xl K T sw >>= fun plan => pyExecute sz run b plan cp C ab A B) =
      (pyProd X (K.map fun l => Xl.idxOf l) T.length >>= fun k =>
       vendorGemv t (if t then k else numel (T.map δ)) (if t then numel (T.map δ) else k) ab X.data X.off
         (if t then numel (T.map δ) else numel (K.map δ)) Y.data Y.off 1 cp C.data C.off 1 >>=
       fun mem => .ok { C with data := mem }) := by
  obtain ⟨nT, nK, dTK⟩ := List.nodup_append.1 hn
  have hKT : ∀ l ∈ K, l ∉ T := fun l h1 h2 => dTK l h2 l h1 rfl
  have hXn : Xl.Nodup := by
    rw [eX]; cases t
    · exact hn
    · exact List.nodup_append.2 ⟨nK, nT, fun a ha b hb e => hKT a ha (e ▸ hb)⟩
  have mTX : ∀ l ∈ T, l ∈ Xl := by intro l hl; rw [eX]; cases t <;> simp [hl]
  have mKX : ∀ l ∈ K, l ∈ Xl := by intro l hl; rw [eX]; cases t <;> simp [hl]
  obtain ⟨a1, a2, A1, A2, A3, A4, A5, _, A7, A8, _, _⟩ := py_two_blocks (X := X) (δ := δ) t eX hXn hT0 hK0 dX rX
  have eT : T = [] ++ T ++ [] := by simp
  have eK : K = [] ++ K ++ [] := by simp
  have c1 := pyMaxPos_block (p := []) (q := []) (by rw [← eT]; exact nT) hT0
  have c2 := pyMaxPos_block (p := []) (q := []) (by rw [← eK]; exact nK) hK0
  have s1 := pyStride_block (X := C) (δ := δ) (by rw [dC, ← eT]) rC (by rw [← eT]; exact nT) hT0
  have s2 := pyStride_block (X := Y) (δ := δ) (by rw [dY, ← eK]) rY (by rw [← eK]; exact nK) hK0
  rw [← eT] at c1
  rw [← eK] at c2
  have gXT : pyFind Xl T = T.map fun l => (l, T.idxOf l) := by
    rw [pyFind_eq, find_nodup nT]
    congr 1
    have k1 : T.filter (fun l => decide (l ∈ T)) = T := List.filter_eq_self.2 (by simp)
    have k2 : K.filter (fun l => decide (l ∈ T)) = [] := List.filter_eq_nil_iff.2 (by simpa using hKT)
    rw [eX]; cases t <;> simp [k1, k2]
  have uT : pyUnique T = T := by rw [pyUnique_eq]; exact unique_of_nodup nT
  have z1 : decide ((if t = true then 0 else T.length) = 0) = t := by
    cases t <;> simp [hT0]
  have plan : pyGemvPlan K Xl K T sw = .ok (.gemv (K.map fun l => Xl.idxOf l) (K.map fun l => K.idxOf l)
      (T.map fun l => T.idxOf l) a1 a2 (([] : List L).length + K.length - 1) (([] : List L).length + T.length - 1) t sw) := by
    unfold pyGemvPlan
    simp only [uT, pyFind_sub hXn mTX, pyFind_sub hXn mKX, pyFind_sub nK (fun l hl => hl),
      pyFind_sub nT (fun l hl => hl), gXT, A1, A2, A5, Outcome.ok_bind, pyPositions_eq nK mKX,
      pyPositions_eq nK (fun l hl => hl), pyPositions_eq nT (fun l hl => hl)]
    erw [c1, c2]
    simp only [Outcome.ok_bind, z1]
    rfl
  have p1 := pyProd_all dC (fun l (hl : l ∈ T) => hl)
  have p2 := pyProd_all dY (fun l (hl : l ∈ K) => hl)
  have ug : (!pyContiguousBuffer C || !pyContiguousBuffer A || !pyContiguousBuffer B) = false := by
    cases sw
    · simp only [Bool.false_eq_true, if_false, Prod.mk.injEq] at eAB
      simp [pyContiguousBuffer, eAB.1, eAB.2, ← rX, ← rY, ← rC]
    · simp only [if_true, Prod.mk.injEq] at eAB
      simp [pyContiguousBuffer, eAB.1, eAB.2, ← rX, ← rY, ← rC]
  rw [plan]
  simp only [Outcome.ok_bind, pyExecute, ug, Bool.false_eq_true, if_false]
  unfold pyExecGemv
  simp only [eAB, List.length_map, p1, p2, A3, A4, Outcome.ok_bind]
  erw [s1, s2]
  simp only [Outcome.ok_bind]
  cases hA : pyProd X (K.map fun l => Xl.idxOf l) T.length with
  | error e => cases t <;> rfl
  | ub e => cases t <;> rfl
  | ok kA => cases t <;> simp only [Outcome.ok_bind] <;> rfl

/-- Which plan is compiled for the matrix-vector patterns. -/
theorem pyGemv_plan {T K Xl : List L} (t sw : Bool)
    (hn : (T ++ K).Nodup) (hT0 : T ≠ []) (hK0 : K ≠ [])
    (eX : Xl = if t then K ++ T else T ++ K) :
    compilePlan T (if sw then K else Xl) (if sw then Xl else K) = pyGemvPlan K Xl K T sw := by
  obtain ⟨nT, nK, dTK⟩ := List.nodup_append.1 hn
  have hTK : ∀ l ∈ T, l ∉ K := fun l h1 h2 => dTK l h1 l h2 rfl
  have hKT : ∀ l ∈ K, l ∉ T := fun l h1 h2 => dTK l h2 l h1 rfl
  have hXn : Xl.Nodup := by
    rw [eX]; cases t
    · exact hn
    · exact List.nodup_append.2 ⟨nK, nT, fun a ha b hb e => hKT a ha (e ▸ hb)⟩
  have memX : ∀ l, l ∈ Xl ↔ l ∈ T ∨ l ∈ K := by intro l; rw [eX]; cases t <;> simp [or_comm]
  have mTX : ∀ l ∈ T, l ∈ Xl := fun l hl => (memX l).2 (.inl hl)
  have mKX : ∀ l ∈ K, l ∈ Xl := fun l hl => (memX l).2 (.inr hl)
  obtain ⟨t0, ht0⟩ := List.exists_mem_of_ne_nil _ hT0
  obtain ⟨k0, hk0⟩ := List.exists_mem_of_ne_nil _ hK0
  have k1 : T.filter (fun l => decide (l ∈ T)) = T := List.filter_eq_self.2 (by simp)
  have k2 : K.filter (fun l => decide (l ∈ T)) = [] := List.filter_eq_nil_iff.2 (by simpa using hKT)
  have fXT : Xl.filter (fun l => decide (l ∈ T)) = T := by rw [eX]; cases t <;> simp [k1, k2]
  have fTX : T.filter (fun l => decide (l ∈ Xl)) = T := List.filter_eq_self.2 (by simpa using mTX)
  have fTK : T.filter (fun l => decide (l ∈ K)) = [] := List.filter_eq_nil_iff.2 (by simpa using hTK)
  have l1 : links Xl K T = K := by
    have h1 : links Xl K T = Xl.filter fun l => decide (l ∈ K) := by
      unfold links difference intersect
      rw [List.filter_filter]
      apply List.filter_congr
      intro l _
      by_cases hk : l ∈ K
      · simp [hk, hKT l hk]
      · simp [hk]
    have k3 : K.filter (fun l => decide (l ∈ K)) = K := List.filter_eq_self.2 (by simp)
    have k4 : T.filter (fun l => decide (l ∈ K)) = [] := fTK
    rw [h1, eX]; cases t <;> simp [k3, k4]
  have l2 : links K Xl T = K := by
    unfold links difference intersect
    rw [List.filter_filter]
    apply List.filter_eq_self.2
    intro l hl
    simp [mKX l hl, hKT l hl]
  have cX : contiguousPositions (T.map fun l => (l, Xl.idxOf l)) = true ∧
      contiguousPositions (K.map fun l => (l, Xl.idxOf l)) = true := by
    cases t
    · simp only [Bool.false_eq_true, if_false] at eX
      have e1 : Xl = [] ++ T ++ K := by simpa using eX
      have e2 : Xl = T ++ K ++ [] := by simpa using eX
      exact ⟨by have := contiguous_block (e1 ▸ hXn); rwa [← e1] at this,
        by have := contiguous_block (e2 ▸ hXn); rwa [← e2] at this⟩
    · simp only [if_true] at eX
      have e1 : Xl = [] ++ K ++ T := by simpa using eX
      have e2 : Xl = K ++ T ++ [] := by simpa using eX
      exact ⟨by have := contiguous_block (e2 ▸ hXn); rwa [← e2] at this,
        by have := contiguous_block (e1 ▸ hXn); rwa [← e1] at this⟩
  have cK : contiguousPositions (K.map fun l => (l, K.idxOf l)) = true := by
    have := contiguous_block (p := []) (ys := K) (q := []) (by simpa using nK)
    simpa using this
  have q1 : ∀ Al Bl : List L, isDotProduct Al Bl T = false := by intro Al Bl; simp [isDotProduct, hT0]
  have hTK' : T ≠ K := fun h => hTK t0 ht0 (h ▸ ht0)
  have tX := targetPos_eq nT hXn
  have tK := targetPos_eq nT nK
  have xX := posInC_eq (Xl := Xl) nT
  have xK := posInC_eq (Xl := K) nT
  rw [fTX] at tX
  rw [fTK] at tK
  rw [fXT] at xX
  rw [k2] at xK
  cases sw
  · simp only [Bool.false_eq_true, if_false]
    have nh : noHadamard Xl K T = true := noHadamard_iff.2 ⟨hXn, nK, nT⟩
    have q2 : isElementWise Xl K T = false := by
      unfold isElementWise
      rw [decide_eq_false hTK']; simp
    have q3 : isOuterProduct Xl K T = false := by
      have : intersect Xl K ≠ [] := by
        intro h
        have : k0 ∈ intersect Xl K := by simp [intersect, mKX k0 hk0, hk0]
        rw [h] at this; simp at this
      simp [isOuterProduct, this]
    have pA := linkPosA_eq (Bl := K) (Cl := T) hXn
    have pB := linkPosB_eq (Cl := T) hXn nK
    rw [l1] at pA pB
    have q4 : isGemvNormalPossible Xl K T = true := by
      simp only [isGemvNormalPossible, pA, pB, tX, tK, xX, xK, cX.1, cX.2, cK, nh, sameOrdering_map hK0,
        sameOrdering_map hT0, List.map_nil, List.length_nil]
      rfl
    have lu : pyLinkUnique Xl K T = K := by
      rw [pyLinkUnique_eq nK, linkUnique_eq hXn, l1]
    unfold compilePlan
    simp only [pyIsDot_eq, pyIsElementWise_eq, pyIsOuter_eq, pyIsGemvAB_eq, q1, q2, q3, q4, lu,
      Bool.false_eq_true, if_false, Bool.true_or, if_true, Bool.not_true, Bool.and_false]
  · simp only [if_true]
    have nh : noHadamard K Xl T = true := noHadamard_iff.2 ⟨nK, hXn, nT⟩
    have q2 : isElementWise K Xl T = false := by
      unfold isElementWise
      rw [decide_eq_false hTK']; simp
    have q3 : isOuterProduct K Xl T = false := by
      have : intersect K Xl ≠ [] := by
        intro h
        have : k0 ∈ intersect K Xl := by simp [intersect, mKX k0 hk0, hk0]
        rw [h] at this; simp at this
      simp [isOuterProduct, this]
    have pA := linkPosA_eq (Bl := Xl) (Cl := T) nK
    have pB := linkPosB_eq (Cl := T) nK hXn
    rw [l2] at pA pB
    have q4 : isGemvNormalPossible K Xl T = false := by
      have : (posInC Xl T).length ≠ 0 := by rw [xX]; simpa using hT0
      simp [isGemvNormalPossible, this]
    have q5 : pyIsGemvBA K Xl T = true := by
      rw [pyIsGemvBA_eq hXn]
      simp only [pA, pB, tX, tK, xX, xK, cX.1, cX.2, cK, nh, sameOrdering_map hK0,
        sameOrdering_map hT0, List.map_nil, List.length_nil]
      rfl
    have lu : pyLinkUnique K Xl T = K := by
      rw [pyLinkUnique_eq hXn, linkUnique_eq nK, l2]
    unfold compilePlan
    simp only [pyIsDot_eq, pyIsElementWise_eq, pyIsOuter_eq, pyIsGemvAB_eq, q1, q2, q3, q4, q5, lu,
      Bool.false_eq_true, if_false, Bool.or_true, if_true, Bool.not_false, Bool.and_true]

/-- The two together. -/
theorem pyGemv_reduce {δ : L → Nat} {T K Xl : List L} (t sw : Bool) {A B X Y C : Strided R} (cp ab : R)
    (sz : Nat) (run : OmpRun)
    (hn : (T ++ K).Nodup) (hT0 : T ≠ []) (hK0 : K ≠ [])
    (eX : Xl = if t then K ++ T else T ++ K)
    (dX : X.dims = Xl.map δ) (dY : Y.dims = K.map δ) (dC : C.dims = T.map δ)
    (rX : X.strides = (dimsToStrides X.dims).2) (rY : Y.strides = (dimsToStrides Y.dims).2)
    (rC : C.strides = (dimsToStrides C.dims).2)
    (eAB : (if sw then (B, A) else (A, B)) = (X, Y)) :
    pyEinsum sz run cp T C ab (if sw then K else Xl) A (if sw then Xl else K) B =
      (pyProd X (K.map fun l => Xl.idxOf l) T.length >>= fun k =>
       vendorGemv t (if t then k else numel (T.map δ)) (if t then numel (T.map δ) else k) ab X.data X.off
         (if t then numel (T.map δ) else numel (K.map δ)) Y.data Y.off 1 cp C.data C.off 1 >>=
       fun mem => .ok { C with data := mem }) := by
  unfold pyEinsum
  rw [pyGemv_plan t sw hn hT0 hK0 eX]
  exact pyGemvPlan_reduce t sw cp ab _ sz run hn hT0 hK0 eX dX dY dC rX rY rC eAB

/-- With as many summed labels as labels of `C`, the plan is the matrix-vector product of the views. -/
theorem pyGemv_eq {δ : L → Nat} {T K Xl : List L} (t sw : Bool) {A B X Y C : Strided R} (cp ab : R)
    (sz : Nat) (run : OmpRun)
    (hn : (T ++ K).Nodup) (hT0 : T ≠ []) (hK0 : K ≠ [])
    (eX : Xl = if t then K ++ T else T ++ K)
    (dX : X.dims = Xl.map δ) (dY : Y.dims = K.map δ) (dC : C.dims = T.map δ)
    (rX : X.RowMajor) (rY : Y.RowMajor) (rC : C.RowMajor)
    (eAB : (if sw then (B, A) else (A, B)) = (X, Y)) (hlen : T.length = K.length) :
    pyEinsum sz run cp T C ab (if sw then K else Xl) A (if sw then Xl else K) B =
      gemv t ab (if t then matView X (K.map δ) (T.map δ) else matView X (T.map δ) (K.map δ))
        (vecView Y (K.map δ)) cp (vecView C (T.map δ)) >>= fun r => .ok { C with data := r.data } := by
  have mKX : ∀ l ∈ K, l ∈ Xl := by intro l hl; rw [eX]; cases t <;> simp [hl]
  have h1 := pyProd_take dX mKX T.length (by omega)
  rw [take_len hlen] at h1
  rw [pyGemv_reduce (δ := δ) t sw cp ab sz run hn hT0 hK0 eX dX dY dC rX.strides rY.strides rC.strides eAB, h1]
  simp only [Outcome.ok_bind, gemv]
  rw [bind_assoc]
  simp only [Outcome.ok_bind]
  cases t <;> rfl

end gemv

theorem ok_of_bind {α β : Type} {x : Outcome α} {f : α → Outcome β} {b : β} (h : x >>= f = .ok b) :
    ∃ a, x = .ok a ∧ f a = .ok b := by
  cases x with
  | ok a => exact ⟨a, rfl, h⟩
  | error e => simp at h
  | ub e => simp at h

section ger
variable {L : Type} [DecidableEq L]

/-- The plan compiled for an outer product. -/
theorem pyGer_plan {Al Bl Cl : List L} (sw : Bool) (hn : (Al ++ Bl).Nodup) (hA0 : Al ≠ []) (hB0 : Bl ≠ [])
    (eC : Cl = if sw then Bl ++ Al else Al ++ Bl) :
    compilePlan Cl Al Bl = .ok (.ger (Al.map fun l => Cl.idxOf l) (Bl.map fun l => Cl.idxOf l) sw) := by
  obtain ⟨nA, nB, dAB⟩ := List.nodup_append.1 hn
  have hAB : ∀ l ∈ Al, l ∉ Bl := fun l h1 h2 => dAB l h1 l h2 rfl
  have hBA : ∀ l ∈ Bl, l ∉ Al := fun l h1 h2 => dAB l h2 l h1 rfl
  have nC : Cl.Nodup := by
    rw [eC]; cases sw
    · exact hn
    · exact List.nodup_append.2 ⟨nB, nA, fun a ha b hb e => hBA a ha (e ▸ hb)⟩
  have memC : ∀ l, l ∈ Cl ↔ l ∈ Al ∨ l ∈ Bl := by intro l; rw [eC]; cases sw <;> simp [or_comm]
  have mA : ∀ l ∈ Al, l ∈ Cl := fun l hl => (memC l).2 (.inl hl)
  have mB : ∀ l ∈ Bl, l ∈ Cl := fun l hl => (memC l).2 (.inr hl)
  obtain ⟨a0, ha0⟩ := List.exists_mem_of_ne_nil _ hA0
  obtain ⟨b0, hb0⟩ := List.exists_mem_of_ne_nil _ hB0
  have self : ∀ (P Q : List L), (∀ l ∈ P, l ∈ Q) → P.filter (fun l => decide (l ∈ Q)) = P :=
    fun P Q h => List.filter_eq_self.2 (by simpa using h)
  have none : ∀ (P Q : List L), (∀ l ∈ P, l ∉ Q) → P.filter (fun l => decide (l ∈ Q)) = [] :=
    fun P Q h => List.filter_eq_nil_iff.2 (by simpa using h)
  have tA := targetPos_eq nC nA
  have tB := targetPos_eq nC nB
  have fCA : Cl.filter (fun l => decide (l ∈ Al)) = Al := by
    rw [eC]; cases sw <;> simp [self Al Al (fun l hl => hl), none Bl Al hBA]
  have fCB : Cl.filter (fun l => decide (l ∈ Bl)) = Bl := by
    rw [eC]; cases sw <;> simp [self Bl Bl (fun l hl => hl), none Al Bl hAB]
  rw [fCA] at tA
  rw [fCB] at tB
  have cont : ∀ K : List L, K.Nodup → contiguousPositions (K.map fun l => (l, K.idxOf l)) = true := by
    intro K nK
    have := contiguous_block (p := []) (ys := K) (q := []) (by simpa using nK)
    simpa using this
  have q1 : isDotProduct Al Bl Cl = false := by
    have : Cl ≠ [] := fun h => by have := mA a0 ha0; rw [h] at this; simp at this
    simp [isDotProduct, this]
  have q2 : isElementWise Al Bl Cl = false := by
    have : Cl ≠ Al := fun h => hBA b0 hb0 (h ▸ mB b0 hb0)
    unfold isElementWise
    rw [decide_eq_false this]; simp
  have q3 : isOuterProduct Al Bl Cl = true := by
    have h1 : intersect Al Bl = [] := none Al Bl hAB
    have h2 : noHadamard Al Bl Cl = true := noHadamard_iff.2 ⟨nA, nB, nC⟩
    simp only [isOuterProduct, h1, tA, tB, cont Al nA, cont Bl nB, h2]
    rfl
  have first : pyFirstPos (Al.map fun l => (l, Cl.idxOf l)) = .ok (if sw then Bl.length else 0) := by
    cases sw
    · have e1 : Cl = [] ++ Al ++ Bl := by simpa using eC
      have := pyFirstPos_block (e1 ▸ nC) hA0
      rwa [← e1] at this
    · have e1 : Cl = Bl ++ Al ++ [] := by simpa using eC
      have := pyFirstPos_block (e1 ▸ nC) hA0
      rwa [← e1] at this
  unfold compilePlan
  simp only [pyIsDot_eq, pyIsElementWise_eq, pyIsOuter_eq, q1, q2, q3, Bool.false_eq_true, if_false, if_true,
    pyFind_sub nC mA, pyFind_sub nC mB, first, Outcome.ok_bind, pyPositions_eq nA mA, pyPositions_eq nB mB]
  congr 2
  cases sw <;> simp [hB0]

variable {R : Type} [CommSemiring R] [BEq R] [LawfulBEq R]

omit [BEq R] [LawfulBEq R] in
/-- `memset` of a row-major tensor. -/
theorem memset_rowMajor {t : Strided R} (h : t.RowMajor) {f : List Nat → R} (hf : t.Represents f) :
    ∃ m, (List.range (numel t.dims)).foldlM
        (fun mem (i : Nat) => memUpd mem (t.off + i) fun _ => .ok 0) t.data = .ok m ∧
      t.Frame { t with data := m } ∧ ({ t with data := m } : Strided R).Represents fun _ => 0 := by
  obtain ⟨m, h1, h2, h3, h4⟩ := memLoop (List.range (numel t.dims)) (fun i => t.off + i)
    (fun _ _ => .ok 0) (fun _ _ => 0) t.data
    (List.nodup_range.map fun x y e => by simpa using e)
    (by
      intro b hb
      have := h.fits
      have := List.mem_range.1 hb
      simp; omega)
    (fun _ _ _ _ => rfl)
  obtain ⟨fr, r⟩ := frame_of_mem h.wf h2 (f' := fun _ => 0)
    (by
      intro j hj
      rw [h.strides, dot_strides_eq hj.length]
      have := h3 (rowMajor j t.dims) (List.mem_range.2 (rowMajor_lt hj))
      rw [this, rowMajor_get h hf hj]; rfl)
    (by
      intro p hp
      apply h4
      intro hm
      obtain ⟨k, hk, rfl⟩ := List.mem_map.1 hm
      have hk := List.mem_range.1 hk
      apply hp (unflat t.dims k) (unflat_inBox hk)
      rw [h.strides, dot_strides_eq (unflat_inBox hk).length, rowMajor_unflat hk])
  exact ⟨m, h1, fr, r⟩

omit [CommSemiring R] [BEq R] [LawfulBEq R] in
theorem pyShape_stride_prod {t : Strided R} (h : t.RowMajor) (h0 : t.dims ≠ []) :
    ∃ n s, pyShape t 0 = .ok n ∧ pyStride t 0 = .ok s ∧ n * s = numel t.dims := by
  match hd : t.dims with
  | [] => exact (h0 hd).elim
  | d :: ds =>
    refine ⟨d, numel ds, by simp [pyShape, hd], ?_, by simp⟩
    unfold pyStride
    rw [h.strides, hd, dimsToStrides_snd_cons]
    simp

/-- The outer-product plan without scaling, or with clearing. -/
theorem pyGer_shape {δ : L → Nat} {Al Bl Cl : List L} (sw : Bool) {A B C : Strided R}
    {fA fB fC : List Nat → R} (cp ab : R) (sz : Nat) (run : OmpRun)
    (hn : (Al ++ Bl).Nodup) (hA0 : Al ≠ []) (hB0 : Bl ≠ [])
    (eC : Cl = if sw then Bl ++ Al else Al ++ Bl)
    (dA : A.dims = Al.map δ) (dB : B.dims = Bl.map δ) (dC : C.dims = Cl.map δ)
    (rA : A.RowMajor) (rB : B.RowMajor) (rC : C.RowMajor)
    (hA : A.Represents fA) (hB : B.Represents fB) (hC : C.Represents fC)
    (hcp : cp = 0 ∨ cp = 1) (hz : numel ((if sw then Al else Bl).map δ) ≠ 0) :
    ∃ C', pyEinsum sz run cp Cl C ab Al A Bl B = .ok C' ∧ C.Frame C' ∧
      ∀ ρ, InRange δ Cl ρ → C'.read (toIdx (Cl.map ρ))
        = .ok (cp * fC (Cl.map ρ) + ab * contraction δ [] Al Bl fA fB ρ) := by
  have memC : ∀ l, l ∈ Cl ↔ l ∈ Al ∨ l ∈ Bl := by intro l; rw [eC]; cases sw <;> simp [or_comm]
  have mA : ∀ l ∈ Al, l ∈ Cl := fun l hl => (memC l).2 (.inl hl)
  have mB : ∀ l ∈ Bl, l ∈ Cl := fun l hl => (memC l).2 (.inr hl)
  have p1 := pyProd_all dC mA
  have p2 := pyProd_all dC mB
  have hC0 : C.dims ≠ [] := by rw [dC, eC]; cases sw <;> simp [hA0]
  obtain ⟨n, s, hsh, hst, hns⟩ := pyShape_stride_prod rC hC0
  have ug : (!pyContiguousBuffer C || !pyContiguousBuffer A || !pyContiguousBuffer B) = false := by
    simp [pyContiguousBuffer, ← rA.strides, ← rB.strides, ← rC.strides]
  obtain ⟨m, hm, fr1, r1⟩ : ∃ m, (if cp == 0 then
        (List.range (n * s)).foldlM (fun mem (i : Nat) => memUpd mem (C.off + i) fun _ => .ok 0) C.data
      else if cp == 1 then .ok C.data
      else (List.range (n * (s * sz))).foldlM (fun mem (i : Nat) => memUpd mem (C.off + i)
        fun old => .ok (old * cp)) C.data) = .ok m ∧
      C.Frame { C with data := m } ∧ ({ C with data := m } : Strided R).Represents fun i => cp * fC i := by
    by_cases h0 : (cp == 0) = true
    · rw [if_pos h0, hns]
      have := memset_rowMajor rC hC
      simpa [eq_of_beq h0] using this
    · rw [if_neg h0]
      have h1 : cp = 1 := hcp.resolve_left (by simpa using h0)
      rw [if_pos (by simpa using h1), h1]
      exact ⟨_, rfl, Strided.Frame.refl _, by simpa using hC⟩
  have rC1 : ({ C with data := m } : Strided R).RowMajor := fr1.rowMajor rC
  have expand : pyEinsum sz run cp Cl C ab Al A Bl B =
      (if sw then vendorGer (numel (Bl.map δ)) (numel (Al.map δ)) ab B.data B.off 1 A.data A.off 1 m C.off
          (numel (Al.map δ))
        else vendorGer (numel (Al.map δ)) (numel (Bl.map δ)) ab A.data A.off 1 B.data B.off 1 m C.off
          (numel (Bl.map δ))) >>= fun mem => .ok { C with data := mem } := by
    unfold pyEinsum
    rw [pyGer_plan sw hn hA0 hB0 eC]
    simp only [Outcome.ok_bind, pyExecute, ug, Bool.false_eq_true, if_false]
    unfold pyExecGer
    simp only [List.length_map, p1, p2, hsh, hst, Outcome.ok_bind]
    by_cases h0 : (cp == 0) = true
    · rw [if_pos h0] at hm ⊢
      rw [hm]
      cases sw <;> rfl
    · by_cases h1 : (cp == 1) = true
      · rw [if_neg h0, if_pos h1] at hm ⊢
        injection hm with hm
        rw [hm]
        cases sw <;> rfl
      · exact ((hcp.elim (fun h => h0 (by simpa using h)) fun h => h1 (by simpa using h))).elim
  rw [expand]
  cases sw
  · simp only [Bool.false_eq_true, if_false] at hz eC ⊢
    obtain ⟨r, h1, fr, h2⟩ := ger_blocks (P := Al) (Q := Bl) ab rA rB rC1 dA dB (by rw [← eC]; exact dC) hA hB r1 hz
    have h1' : vendorGer (numel (Al.map δ)) (numel (Bl.map δ)) ab A.data A.off 1 B.data B.off 1 m C.off
        (numel (Bl.map δ)) = .ok r.data := by
      unfold ger at h1
      simp only [dA, dB] at h1
      obtain ⟨x, hx, hr⟩ := ok_of_bind h1
      injection hr with hr
      rw [← hr]
      exact hx
    rw [h1']
    refine ⟨_, rfl, fr1.trans fr, ?_⟩
    intro ρ hρ
    rw [eC] at hρ ⊢
    exact h2 ρ hρ
  · simp only [if_true] at hz eC ⊢
    obtain ⟨r, h1, fr, h2⟩ := ger_blocks (P := Bl) (Q := Al) ab rB rA rC1 dB dA (by rw [← eC]; exact dC) hB hA r1 hz
    have h1' : vendorGer (numel (Bl.map δ)) (numel (Al.map δ)) ab B.data B.off 1 A.data A.off 1 m C.off
        (numel (Al.map δ)) = .ok r.data := by
      unfold ger at h1
      simp only [dA, dB] at h1
      obtain ⟨x, hx, hr⟩ := ok_of_bind h1
      injection hr with hr
      rw [← hr]
      exact hx
    rw [h1']
    refine ⟨_, rfl, fr1.trans fr, ?_⟩
    intro ρ hρ
    rw [contraction_comm]
    rw [eC] at hρ ⊢
    exact h2 ρ hρ

omit [CommSemiring R] [BEq R] [LawfulBEq R] in
/-- A loop that updates more elements than the allocation has. -/
theorem overrun_ub (g : R → R) (mem : List R) (off n : Nat) (h : mem.length < off + n) (h0 : off ≤ mem.length) :
    ∃ e, (List.range n).foldlM (fun mem (i : Nat) => memUpd mem (off + i) fun old => .ok (g old)) mem = .ub e := by
  obtain ⟨k, rfl⟩ : ∃ k, n = (mem.length - off) + (k + 1) := ⟨n - (mem.length - off) - 1, by omega⟩
  obtain ⟨m, h1, h2, _, _⟩ := memLoop (List.range (mem.length - off)) (fun i => off + i)
    (fun _ old => .ok (g old)) (fun _ old => g old) mem
    (List.nodup_range.map fun x y e => by simpa using e)
    (by intro b hb; have := List.mem_range.1 hb; simp; omega)
    (fun _ _ _ _ => rfl)
  rw [range_split, List.foldlM_append, h1, Outcome.ok_bind, List.range_succ_eq_map, List.map_cons,
    List.foldlM_cons]
  have : memUpd m (off + (mem.length - off + 0)) (fun old => .ok (g old)) = .ub "access outside the storage" := by
    unfold memUpd
    rw [List.getElem?_eq_none (by omega)]
  rw [this]
  exact ⟨_, rfl⟩

/-- Any other prefactor of `C` makes the scaling loop run over the end of the allocation. -/
theorem pyGer_overrun {δ : L → Nat} {Al Bl Cl : List L} (sw : Bool) {A B C : Strided R}
    (cp ab : R) (sz : Nat) (run : OmpRun)
    (hn : (Al ++ Bl).Nodup) (hA0 : Al ≠ []) (hB0 : Bl ≠ [])
    (eC : Cl = if sw then Bl ++ Al else Al ++ Bl)
    (dC : C.dims = Cl.map δ) (rA : A.RowMajor) (rB : B.RowMajor) (rC : C.RowMajor)
    (full : C.data.length < C.off + numel C.dims * sz) (h0 : cp ≠ 0) (h1 : cp ≠ 1) :
    ∃ e, pyEinsum sz run cp Cl C ab Al A Bl B = .ub e := by
  have memC : ∀ l, l ∈ Cl ↔ l ∈ Al ∨ l ∈ Bl := by intro l; rw [eC]; cases sw <;> simp [or_comm]
  have mA : ∀ l ∈ Al, l ∈ Cl := fun l hl => (memC l).2 (.inl hl)
  have mB : ∀ l ∈ Bl, l ∈ Cl := fun l hl => (memC l).2 (.inr hl)
  have p1 := pyProd_all dC mA
  have p2 := pyProd_all dC mB
  have hC0 : C.dims ≠ [] := by rw [dC, eC]; cases sw <;> simp [hA0]
  obtain ⟨n, s, hsh, hst, hns⟩ := pyShape_stride_prod rC hC0
  have ug : (!pyContiguousBuffer C || !pyContiguousBuffer A || !pyContiguousBuffer B) = false := by
    simp [pyContiguousBuffer, ← rA.strides, ← rB.strides, ← rC.strides]
  have fits := rC.fits
  obtain ⟨e, he⟩ := overrun_ub (fun x => x * cp) C.data C.off (n * (s * sz))
    (by rw [← Nat.mul_assoc, hns]; exact full) (by omega)
  unfold pyEinsum
  rw [pyGer_plan sw hn hA0 hB0 eC]
  simp only [Outcome.ok_bind, pyExecute, ug, Bool.false_eq_true, if_false]
  unfold pyExecGer
  simp only [List.length_map, p1, p2, hsh, hst, Outcome.ok_bind]
  rw [if_neg (by simpa using h0), if_neg (by simpa using h1)]
  simp only [he]
  exact ⟨e, by cases sw <;> rfl⟩

end ger
end Einsums
