import Verif.Spec.ArithmeticTensor
import Verif.Proofs.Tensor
/-
Lazy expressions: the invariant that ties the objects to their formulas.
-/
namespace Einsums
open Spec Model

variable {R : Type}

def RefBelow (k : Nat) : ArithRef R → Prop
  | .expr m => m < k
  | _ => True

def TupleBelow (k : Nat) : ArithTuple R → Prop
  | .bin _ l r => RefBelow k l ∧ RefBelow k r
  | .neg x => RefBelow k x

def tupleFormula (fs : Formulas R) : ArithTuple R → Formula R × List Nat
  | .bin op l r => (.bin op (fs.ref l).1 (fs.ref r).1, (fs.ref l).2 ++ (fs.ref r).2)
  | .neg x => (.neg (fs.ref x).1, (fs.ref x).2)

structure ArithInv (st : ArithState R) (fs : Formulas R) : Prop where
  length : st.objs.length = fs.length
  fits : ∀ (k : Nat) (o : ArithObj R), st.objs[k]? = some (some o) → TupleBelow k o.tuple ∧ fs[k]? = some (tupleFormula fs o.tuple)
  shape : ∀ (k : Nat) (o : ArithObj R), st.objs[k]? = some (some o) →
    ∃ t T, (tupleFormula fs o.tuple).1.tensors.head? = some t ∧ st.tensors[t]? = some T ∧ o.dims = T.dims

theorem ref_append {fs : Formulas R} (x : Formulas R) {r : ArithRef R} (h : RefBelow fs.length r) :
    Formulas.ref (fs ++ x) r = fs.ref r := by
  cases r with
  | expr m =>
    have h' : m < fs.length := h
    simp only [Formulas.ref]
    rw [List.getElem?_append_left h']
  | _ => rfl

theorem RefBelow.mono {k m : Nat} (h : k ≤ m) {r : ArithRef R} (hr : RefBelow k r) : RefBelow m r := by
  cases r with
  | expr j => exact Nat.lt_of_lt_of_le hr h
  | _ => trivial

theorem TupleBelow.mono {k m : Nat} (h : k ≤ m) {t : ArithTuple R} (ht : TupleBelow k t) : TupleBelow m t := by
  cases t with
  | bin op l r => exact ⟨ht.1.mono h, ht.2.mono h⟩
  | neg x => exact RefBelow.mono h (r := x) ht

theorem tuple_append {fs : Formulas R} (x : Formulas R) {t : ArithTuple R} (h : TupleBelow fs.length t) :
    tupleFormula (fs ++ x) t = tupleFormula fs t := by
  cases t with
  | bin op l r => simp only [tupleFormula, ref_append x h.1, ref_append x h.2]
  | neg y => simp only [tupleFormula, ref_append (r := y) x h]

theorem refDims_below {st : ArithState R} {r : ArithRef R} {d : Option (List Nat)} (h : st.refDims r = .ok d) :
    RefBelow st.objs.length r := by
  cases r with
  | expr k =>
    simp only [ArithState.refDims] at h
    split at h
    · rename_i o ho
      exact (List.getElem?_eq_some_iff.1 ho).1
    · simp at h
  | _ => trivial

/-- A non-scalar operand: its formula has a first tensor, and the operand has its shape. -/
theorem refDims_shape {st : ArithState R} {fs : Formulas R} (I : ArithInv st fs) {r : ArithRef R} {d : List Nat}
    (h : st.refDims r = .ok (some d)) :
    ∃ t T, (fs.ref r).1.tensors.head? = some t ∧ st.tensors[t]? = some T ∧ d = T.dims := by
  cases r with
  | scalar v => simp [ArithState.refDims] at h
  | tensor t =>
    simp only [ArithState.refDims] at h
    split at h
    · rename_i T hT
      simp only [Outcome.ok.injEq, Option.some.injEq] at h
      exact ⟨t, T, rfl, hT, h.symm⟩
    · simp at h
  | expr k =>
    simp only [ArithState.refDims] at h
    split at h
    · rename_i o ho
      simp only [Outcome.ok.injEq, Option.some.injEq] at h
      obtain ⟨t, T, h1, h2, h3⟩ := I.shape k o ho
      refine ⟨t, T, ?_, h2, h.symm.trans h3⟩
      simp only [Formulas.ref, (I.fits k o ho).2]
      exact h1
    · simp at h

theorem refDims_scalar {st : ArithState R} {fs : Formulas R} {r : ArithRef R} (h : st.refDims r = .ok none) :
    (fs.ref r).1.tensors = [] := by
  cases r with
  | scalar v => rfl
  | tensor t =>
    simp only [ArithState.refDims] at h
    split at h <;> simp at h
  | expr k =>
    simp only [ArithState.refDims] at h
    split at h <;> simp at h

theorem ArithInv.push {st : ArithState R} {fs : Formulas R} (I : ArithInv st fs) {o : ArithObj R}
    (hb : TupleBelow st.objs.length o.tuple)
    (hs : ∃ t T, (tupleFormula fs o.tuple).1.tensors.head? = some t ∧ st.tensors[t]? = some T ∧ o.dims = T.dims) :
    ArithInv { st with objs := st.objs ++ [some o] } (fs ++ [tupleFormula fs o.tuple]) := by
  have hb' : TupleBelow fs.length o.tuple := by rw [← I.length]; exact hb
  have old : ∀ (k : Nat) (o' : ArithObj R), st.objs[k]? = some (some o') → TupleBelow fs.length o'.tuple := by
    intro k o' hk
    have := (List.getElem?_eq_some_iff.1 hk).1
    exact (I.fits k o' hk).1.mono (by rw [← I.length]; omega)
  have cases_ : ∀ (k : Nat) (o' : ArithObj R), (st.objs ++ [some o])[k]? = some (some o') → st.objs[k]? = some (some o') ∨ k = st.objs.length ∧ o' = o := by
    intro k o' hk
    by_cases h : k < st.objs.length
    · rw [List.getElem?_append_left h] at hk; exact .inl hk
    · rw [List.getElem?_append_right (by omega)] at hk
      have hk0 : k - st.objs.length = 0 := by
        by_contra hne
        rw [List.getElem?_eq_none (by simp; omega)] at hk
        simp at hk
      rw [hk0] at hk
      simp only [List.getElem?_cons_zero, Option.some.injEq] at hk
      exact .inr ⟨by omega, hk.symm⟩
  constructor
  · simp [I.length]
  · intro k o' hk
    rcases cases_ k o' hk with h | ⟨rfl, rfl⟩
    · obtain ⟨h1, h2⟩ := I.fits k o' h
      refine ⟨h1, ?_⟩
      rw [tuple_append _ (old k o' h), List.getElem?_append_left (List.getElem?_eq_some_iff.1 h2).1]
      exact h2
    · refine ⟨hb, ?_⟩
      rw [tuple_append _ hb', I.length]
      simp
  · intro k o' hk
    rcases cases_ k o' hk with h | ⟨rfl, rfl⟩
    · rw [tuple_append _ (old k o' h)]
      exact I.shape k o' h
    · rw [tuple_append _ hb']
      exact hs

theorem head_append_of {l m : List Nat} {t : Nat} (h : l.head? = some t) : (l ++ m).head? = some t := by
  cases l <;> simp_all

theorem ArithInv.step {st st' : ArithState R} {fs : Formulas R} (I : ArithInv st fs) (s : ArithStep R)
    (h : st.step s = .ok st') : ArithInv st' (fs.step s) := by
  cases s with
  | bin op l r =>
    simp only [ArithState.step] at h
    cases hl : st.refDims l with
    | error m => rw [hl] at h; cases h
    | ub m => rw [hl] at h; cases h
    | ok dl =>
      cases hr : st.refDims r with
      | error m => rw [hl, Outcome.ok_bind, hr] at h; cases h
      | ub m => rw [hl, Outcome.ok_bind, hr] at h; cases h
      | ok dr =>
        rw [hl, Outcome.ok_bind, hr, Outcome.ok_bind] at h
        have hb : TupleBelow st.objs.length (.bin op l r) := ⟨refDims_below hl, refDims_below hr⟩
        cases dl with
        | some d =>
          cases h
          refine I.push (o := ⟨.bin op l r, d⟩) hb ?_
          obtain ⟨t, T, h1, h2, h3⟩ := refDims_shape I hl
          exact ⟨t, T, head_append_of h1, h2, h3⟩
        | none =>
          cases dr with
          | none => cases h
          | some d =>
            cases h
            refine I.push (o := ⟨.bin op l r, d⟩) hb ?_
            obtain ⟨t, T, h1, h2, h3⟩ := refDims_shape I hr
            refine ⟨t, T, ?_, h2, h3⟩
            simp only [tupleFormula, Formula.tensors, refDims_scalar (fs := fs) hl, List.nil_append]
            exact h1
  | neg x =>
    simp only [ArithState.step] at h
    cases hx : st.refDims x with
    | error m => rw [hx] at h; cases h
    | ub m => rw [hx] at h; cases h
    | ok d =>
      rw [hx, Outcome.ok_bind] at h
      cases d with
      | none => cases h
      | some d =>
        cases h
        exact I.push (o := ⟨.neg x, d⟩) (refDims_below hx) (refDims_shape I hx)
  | copy k =>
    simp only [ArithState.step] at h
    split at h
    case h_2 => simp at h
    rename_i o ho
    cases h
    obtain ⟨h1, h2⟩ := I.fits k o ho
    have hk := (List.getElem?_eq_some_iff.1 ho).1
    have := I.push (o := o) (h1.mono hk.le) (I.shape k o ho)
    simpa [Formulas.step, h2] using this
  | destroy k =>
    simp only [ArithState.step] at h
    split at h
    case h_2 => simp at h
    cases h
    have sub : ∀ (j : Nat) (o : ArithObj R), (st.objs.set k none)[j]? = some (some o) → st.objs[j]? = some (some o) := by
      intro j o hj
      by_cases e : k = j
      · subst e
        rw [List.getElem?_set] at hj
        simp at hj
      · rwa [List.getElem?_set_ne e] at hj
    exact ⟨by simpa [Formulas.step] using I.length, fun j o hj => I.fits j o (sub j o hj), fun j o hj => I.shape j o (sub j o hj)⟩
  | write t idx v =>
    simp only [ArithState.step] at h
    split at h
    case h_2 => simp at h
    rename_i T hT
    cases hw : T.write idx v with
    | error m => rw [hw] at h; cases h
    | ub m => rw [hw] at h; cases h
    | ok T' =>
      rw [hw, Outcome.ok_bind] at h
      cases h
      have hd : T'.dims = T.dims := by
        unfold Strided.write at hw
        cases ha : T.addr idx with
        | error m => rw [ha] at hw; cases hw
        | ub m => rw [ha] at hw; cases hw
        | ok a => rw [ha, Outcome.ok_bind] at hw; cases hw; rfl
      refine ⟨I.length, I.fits, fun j o hj => ?_⟩
      obtain ⟨s, S, h1, h2, h3⟩ := I.shape j o hj
      by_cases e : t = s
      · subst e
        rw [hT] at h2
        cases h2
        exact ⟨t, T', h1, by simp [(List.getElem?_eq_some_iff.1 hT).1], h3.trans hd.symm⟩
      · exact ⟨s, S, h1, by simpa [List.getElem?_set_ne e] using h2, h3⟩

theorem arithInv_run {ts : List (Strided R)} {p : List (ArithStep R)} {st : ArithState R}
    (h : ArithState.run ⟨ts, []⟩ p = .ok st) : ArithInv st (Formulas.run p) := by
  have key : ∀ (p : List (ArithStep R)) (s0 : ArithState R) (fs : Formulas R), ArithInv s0 fs → ∀ st, s0.run p = .ok st →
      ArithInv st (p.foldl Formulas.step fs) := by
    intro p
    induction p with
    | nil => intro s0 fs I st h; cases h; exact I
    | cons s p ih =>
      intro s0 fs I st h
      unfold ArithState.run at h
      rw [List.foldlM_cons] at h
      cases hs : s0.step s with
      | error m => rw [hs] at h; cases h
      | ub m => rw [hs] at h; cases h
      | ok s1 =>
        rw [hs, Outcome.ok_bind] at h
        exact ih s1 _ (I.step s hs) st h
  refine key p ⟨ts, []⟩ [] ⟨rfl, ?_, ?_⟩ st h <;> simp

section
variable [Add R] [Sub R] [Mul R] [Div R] [Neg R]

theorem apply_value (op : ArithTag) (X : Nat → R) (a b : Formula R) :
    (Formula.bin op a b).value X = op.apply (a.value X) (b.value X) := by
  cases op <;> rfl

theorem compute_value {st : ArithState R} {fs : Formulas R} (I : ArithInv st fs) (idx : List Int) (X : Nat → R) (n : Nat)
    (r : ArithRef R) (hb : RefBelow n r) (ha : ∀ m ∈ (fs.ref r).2, Alive st m)
    (hX : ∀ t ∈ (fs.ref r).1.tensors, ∃ T, st.tensors[t]? = some T ∧ T.read idx = .ok (X t)) :
    computeArith st idx n r = .ok ((fs.ref r).1.value X) := by
  induction n generalizing r with
  | zero =>
    cases r with
    | scalar v => rfl
    | tensor t =>
      obtain ⟨T, h1, h2⟩ := hX t (by simp [Formulas.ref, Formula.tensors])
      simp only [computeArith, h1, h2]
      rfl
    | expr k => exact absurd hb (by simp [RefBelow])
  | succ n ih =>
    cases r with
    | scalar v => rfl
    | tensor t =>
      obtain ⟨T, h1, h2⟩ := hX t (by simp [Formulas.ref, Formula.tensors])
      simp only [computeArith, h1, h2]
      rfl
    | expr k =>
      have hk : k < n + 1 := hb
      obtain ⟨o, ho⟩ := ha k (by
        unfold Formulas.ref
        simp only
        cases fs[k]? <;> simp)
      obtain ⟨f1, f2⟩ := I.fits k o ho
      have er : fs.ref (.expr k) = ((tupleFormula fs o.tuple).1, k :: (tupleFormula fs o.tuple).2) := by
        simp only [Formulas.ref, f2]
      rw [er] at ha hX ⊢
      obtain ⟨tup, d⟩ := o
      cases tup with
      | bin op l r =>
        simp only [tupleFormula, Formula.tensors, List.mem_append, List.mem_cons] at ha hX
        have e1 := ih l (f1.1.mono (by omega)) (fun m hm => ha m (by simp [hm])) (fun t ht => hX t (by simp [ht]))
        have e2 := ih r (f1.2.mono (by omega)) (fun m hm => ha m (by simp [hm])) (fun t ht => hX t (by simp [ht]))
        simp only [computeArith, ho]
        rw [e1, Outcome.ok_bind, e2, Outcome.ok_bind]
        simp only [tupleFormula, apply_value]
        rfl
      | neg x =>
        simp only [tupleFormula, Formula.tensors, List.mem_cons] at ha hX
        have e1 := ih x (RefBelow.mono (r := x) (by omega) f1) (fun m hm => ha m (by simp [hm])) hX
        simp only [computeArith, ho]
        rw [e1, Outcome.ok_bind]
        rfl

omit [Add R] [Sub R] [Mul R] [Div R] [Neg R] in
theorem strided_read_noError (T : Strided R) (idx : List Int) (m : String) : T.read idx ≠ .error m := by
  unfold Strided.read Strided.addr
  split
  · intro h; cases h
  · simp only
    split
    · rw [Outcome.ok_bind]
      split <;> intro h <;> cases h
    · intro h; cases h

theorem compute_noError (st : ArithState R) (idx : List Int) (n : Nat) (r : ArithRef R) :
    (computeArith st idx n r).isError = false := by
  have tens : ∀ T : Strided R, (T.read idx).isError = false := by
    intro T
    cases h : T.read idx with
    | error m => exact absurd h (strided_read_noError T idx m)
    | _ => rfl
  induction n generalizing r with
  | zero =>
    cases r with
    | scalar v => rfl
    | tensor t =>
      simp only [computeArith]
      split
      · exact tens _
      · rfl
    | expr k => rfl
  | succ n ih =>
    cases r with
    | scalar v => rfl
    | tensor t =>
      simp only [computeArith]
      split
      · exact tens _
      · rfl
    | expr k =>
      simp only [computeArith]
      split
      · rename_i op l r _ _
        have h1 := ih l
        have h2 := ih r
        cases e1 : computeArith st idx n l with
        | error m' => rw [e1] at h1; cases h1
        | ub m' => rfl
        | ok a =>
          rw [Outcome.ok_bind]
          cases e2 : computeArith st idx n r with
          | error m' => rw [e2] at h2; cases h2
          | ub m' => rfl
          | ok b => rfl
      · rename_i x _ _
        have h1 := ih x
        cases e1 : computeArith st idx n x with
        | error m' => rw [e1] at h1; cases h1
        | ub m' => rfl
        | ok a => rfl
      · rfl

theorem compute_dangling {st : ArithState R} {fs : Formulas R} (I : ArithInv st fs) (idx : List Int) (n : Nat)
    (r : ArithRef R) (ha : ∃ m ∈ (fs.ref r).2, ¬ Alive st m) : (computeArith st idx n r).isUb = true := by
  induction n generalizing r with
  | zero =>
    cases r with
    | expr k => rfl
    | _ => obtain ⟨m, hm, _⟩ := ha; simp [Formulas.ref] at hm
  | succ n ih =>
    cases r with
    | expr k =>
      by_cases hk : Alive st k
      · obtain ⟨o, ho⟩ := hk
        obtain ⟨f1, f2⟩ := I.fits k o ho
        have er : fs.ref (.expr k) = ((tupleFormula fs o.tuple).1, k :: (tupleFormula fs o.tuple).2) := by
          simp only [Formulas.ref, f2]
        rw [er] at ha
        obtain ⟨m, hm, hd⟩ := ha
        simp only [List.mem_cons] at hm
        rcases hm with rfl | hm
        · exact absurd ⟨o, ho⟩ hd
        obtain ⟨tup, d⟩ := o
        cases tup with
        | bin op l r =>
          simp only [tupleFormula, List.mem_append] at hm
          simp only [computeArith, ho]
          have n1 := compute_noError st idx n l
          rcases hm with hm | hm
          · have u := ih l ⟨m, hm, hd⟩
            cases e1 : computeArith st idx n l with
            | ub m' => rfl
            | error m' => rw [e1] at u; cases u
            | ok a => rw [e1] at u; cases u
          · have u := ih r ⟨m, hm, hd⟩
            cases e1 : computeArith st idx n l with
            | ub m' => rfl
            | error m' => rw [e1] at n1; cases n1
            | ok a =>
              rw [Outcome.ok_bind]
              cases e2 : computeArith st idx n r with
              | ub m' => rfl
              | error m' => rw [e2] at u; cases u
              | ok b => rw [e2] at u; cases u
        | neg x =>
          simp only [tupleFormula] at hm
          simp only [computeArith, ho]
          have u := ih x ⟨m, hm, hd⟩
          cases e1 : computeArith st idx n x with
          | ub m' => rfl
          | error m' => rw [e1] at u; cases u
          | ok a => rw [e1] at u; cases u
      · simp only [computeArith]
        split
        · rename_i h; exact absurd ⟨_, h⟩ hk
        · rename_i h; exact absurd ⟨_, h⟩ hk
        · rfl
    | _ => obtain ⟨m, hm, _⟩ := ha; simp [Formulas.ref] at hm

end
end Einsums
