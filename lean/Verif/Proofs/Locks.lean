import Verif.Spec.Locks
import Mathlib.Tactic.Ring
import Mathlib.Data.List.Induction
import Mathlib.Tactic.SplitIfs
/-
The mutexes of the objects are the lock families of the history, and the owner of a mutex is the thread that holds the family.
-/
namespace Einsums
open Model

/-- The object whose lock an operation takes or returns. -/
def lockTarget : LockOp → Option Nat
  | .lock _ o | .tryLock _ o | .unlock _ o => some o
  | _ => none

structure LockInv (F : List Nat) (A : List Bool) (log : List (LockOp × Bool)) (w : LockWorld) : Prop where
  len : w.mutex.length = F.length
  lenA : A.length = F.length
  small : ∀ f ∈ F, f < F.length
  refs : ∀ (o m : Nat), w.mutex[o]? = some (some m) ↔ (A[o]? = some true ∧ F[o]? = some m)
  own : ∀ m t, holds (fun o => F[o]? = some m) t log =
    (match w.owner m with | some (t', n) => if t' = t then (n : Int) else 0 | none => 0)
  pos : ∀ m t n, w.owner m = some (t, n) → 0 < n ∧ m < F.length
  old : ∀ p ∈ log, ∀ o, lockTarget p.1 = some o → o < F.length

theorem holdChange_congr (S S' : Nat → Prop) [DecidablePred S] [DecidablePred S'] (t : Nat) (p : LockOp × Bool)
    (h : ∀ o, lockTarget p.1 = some o → (S o ↔ S' o)) : holdChange S t p = holdChange S' t p := by
  obtain ⟨op, b⟩ := p
  cases op <;> cases b <;> simp only [holdChange] <;> (simp only [lockTarget, Option.some.injEq, forall_eq'] at h; simp only [h])

theorem lockHolds_congr (S S' : Nat → Prop) [DecidablePred S] [DecidablePred S'] (t : Nat) (log : List (LockOp × Bool))
    (h : ∀ p ∈ log, ∀ o, lockTarget p.1 = some o → (S o ↔ S' o)) : holds S t log = holds S' t log := by
  unfold holds
  congr 1
  apply List.map_congr_left
  intro p hp
  exact holdChange_congr S S' t p (h p hp)

theorem lockHolds_snoc (S : Nat → Prop) [DecidablePred S] (t : Nat) (log : List (LockOp × Bool)) (p : LockOp × Bool) :
    holds S t (log ++ [p]) = holds S t log + holdChange S t p := by
  simp [holds]

theorem holdChange_none (S : Nat → Prop) [DecidablePred S] (t : Nat) (op : LockOp) (b : Bool) (h : lockTarget op = none) :
    holdChange S t (op, b) = 0 := by
  cases op <;> simp_all [holdChange, lockTarget]

theorem lockInv_grow {F A log w} (h : LockInv F A log w) (op : LockOp) (b : Bool) (hop : lockTarget op = none) (f : Nat)
    (hf : f ≤ F.length) :
    LockInv (F ++ [f]) (A ++ [true]) (log ++ [(op, b)]) { w with mutex := w.mutex ++ [some f] } where
  len := by simp [h.len]
  lenA := by simp [h.lenA]
  small := by
    intro g hg
    simp only [List.mem_append, List.mem_singleton, List.length_append, List.length_singleton] at hg ⊢
    rcases hg with hg | rfl
    · have := h.small g hg; omega
    · omega
  refs := by
    intro o m
    rcases Nat.lt_trichotomy o F.length with ho | ho | ho
    · rw [List.getElem?_append_left (by rw [h.len]; omega), List.getElem?_append_left (by rw [h.lenA]; omega),
        List.getElem?_append_left ho]
      exact h.refs o m
    · subst ho
      rw [List.getElem?_append_right (by rw [h.len]), List.getElem?_append_right (by rw [h.lenA]),
        List.getElem?_append_right le_rfl]
      simp [h.len, h.lenA]
    · rw [List.getElem?_eq_none (by simp [h.len]; omega), List.getElem?_eq_none (by simp [h.lenA]; omega)]
      simp
  own := by
    intro m t
    rw [lockHolds_snoc, holdChange_none _ _ _ _ hop, add_zero]
    have := h.own m t
    rw [← this]
    apply lockHolds_congr
    intro p hp o ho
    have := h.old p hp o ho
    rw [List.getElem?_append_left this]
  pos := by
    intro m t n hm
    have := h.pos m t n hm
    simp only [List.length_append, List.length_singleton]
    omega
  old := by
    intro p hp o ho
    simp only [List.mem_append, List.mem_singleton, List.length_append, List.length_singleton] at hp ⊢
    rcases hp with hp | rfl
    · have := h.old p hp o ho; omega
    · rw [hop] at ho; cases ho

theorem mutexOf_ok {w : LockWorld} {o m : Nat} (h : w.mutexOf o = .ok m) : w.mutex[o]? = some (some m) := by
  unfold LockWorld.mutexOf at h
  split at h
  · next heq => cases h; exact heq
  · cases h

theorem mutexOf_eq {F A log w} (h : LockInv F A log w) {o : Nat} (ha : A[o]? = some true) :
    ∃ m, F[o]? = some m ∧ w.mutexOf o = .ok m := by
  have ho : o < F.length := by
    rw [← h.lenA]; by_contra hc
    rw [List.getElem?_eq_none (by omega)] at ha; cases ha
  refine ⟨F[o], List.getElem?_eq_getElem ho, ?_⟩
  have := (h.refs o F[o]).2 ⟨ha, List.getElem?_eq_getElem ho⟩
  unfold LockWorld.mutexOf
  rw [this]

theorem lockInv_keep {F A log w} (h : LockInv F A log w) (op : LockOp) (b : Bool) (hop : ∀ (F : List Nat) (t m : Nat), holdChange (fun o => F[o]? = some m) t (op, b) = 0)
    (ht : ∀ o, lockTarget op = some o → o < F.length) : LockInv F A (log ++ [(op, b)]) w where
  len := h.len
  lenA := h.lenA
  small := h.small
  refs := h.refs
  own := by
    intro m t
    rw [lockHolds_snoc, hop, add_zero, h.own]
  pos := h.pos
  old := by
    intro p hp o ho
    simp only [List.mem_append, List.mem_singleton] at hp
    rcases hp with hp | rfl
    · exact h.old p hp o ho
    · exact ht o ho

theorem mutexOf_lt {F A log w} (h : LockInv F A log w) {o m : Nat} (hm : w.mutexOf o = .ok m) :
    o < F.length ∧ F[o]? = some m ∧ m < F.length := by
  have h1 := (h.refs o m).1 (mutexOf_ok hm)
  have ho : o < F.length := by
    by_contra hc
    have h2 := h1.2
    rw [List.getElem?_eq_none (by omega)] at h2; cases h2
  exact ⟨ho, h1.2, h.small m (List.mem_of_getElem? h1.2)⟩

/-- A lock that is taken by `t`. -/
theorem lockInv_acquire {F A log w w'} (h : LockInv F A log w) {t o m : Nat} (hm : w.mutexOf o = .ok m)
    (ha : w.acquire t m = some w') (op : LockOp) (hop : op = .lock t o ∨ op = .tryLock t o) :
    LockInv F A (log ++ [(op, true)]) w' := by
  obtain ⟨ho, hF, hmF⟩ := mutexOf_lt h hm
  have hch : ∀ m' t', holdChange (fun x => F[x]? = some m') t' (op, true) = if t = t' ∧ m = m' then 1 else 0 := by
    intro m' t'
    rcases hop with rfl | rfl <;> simp [holdChange, hF]
  have htar : lockTarget op = some o := by rcases hop with rfl | rfl <;> rfl
  have hw : w'.mutex = w.mutex ∧ ∃ n, w'.owner = (fun x => if x = m then some (t, n + 1) else w.owner x) ∧
      (match w.owner m with | some (t', n') => t' = t ∧ n' = n | none => n = 0) := by
    unfold LockWorld.acquire at ha
    split at ha
    · next heq => cases ha; exact ⟨rfl, 0, rfl, by rw [heq]⟩
    · next t' n heq =>
        split at ha
        · next htt => cases ha; exact ⟨rfl, n, rfl, by rw [heq]; exact ⟨htt, rfl⟩⟩
        · cases ha
  obtain ⟨hmu, n, hown, hprev⟩ := hw
  refine ⟨by rw [hmu, h.len], h.lenA, h.small, by rw [hmu]; exact h.refs, ?_, ?_, ?_⟩
  · intro m' t'
    rw [lockHolds_snoc, hch, h.own, hown]
    by_cases hmm : m' = m
    · subst hmm
      simp only [if_true]
      cases hw : w.owner m' with
      | none =>
          rw [hw] at hprev
          simp only at hprev
          subst hprev
          simp
      | some p =>
          obtain ⟨t1, n1⟩ := p
          rw [hw] at hprev
          simp only at hprev
          obtain ⟨rfl, rfl⟩ := hprev
          by_cases htt : t1 = t'
          · simp [htt]
          · simp [htt]
    · have : ¬ (m = m') := fun e => hmm e.symm
      simp [hmm, this]
  · intro m' t' n' hm'
    rw [hown] at hm'
    by_cases hmm : m' = m
    · subst hmm
      simp only [if_true, Option.some.injEq, Prod.mk.injEq] at hm'
      exact ⟨by omega, hmF⟩
    · simp only [if_neg hmm] at hm'
      exact h.pos m' t' n' hm'
  · intro p hp o' ho'
    simp only [List.mem_append, List.mem_singleton] at hp
    rcases hp with hp | rfl
    · exact h.old p hp o' ho'
    · rw [htar] at ho'; cases ho'; exact ho

theorem lockInv_release {F A log w w'} (h : LockInv F A log w) {t o m : Nat} (hm : w.mutexOf o = .ok m)
    (ha : w.release t m = .ok w') : LockInv F A (log ++ [(.unlock t o, true)]) w' := by
  obtain ⟨ho, hF, hmF⟩ := mutexOf_lt h hm
  have hch : ∀ m' t', holdChange (fun x => F[x]? = some m') t' (.unlock t o, true) = if t = t' ∧ m = m' then -1 else 0 := by
    intro m' t'
    simp [holdChange, hF]
  have hw : w'.mutex = w.mutex ∧ ∃ n, w.owner m = some (t, n) ∧
      w'.owner = (fun x => if x = m then (if n ≤ 1 then none else some (t, n - 1)) else w.owner x) := by
    unfold LockWorld.release at ha
    split at ha
    · next t' n heq =>
        split at ha
        · next htt => cases ha; subst htt; exact ⟨rfl, n, heq, rfl⟩
        · cases ha
    · cases ha
  obtain ⟨hmu, n, hprev, hown⟩ := hw
  have hn := (h.pos m t n hprev).1
  refine ⟨by rw [hmu, h.len], h.lenA, h.small, by rw [hmu]; exact h.refs, ?_, ?_, ?_⟩
  · intro m' t'
    rw [lockHolds_snoc, hch, h.own, hown]
    by_cases hmm : m' = m
    · subst hmm
      simp only [if_true, hprev, and_true]
      by_cases htt : t = t'
      · by_cases h1 : n ≤ 1
        · have : n = 1 := by omega
          simp [htt, this]
        · simp only [htt, if_true, if_neg h1]
          have : ((n - 1 : Nat) : Int) = n - 1 := by omega
          rw [this]; rfl
      · by_cases h1 : n ≤ 1
        · simp [htt, h1]
        · simp [htt, h1]
    · have : ¬ (m = m') := fun e => hmm e.symm
      simp [hmm, this]
  · intro m' t' n' hm'
    rw [hown] at hm'
    by_cases hmm : m' = m
    · subst hmm
      by_cases h1 : n ≤ 1
      · simp [h1] at hm'
      · simp only [if_true, if_neg h1, Option.some.injEq, Prod.mk.injEq] at hm'
        exact ⟨by omega, hmF⟩
    · simp only [if_neg hmm] at hm'
      exact h.pos m' t' n' hm'
  · intro p hp o' ho'
    simp only [List.mem_append, List.mem_singleton] at hp
    rcases hp with hp | rfl
    · exact h.old p hp o' ho'
    · cases ho'; exact ho

theorem lockInv_destroy {F A log w w'} (h : LockInv F A log w) {o m : Nat} (ha : w.destroy o m = .ok w') :
    LockInv F (A.set o false) (log ++ [(.destroy o, true)]) w' := by
  have hw : w' = { w with mutex := w.mutex.set o none } := by
    unfold LockWorld.destroy at ha
    simp only at ha
    split at ha
    · cases ha
    · cases ha; rfl
  subst hw
  refine ⟨by simp [h.len], by simp [h.lenA], h.small, ?_, ?_, h.pos, ?_⟩
  · intro o' m'
    by_cases hoo : o = o'
    · subst hoo
      simp only [List.getElem?_set_self']
      constructor
      · intro hx
        cases hc : w.mutex[o]? <;> simp [hc] at hx
      · intro hx
        cases hc : A[o]? <;> simp [hc] at hx
    · rw [List.getElem?_set_ne hoo, List.getElem?_set_ne hoo]
      exact h.refs o' m'
  · intro m' t'
    rw [lockHolds_snoc, holdChange_none _ _ _ _ rfl, add_zero, h.own]
  · intro p hp o' ho'
    simp only [List.mem_append, List.mem_singleton] at hp
    rcases hp with hp | rfl
    · exact h.old p hp o' ho'
    · cases ho'

theorem lockInv_step {F A log w w' b} (h : LockInv F A log w) (op : LockOp) (hs : lockStep w op = .ok (w', b)) :
    LockInv (familyStep F op) (aliveStep A op) (log ++ [(op, b)]) w' := by
  have hfresh : ∀ op, lockTarget op = none → LockInv (F ++ [F.length]) (A ++ [true]) (log ++ [(op, true)]) w.fresh := by
    intro op hop
    have := lockInv_grow h op true hop F.length le_rfl
    unfold LockWorld.fresh
    rwa [h.len]
  have hind : ∀ o (op : LockOp), lockTarget op = none →
      (do let _ ← w.mutexOf o; return (w.fresh, true) : Outcome (LockWorld × Bool)) = .ok (w', b) →
      LockInv (F ++ [F.length]) (A ++ [true]) (log ++ [(op, b)]) w' := by
    intro o op hop hs
    cases hm : w.mutexOf o with
    | ok m => rw [hm] at hs; cases hs; exact hfresh op hop
    | error e => rw [hm] at hs; cases hs
    | ub e => rw [hm] at hs; cases hs
  have htake : ∀ t o (op : LockOp), (op = .lock t o ∨ op = .tryLock t o) →
      (do let m ← w.mutexOf o
          match w.acquire t m with
          | some w => return (w, true)
          | none => return (w, false) : Outcome (LockWorld × Bool)) = .ok (w', b) →
      LockInv F A (log ++ [(op, b)]) w' := by
    intro t o op hop hs
    cases hm : w.mutexOf o with
    | error e => rw [hm] at hs; cases hs
    | ub e => rw [hm] at hs; cases hs
    | ok m =>
        rw [hm, Outcome.ok_bind] at hs
        cases ha : w.acquire t m with
        | some w1 =>
            rw [ha] at hs
            cases hs
            exact lockInv_acquire h hm ha op hop
        | none =>
            rw [ha] at hs
            cases hs
            apply lockInv_keep h op false
            · intro F t' m'
              rcases hop with rfl | rfl <;> rfl
            · intro o' ho'
              rcases hop with rfl | rfl <;> (cases ho'; exact (mutexOf_lt h hm).1)
  cases op with
  | tensor => cases hs; exact hfresh _ rfl
  | viewOf o =>
      simp only [lockStep] at hs
      cases hm : w.mutexOf o with
      | ok m =>
          rw [hm] at hs
          cases hs
          have hl := mutexOf_lt h hm
          have := lockInv_grow h (.viewOf o) true rfl m (by omega)
          simp only [familyStep, aliveStep]
          rw [List.getD_eq_getElem?_getD, hl.2.1]
          exact this
      | error e => rw [hm] at hs; cases hs
      | ub e => rw [hm] at hs; cases hs
  | copyOfView o => exact hind o _ rfl hs
  | pointerView o => exact hind o _ rfl hs
  | diskView o => exact hind o _ rfl hs
  | assign dst src =>
      simp only [lockStep] at hs
      cases hm : w.mutexOf dst with
      | error e => rw [hm] at hs; cases hs
      | ub e => rw [hm] at hs; cases hs
      | ok m =>
          cases hm' : w.mutexOf src with
          | error e => rw [hm, hm'] at hs; cases hs
          | ub e => rw [hm, hm'] at hs; cases hs
          | ok m' =>
              rw [hm, hm'] at hs
              cases hs
              exact lockInv_keep h _ _ (fun _ _ _ => rfl) (fun o ho => by cases ho)
  | destroy o =>
      simp only [lockStep] at hs
      cases hm : w.mutexOf o with
      | error e => rw [hm] at hs; cases hs
      | ub e => rw [hm] at hs; cases hs
      | ok m =>
          rw [hm, Outcome.ok_bind] at hs
          cases hd : w.destroy o m with
          | error e => rw [hd] at hs; cases hs
          | ub e => rw [hd] at hs; cases hs
          | ok w1 =>
              rw [hd] at hs
              cases hs
              exact lockInv_destroy h hd
  | lock t o => exact htake t o _ (Or.inl rfl) hs
  | tryLock t o => exact htake t o _ (Or.inr rfl) hs
  | unlock t o =>
      simp only [lockStep] at hs
      cases hm : w.mutexOf o with
      | error e => rw [hm] at hs; cases hs
      | ub e => rw [hm] at hs; cases hs
      | ok m =>
          rw [hm, Outcome.ok_bind] at hs
          cases hd : w.release t m with
          | error e => rw [hd] at hs; cases hs
          | ub e => rw [hd] at hs; cases hs
          | ok w1 =>
              rw [hd] at hs
              cases hs
              exact lockInv_release h hm hd

theorem lockRun_snoc (ops : List LockOp) (op : LockOp) :
    lockRun (ops ++ [op]) = lockRun ops >>= fun p => lockStep p.1 op >>= fun q => .ok (q.1, p.2 ++ [q.2]) := by
  unfold lockRun
  rw [List.foldlM_append]
  congr 1
  funext p
  rw [List.foldlM_cons]
  simp only [List.foldlM_nil]
  cases lockStep p.1 op <;> rfl

theorem lockRun_step {ops w rs op w' b} (h : lockRun ops = .ok (w, rs)) (hs : lockStep w op = .ok (w', b)) :
    lockRun (ops ++ [op]) = .ok (w', rs ++ [b]) := by
  rw [lockRun_snoc, h, Outcome.ok_bind, hs, Outcome.ok_bind]

theorem lockRun_inv (ops : List LockOp) : ∀ w rs, lockRun ops = .ok (w, rs) →
    rs.length = ops.length ∧ LockInv (families ops) (ops.foldl aliveStep []) (ops.zip rs) w := by
  induction ops using List.reverseRecOn with
  | nil =>
      intro w rs h
      cases h
      exact ⟨rfl, rfl, rfl, by simp [families], by simp [families], by simp [holds], by simp, by simp⟩
  | append_singleton ops op ih =>
      intro w rs h
      rw [lockRun_snoc] at h
      cases h1 : lockRun ops with
      | error e => rw [h1] at h; cases h
      | ub e => rw [h1] at h; cases h
      | ok p =>
          obtain ⟨w1, rs1⟩ := p
          rw [h1, Outcome.ok_bind] at h
          cases h2 : lockStep w1 op with
          | error e => rw [h2] at h; cases h
          | ub e => rw [h2] at h; cases h
          | ok q =>
              obtain ⟨w2, b⟩ := q
              rw [h2, Outcome.ok_bind] at h
              cases h
              obtain ⟨hl, hi⟩ := ih w1 rs1 h1
              refine ⟨by simp [hl], ?_⟩
              have := lockInv_step hi op h2
              rw [List.zip_append hl.symm]
              unfold families at this ⊢
              rw [List.foldl_append, List.foldl_append]
              exact this

end Einsums
