import Verif.Proofs.Locks
/-
C157: the lock of a tensor is also that of its views.
-/
namespace Einsums.Props
open Einsums Einsums.Model

theorem families_plain (ops : List LockOp) (h : PlainViews ops) : families ops = storages ops := by
  have : ∀ s, ops.foldl familyStep s = ops.foldl storageStep s := by
    induction ops with
    | nil => intro s; rfl
    | cons op ops ih =>
        intro s
        simp only [List.foldl_cons]
        rw [ih (fun x hx => h x (List.mem_cons_of_mem _ hx))]
        have := h op List.mem_cons_self
        cases op <;> first | rfl | exact this.elim
  exact this []

theorem holdsFamily_plain (ops : List LockOp) (rs : List Bool) (o t : Nat) (h : PlainViews ops) :
    holdsFamily ops rs o t = holdsElements ops rs o t := by
  unfold holdsFamily holdsElements
  rw [families_plain ops h]

theorem family_own {ops w rs} (h : lockRun ops = .ok (w, rs)) {o m : Nat} (hm : (families ops)[o]? = some m) (t : Nat) :
    holdsFamily ops rs o t = (match w.owner m with | some (t', n) => if t' = t then (n : Int) else 0 | none => 0) := by
  refine Eq.trans ?_ ((lockRun_inv ops w rs h).2.own m t)
  unfold holdsFamily
  rw [hm]

/-- C157: `lock` and `try_lock` succeed exactly if no other thread holds the tensor or one of its views.  For every history of
creating tensors and views, destroying and assigning them, locking and unlocking, by any threads; otherwise `try_lock` returns
`false`, and `lock` waits.  They never wait for a thread that holds an unrelated tensor. -/
theorem C157_lock {ops w rs} (h : lockRun ops = .ok (w, rs)) {o : Nat} (ho : Alive ops o) (t : Nat) (op : LockOp)
    (hop : op = .lock t o ∨ op = .tryLock t o) :
    ∃ w' b, lockRun (ops ++ [op]) = .ok (w', rs ++ [b]) ∧ (b = true ↔ ∀ t', t' ≠ t → holdsFamily ops rs o t' = 0) := by
  have hi := (lockRun_inv ops w rs h).2
  obtain ⟨m, hm, hmo⟩ := mutexOf_eq hi ho
  have hkey : lockStep w op = (match w.acquire t m with | some w' => .ok (w', true) | none => .ok (w, false)) := by
    rcases hop with rfl | rfl <;> simp only [lockStep, hmo, Outcome.ok_bind] <;> cases w.acquire t m <;> rfl
  have hown := fun t' => family_own h hm t'
  unfold LockWorld.acquire at hkey
  cases hw : w.owner m with
  | none =>
      rw [hw] at hkey
      refine ⟨_, true, lockRun_step h hkey, ?_⟩
      simp only [true_iff]
      intro t' _
      rw [hown, hw]
  | some p =>
      obtain ⟨t1, n⟩ := p
      have hn := (hi.pos m t1 n hw).1
      rw [hw] at hkey
      by_cases htt : t1 = t
      · simp only [htt, if_true] at hkey
        refine ⟨_, true, lockRun_step h hkey, ?_⟩
        simp only [true_iff]
        intro t' ht'
        rw [hown, hw]
        simp only
        rw [if_neg (fun e => ht' (e.symm.trans htt))]
      · simp only [if_neg htt] at hkey
        refine ⟨_, false, lockRun_step h hkey, ?_⟩
        simp only [Bool.false_eq_true, false_iff]
        intro hall
        have := hall t1 htt
        rw [hown, hw] at this
        simp at this
        omega

/-- C157: at most one thread at a time holds a tensor and its views, and no thread returns a lock it does not have. -/
theorem C157_exclusive {ops w rs} (h : lockRun ops = .ok (w, rs)) {o : Nat} (ho : o < (families ops).length) :
    (∀ t, 0 ≤ holdsFamily ops rs o t) ∧ ∀ t t', t ≠ t' → 0 < holdsFamily ops rs o t → holdsFamily ops rs o t' = 0 := by
  have hi := (lockRun_inv ops w rs h).2
  have hm := List.getElem?_eq_getElem ho
  have hown := fun t' => family_own h hm t'
  constructor
  · intro t
    rw [hown]
    cases w.owner (families ops)[o] with
    | none => simp
    | some p => simp only; split_ifs <;> omega
  · intro t t' htt
    rw [hown, hown]
    cases w.owner (families ops)[o] with
    | none => simp
    | some p =>
        simp only
        intro hpos
        have : p.1 = t := by by_contra hc; rw [if_neg hc] at hpos; omega
        rw [if_neg (fun e => htt (this.symm.trans e))]

/-- C157: as long as views are made by naming a tensor or a view, objects that show the same elements exclude each other: while
one thread holds one of them no other thread holds any of them. -/
theorem C157_elements_partial {ops w rs} (h : lockRun ops = .ok (w, rs)) (hp : PlainViews ops) {o : Nat}
    (ho : o < (storages ops).length) {t t' : Nat} (ht : t ≠ t') (hpos : 0 < holdsElements ops rs o t) :
    holdsElements ops rs o t' = 0 := by
  rw [← holdsFamily_plain ops rs o _ hp] at hpos ⊢
  rw [← families_plain ops hp] at ho
  exact (C157_exclusive h ho).2 t t' ht hpos

/-- C157: `unlock` is defined exactly if the thread holds the tensor or one of its views (perhaps by another object of the
family). -/
theorem C157_unlock {ops w rs} (h : lockRun ops = .ok (w, rs)) {o : Nat} (ho : Alive ops o) (t : Nat) :
    if 0 < holdsFamily ops rs o t then ∃ w', lockRun (ops ++ [.unlock t o]) = .ok (w', rs ++ [true])
    else (lockRun (ops ++ [.unlock t o])).isUb = true := by
  have hi := (lockRun_inv ops w rs h).2
  obtain ⟨m, hm, hmo⟩ := mutexOf_eq hi ho
  rw [family_own h hm]
  have hstep : lockStep w (.unlock t o) = (w.release t m >>= fun w' => .ok (w', true)) := by
    simp only [lockStep, hmo, Outcome.ok_bind]; rfl
  have hub : ∀ s, w.release t m = .ub s → (lockRun (ops ++ [.unlock t o])).isUb = true := by
    intro s hs
    rw [lockRun_snoc, h, Outcome.ok_bind, hstep, hs]
    rfl
  unfold LockWorld.release at hstep hub
  cases hw : w.owner m with
  | none =>
      rw [hw] at hub
      simpa using hub _ rfl
  | some p =>
      obtain ⟨t1, n⟩ := p
      have hn := (hi.pos m t1 n hw).1
      rw [hw] at hstep hub
      by_cases htt : t1 = t
      · simp only [htt, if_true] at hstep ⊢
        rw [if_pos (by omega)]
        exact ⟨_, lockRun_step h hstep⟩
      · simp only [if_neg htt] at hub ⊢
        simpa using hub _ rfl

/-- C157: a tensor may be destroyed before its views, locked or not: the lock lives on.  Only the last object of a family must not be
destroyed while a thread holds the family. -/
theorem C157_destroy {ops w rs} (h : lockRun ops = .ok (w, rs)) {o : Nat} (ho : Alive ops o) :
    ((∃ o', o' ≠ o ∧ Alive ops o' ∧ (families ops)[o']? = (families ops)[o]?) ∨ (∀ t, holdsFamily ops rs o t = 0) →
      ∃ w', lockRun (ops ++ [.destroy o]) = .ok (w', rs ++ [true])) ∧
    (¬ (∃ o', o' ≠ o ∧ Alive ops o' ∧ (families ops)[o']? = (families ops)[o]?) → ∀ t, 0 < holdsFamily ops rs o t →
      (lockRun (ops ++ [.destroy o])).isUb = true) := by
  have hi := (lockRun_inv ops w rs h).2
  obtain ⟨m, hm, hmo⟩ := mutexOf_eq hi ho
  have hstep : lockStep w (.destroy o) = (w.destroy o m >>= fun w' => .ok (w', true)) := by
    simp only [lockStep, hmo, Outcome.ok_bind]; rfl
  have hown := fun t' => family_own h hm t'
  have hmem : some m ∈ w.mutex.set o none ↔
      ∃ o', o' ≠ o ∧ Alive ops o' ∧ (families ops)[o']? = (families ops)[o]? := by
    rw [List.mem_iff_getElem?]
    constructor
    · rintro ⟨o', ho'⟩
      by_cases hoo : o = o'
      · subst hoo
        rw [List.getElem?_set_self'] at ho'
        cases hc : w.mutex[o]? <;> simp [hc] at ho'
      · rw [List.getElem?_set_ne hoo] at ho'
        have := (hi.refs o' m).1 ho'
        exact ⟨o', fun e => hoo e.symm, this.1, this.2.trans hm.symm⟩
    · rintro ⟨o', hoo, ha, hf⟩
      refine ⟨o', ?_⟩
      rw [List.getElem?_set_ne (fun e => hoo e.symm)]
      exact (hi.refs o' m).2 ⟨ha, hf.trans hm⟩
  constructor
  · intro hc
    have hd : w.destroy o m = .ok { w with mutex := w.mutex.set o none } := by
      unfold LockWorld.destroy
      simp only
      rw [if_neg]
      intro hx
      simp only [Bool.and_eq_true, Bool.not_eq_true', List.contains_eq_mem, decide_eq_false_iff_not] at hx
      rcases hc with hc | hc
      · exact hx.1 (hmem.2 hc)
      · cases hw : w.owner m with
        | none => rw [hw] at hx; simp at hx
        | some p =>
            have := hown p.1
            rw [hc, hw] at this
            have hn := (hi.pos m p.1 p.2 hw).1
            simp at this
            omega
    rw [hd] at hstep
    exact ⟨_, lockRun_step h hstep⟩
  · intro hc t ht
    have hd : (w.destroy o m).isUb = true := by
      unfold LockWorld.destroy
      simp only
      rw [if_pos]
      · rfl
      · simp only [Bool.and_eq_true, Bool.not_eq_true', List.contains_eq_mem, decide_eq_false_iff_not]
        refine ⟨fun hx => hc (hmem.1 hx), ?_⟩
        rw [hown] at ht
        cases hw : w.owner m with
        | none => rw [hw] at ht; simp at ht
        | some p => rfl
    rw [lockRun_snoc, h, Outcome.ok_bind, hstep]
    cases hx : w.destroy o m with
    | ok _ => rw [hx] at hd; cases hd
    | error _ => rw [hx] at hd; cases hd
    | ub _ => rfl

theorem storages_length (ops : List LockOp) : (storages ops).length = (families ops).length := by
  have : ∀ (s s' : List Nat), s.length = s'.length → (ops.foldl storageStep s).length = (ops.foldl familyStep s').length := by
    induction ops with
    | nil => intro s s' h; exact h
    | cons op ops ih =>
        intro s s' h
        simp only [List.foldl_cons]
        apply ih
        cases op <;> simp [storageStep, familyStep, h]
  exact this [] [] rfl

/-- C157 is false of copies of views, views made of pointers and views of disk tensors, for every history: although they show
the elements of `o`, any thread can lock them at once, whoever holds `o`. -/
theorem C157_copies_refuted {ops w rs} (h : lockRun ops = .ok (w, rs)) {o : Nat} (ho : Alive ops o) (t : Nat) (op : LockOp)
    (hop : op = .copyOfView o ∨ op = .pointerView o ∨ op = .diskView o) :
    (storages (ops ++ [op]))[(storages ops).length]? = (storages (ops ++ [op]))[o]? ∧
    ∃ w', lockRun (ops ++ [op, .lock t (storages ops).length]) = .ok (w', rs ++ [true, true]) := by
  have hi := (lockRun_inv ops w rs h).2
  obtain ⟨m, hm, hmo⟩ := mutexOf_eq hi ho
  have hlo : o < (storages ops).length := by
    rw [storages_length]; exact (mutexOf_lt hi hmo).1
  constructor
  · have : storages (ops ++ [op]) = storages ops ++ [(storages ops)[o]] := by
      unfold storages
      rw [List.foldl_append]
      have hg : (storages ops).getD o (storages ops).length = (storages ops)[o] := by
        rw [List.getD_eq_getElem?_getD, List.getElem?_eq_getElem hlo]; rfl
      rcases hop with rfl | rfl | rfl <;> exact congrArg (fun x => storages ops ++ [x]) hg
    rw [this, List.getElem?_append_right le_rfl, List.getElem?_append_left hlo, List.getElem?_eq_getElem hlo]
    simp
  · have h1 : lockStep w op = .ok (w.fresh, true) := by
      rcases hop with rfl | rfl | rfl <;> (simp only [lockStep, hmo, Outcome.ok_bind]; rfl)
    have h2 := lockRun_step h h1
    have hl : (storages ops).length = w.mutex.length := by rw [storages_length, hi.len]
    have hnone : w.owner w.mutex.length = none := by
      cases hw : w.owner w.mutex.length with
      | none => rfl
      | some p =>
          have := (hi.pos _ p.1 p.2 hw).2
          rw [hi.len] at this
          omega
    have h3 : lockStep w.fresh (.lock t (storages ops).length) =
        .ok ({ w.fresh with owner := fun x => if x = w.mutex.length then some (t, 1) else w.owner x }, true) := by
      have hmo' : w.fresh.mutexOf (storages ops).length = .ok w.mutex.length := by
        simp [LockWorld.mutexOf, LockWorld.fresh, hl]
      have hac : w.fresh.acquire t w.mutex.length =
          some { w.fresh with owner := fun x => if x = w.mutex.length then some (t, 1) else w.owner x } := by
        unfold LockWorld.acquire
        have : w.fresh.owner w.mutex.length = none := hnone
        rw [this]
        rfl
      simp only [lockStep, hmo', Outcome.ok_bind, hac]
      rfl
    have h4 := lockRun_step h2 h3
    rw [List.append_assoc, List.append_assoc] at h4
    exact ⟨_, h4⟩

/-- What is left of a history. -/
def runFrom (p : LockWorld × List Bool) (ops : List LockOp) : Outcome (LockWorld × List Bool) :=
  ops.foldlM (fun (p : LockWorld × List Bool) op => do
    let (w, b) ← lockStep p.1 op
    return (w, p.2 ++ [b])) p

theorem runFrom_cons (p : LockWorld × List Bool) (op : LockOp) (ops : List LockOp) :
    runFrom p (op :: ops) = lockStep p.1 op >>= fun q => runFrom (q.1, p.2 ++ [q.2]) ops := by
  unfold runFrom
  rw [List.foldlM_cons]
  cases lockStep p.1 op <;> rfl

/-- The mutex `m` is owned, and only by the object `b`. -/
def OnlyLocked (w : LockWorld) (b m : Nat) : Prop :=
  w.mutex[b]? = some (some m) ∧ (∀ o, o ≠ b → w.mutex[o]? ≠ some (some m)) ∧ (w.owner m).isSome = true ∧ m < w.mutex.length

theorem destroys_ub (os : List Nat) (b m : Nat) (hb : b ∈ os) (rest : List LockOp) : ∀ p : LockWorld × List Bool,
    OnlyLocked p.1 b m → (runFrom p (os.map LockOp.destroy ++ rest)).isUb = true := by
  induction os with
  | nil => cases hb
  | cons o os ih =>
      rintro ⟨w, rs⟩ ⟨h1, h2, h3, h4⟩
      rw [List.map_cons, List.cons_append, runFrom_cons]
      cases hm : w.mutexOf o with
      | error e => unfold LockWorld.mutexOf at hm; split at hm <;> cases hm
      | ub e => simp only [lockStep, hm]; rfl
      | ok m' =>
          simp only [lockStep, hm, Outcome.ok_bind]
          by_cases hob : o = b
          · subst hob
            have hmm : m' = m := by
              have := mutexOf_ok hm
              rw [h1] at this
              cases this; rfl
            subst hmm
            have hd : w.destroy o m' = .ub "destruction of a locked mutex" := by
              unfold LockWorld.destroy
              simp only
              rw [if_pos]
              simp only [Bool.and_eq_true, Bool.not_eq_true', List.contains_eq_mem, decide_eq_false_iff_not]
              refine ⟨?_, h3⟩
              rw [List.mem_iff_getElem?]
              rintro ⟨o', ho'⟩
              by_cases hoo : o = o'
              · subst hoo
                rw [List.getElem?_set_self'] at ho'
                cases hc : w.mutex[o]? <;> simp [hc] at ho'
              · rw [List.getElem?_set_ne hoo] at ho'
                exact h2 o' (fun e => hoo e.symm) ho'
            rw [hd]
            rfl
          · cases hd : w.destroy o m' with
            | error e => unfold LockWorld.destroy at hd; simp only at hd; split at hd <;> cases hd
            | ub e => rfl
            | ok w' =>
                have hw : w' = { w with mutex := w.mutex.set o none } := by
                  unfold LockWorld.destroy at hd
                  simp only at hd
                  split at hd
                  · cases hd
                  · cases hd; rfl
                have hb' : b ∈ os := by
                  rcases List.mem_cons.1 hb with rfl | hb
                  · exact absurd rfl hob
                  · exact hb
                rw [Outcome.ok_bind]
                apply ih hb'
                subst hw
                refine ⟨?_, ?_, h3, by simpa using h4⟩
                · change (w.mutex.set o none)[b]? = _
                  rw [List.getElem?_set_ne hob]; exact h1
                · intro o' ho' hc
                  change (w.mutex.set o none)[o']? = _ at hc
                  by_cases hoo : o = o'
                  · subst hoo
                    rw [List.getElem?_set_self'] at hc
                    cases hx : w.mutex[o]? <;> simp [hx] at hc
                  · rw [List.getElem?_set_ne hoo] at hc
                    exact h2 o' ho' hc

theorem copies_ub (os : List Nat) (b m : Nat) (rest : List LockOp)
    (hrest : ∀ p : LockWorld × List Bool, OnlyLocked p.1 b m → (runFrom p rest).isUb = true) : ∀ p : LockWorld × List Bool,
    OnlyLocked p.1 b m → (runFrom p (os.map (fun _ => LockOp.tensor) ++ rest)).isUb = true := by
  induction os with
  | nil => exact hrest
  | cons o os ih =>
      rintro ⟨w, rs⟩ ⟨h1, h2, h3, h4⟩
      rw [List.map_cons, List.cons_append, runFrom_cons]
      simp only [lockStep, Outcome.ok_bind]
      apply ih
      have hb : b < w.mutex.length := by
        by_contra hc
        rw [List.getElem?_eq_none (by simpa using hc)] at h1; cases h1
      refine ⟨?_, ?_, h3, by simp [LockWorld.fresh]; exact Nat.lt_succ_of_lt h4⟩
      · change (w.mutex ++ [some w.mutex.length])[b]? = _
        rw [List.getElem?_append_left hb]; exact h1
      · intro o' ho' hc
        change (w.mutex ++ [some w.mutex.length])[o']? = _ at hc
        rcases Nat.lt_trichotomy o' w.mutex.length with hl | hl | hl
        · rw [List.getElem?_append_left hl] at hc
          exact h2 o' ho' hc
        · subst hl
          rw [List.getElem?_append_right le_rfl] at hc
          simp at hc
          change m < w.mutex.length at h4
          omega
        · rw [List.getElem?_eq_none (by simp; omega)] at hc
          cases hc

/-- C157 is false of the blocks of a block tensor: `push_block` while a thread holds one of the blocks is undefined whenever the vector
of blocks grows, because the blocks are copied and the locked mutex is destroyed. -/
theorem C157_push_block_refuted {ops w rs} (h : lockRun ops = .ok (w, rs)) (os : List Nat) {b : Nat} (hb : b ∈ os)
    (ha : Alive ops b) (hone : ∀ o, Alive ops o → (families ops)[o]? = (families ops)[b]? → o = b) {t : Nat}
    (ht : 0 < holdsFamily ops rs b t) : (lockRun (ops ++ growBlocks os)).isUb = true := by
  have hi := (lockRun_inv ops w rs h).2
  obtain ⟨m, hm, hmo⟩ := mutexOf_eq hi ha
  have : lockRun (ops ++ growBlocks os) = runFrom (w, rs) (growBlocks os) := by
    unfold lockRun at h ⊢
    rw [List.foldlM_append, h]
    rfl
  rw [this]
  unfold growBlocks
  rw [List.append_assoc]
  apply copies_ub os b m _ (fun p hp => destroys_ub os b m hb _ p hp)
  refine ⟨mutexOf_ok hmo, ?_, ?_, ?_⟩
  · intro o ho hc
    have := (hi.refs o m).1 hc
    exact ho (hone o this.1 (this.2.trans hm.symm))
  · rw [family_own h hm] at ht
    cases hw : w.owner m with
    | none => rw [hw] at ht; simp at ht
    | some p => rfl
  · have := (mutexOf_lt hi hmo).2.2
    rw [← hi.len] at this
    exact this

/-- A tensor, a view of it, another tensor; thread 0 locks the tensor, then the view. -/
def lockHistory : List LockOp := [.tensor, .viewOf 0, .tensor, .lock 0 0, .tryLock 0 1]

theorem lockHistory_runs : ∃ w, lockRun lockHistory = .ok (w, [true, true, true, true, true]) := ⟨_, rfl⟩

/-- Thread 1 cannot lock the view, but it can lock the other tensor. -/
example : (∃ w, lockRun (lockHistory ++ [.tryLock 1 1]) = .ok (w, [true, true, true, true, true, false])) ∧
    (∃ w, lockRun (lockHistory ++ [.tryLock 1 2]) = .ok (w, [true, true, true, true, true, true])) := ⟨⟨_, rfl⟩, ⟨_, rfl⟩⟩

example : PlainViews lockHistory ∧ Alive lockHistory 1 ∧ holdsElements lockHistory [true, true, true, true, true] 1 0 = 2 ∧
    holdsElements lockHistory [true, true, true, true, true] 1 1 = 0 := by
  refine ⟨?_, rfl, by decide, by decide⟩
  intro op hop
  simp only [lockHistory, List.mem_cons, List.not_mem_nil, or_false] at hop
  rcases hop with rfl | rfl | rfl | rfl | rfl <;> trivial

/-- Thread 0 holds a tensor and thread 1 a copy of a view of it. -/
example : let ops := [LockOp.tensor, .viewOf 0, .copyOfView 1, .lock 0 0, .lock 1 2]
    (∃ w, lockRun ops = .ok (w, [true, true, true, true, true])) ∧
      0 < holdsElements ops [true, true, true, true, true] 0 0 ∧ 0 < holdsElements ops [true, true, true, true, true] 0 1 :=
  ⟨⟨_, rfl⟩, by decide, by decide⟩

/-- Two blocks, the second locked. -/
example : (lockRun ([.tensor, .tensor, .lock 3 1] ++ growBlocks [0, 1])).isUb = true := by
  obtain ⟨w, h⟩ : ∃ w, lockRun [.tensor, .tensor, .lock 3 1] = .ok (w, [true, true, true]) := ⟨_, rfl⟩
  refine C157_push_block_refuted h [0, 1] (b := 1) (by simp) rfl ?_ (t := 3) (by decide)
  intro o ho hf
  match o, ho, hf with
  | 0, _, hf => exact absurd hf (by decide)
  | 1, _, _ => rfl

end Einsums.Props
