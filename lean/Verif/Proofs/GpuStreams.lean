import Verif.Spec.GpuStreams
import Mathlib.Tactic.Push
import Mathlib.Tactic.Ring
/-
Invariants of streams and waiting threads.
-/
namespace Einsums
open Spec Model
namespace GpuQueue

theorem run_append (S : GpuQueue) (a b : List QEvent) : S.run (a ++ b) = (S.run a).bind fun S' => S'.run b := by
  induction a generalizing S with
  | nil => rfl
  | cons e a ih =>
    simp only [List.cons_append, GpuQueue.run]
    cases S.step e with
    | none => rfl
    | some S' => exact ih S'

theorem run_snoc {S S' : GpuQueue} {a : List QEvent} {e : QEvent} (h : S.run (a ++ [e]) = some S') :
    ∃ M, S.run a = some M ∧ M.step e = some S' := by
  rw [run_append] at h
  cases hm : S.run a with
  | none => rw [hm] at h; cases h
  | some M =>
    rw [hm] at h
    refine ⟨M, rfl, ?_⟩
    simp only [Option.bind_some, GpuQueue.run] at h
    cases hs : M.step e with
    | none => rw [hs] at h; cases h
    | some M' => rw [hs] at h; exact h

theorem careful_append {S M : GpuQueue} {a b : List QEvent} (h : Careful S (a ++ b)) (hr : S.run a = some M) : Careful S a ∧ Careful M b := by
  induction a generalizing S with
  | nil => cases hr; exact ⟨trivial, h⟩
  | cons e a ih =>
    simp only [GpuQueue.run] at hr
    cases hs : S.step e with
    | none => rw [hs] at hr; cases hr
    | some S1 =>
      rw [hs] at hr
      have := ih (h.2 S1 hs) hr
      refine ⟨⟨h.1, fun S' hS' => ?_⟩, this.2⟩
      rw [hs] at hS'; cases hS'
      exact this.1

/-- An invariant of careful steps holds after careful executions. -/
theorem careful_invariant {P : GpuQueue → Prop} (step : ∀ S S' e, P S → CarefulStep S e → S.step e = some S' → P S') {S S' : GpuQueue}
    {es : List QEvent} (h0 : P S) (hc : Careful S es) (hr : S.run es = some S') : P S' := by
  induction es generalizing S with
  | nil => cases hr; exact h0
  | cons e es ih =>
    simp only [GpuQueue.run] at hr
    cases hs : S.step e with
    | none => rw [hs] at hr; cases hr
    | some S1 =>
      rw [hs] at hr
      exact ih (step S S1 e h0 hc.1 hs) (hc.2 S1 hs) hr

/-- What a step is, without the parts that do not matter here. -/
inductive Kind (S S' : GpuQueue) : QEvent → Prop
  | same (e) (h : S' = S) : Kind S S' e
  | device (s g) (h : S.streams[s]? = some g) (hd : g.done < g.log.length)
      (h' : S' = { S with streams := S.streams.set s { g with done := g.done + 1 } }) : Kind S S' (.device s)
  | push (t s e) (hp : S.pc t = .idle) (he : threadOf e = some t) (hr : e ≠ .record t)
      (hs : S.own[t]? = some s ∨ S.blas[t]? = some s ∨ S.solver[t]? = some s) (h' : S' = S.push s t) : Kind S S' e
  | goto (t p e) (he : threadOf e = some t) (h' : S' = S.goto t p) : Kind S S' e
  | store (t w b) (hp : S.pc t = .flag w b) (h' : S' = { S.goto t .idle with skip := storeBit S.skip w t b }) : Kind S S' (.store t)
  | lock (t e) (he : threadOf e = some t) (hr : e ≠ .record t) (h' : S' = { S.goto t .idle with locked := true }) : Kind S S' e
  | setStream (t s tid) (hp : S.pc t = .idle) (hs : s < S.streams.length) (ht : tid < S.own.length)
      (h' : S' = { S with own := S.own.set tid s, blas := S.blas.set t s, solver := S.solver.set t s }) : Kind S S' (.setStream t s tid)

theorem goto_same {S : GpuQueue} {t : Nat} (h : S.pc t = .idle) : S.goto t .idle = S := by
  unfold GpuQueue.goto
  rw [← h, Function.update_eq_self]

theorem step_kind {S S' : GpuQueue} {e : QEvent} (h : S.step e = some S') : Kind S S' e := by
  cases e with
  | device s =>
    simp only [GpuQueue.step] at h
    cases hg : S.streams[s]? with
    | none => rw [hg] at h; cases h
    | some g =>
      rw [hg] at h
      simp only at h
      split at h
      · cases h; exact .device s g hg ‹_› rfl
      · cases h
  | kernel t =>
    simp only [GpuQueue.step] at h
    split at h
    · cases h
    · rename_i hn
      push Not at hn
      cases hs : S.own[t]? with
      | none => rw [hs] at h; cases h; exact .same _ rfl
      | some s => rw [hs] at h; cases h; exact .push t s _ hn.1 rfl (by simp) (Or.inl hs) rfl
  | blas t =>
    simp only [GpuQueue.step] at h
    split at h
    · cases h
    · rename_i hn
      push Not at hn
      cases hs : S.blas[t]? with
      | none => rw [hs] at h; cases h; exact .same _ rfl
      | some s => rw [hs] at h; cases h; exact .push t s _ hn rfl (by simp) (Or.inr (Or.inl hs)) rfl
  | solver t =>
    simp only [GpuQueue.step] at h
    split at h
    · cases h
    · rename_i hn
      push Not at hn
      cases hs : S.solver[t]? with
      | none => rw [hs] at h; cases h; exact .same _ rfl
      | some s => rw [hs] at h; cases h; exact .push t s _ hn rfl (by simp) (Or.inr (Or.inr hs)) rfl
  | skipNext t =>
    simp only [GpuQueue.step] at h
    split at h
    · cases h
    · split at h
      · cases h; exact .goto t _ _ rfl rfl
      · cases h; exact .same _ rfl
  | store t =>
    simp only [GpuQueue.step] at h
    split at h
    · cases h; exact .store t _ _ ‹_› rfl
    · cases h
  | wait t m =>
    simp only [GpuQueue.step] at h
    split at h
    · cases h
    · simp only [GpuQueue.beginWait] at h
      have go : ∀ {X}, (if S.locked = true then none else match S.own[t]? with
          | some s => some (S.goto t (.record s))
          | none => some S) = some X → Kind S X (.wait t m) := by
        intro X hX
        split at hX
        · cases hX
        · split at hX
          · cases hX; exact .goto t _ _ rfl rfl
          · cases hX; exact .same _ rfl
      cases m
      · exact go h
      · simp only [if_true] at h
        split at h
        · cases h; exact .same _ rfl
        · cases h; exact .goto t _ _ rfl rfl
        · exact go h
  | waitOn t s =>
    simp only [GpuQueue.step] at h
    split at h
    · cases h
    · cases h; exact .goto t _ _ rfl rfl
  | record t =>
    simp only [GpuQueue.step] at h
    split at h
    · split at h
      · cases h
      · cases h; exact .goto t _ _ rfl rfl
    · cases h
  | recordFails t =>
    simp only [GpuQueue.step] at h
    split at h
    · split at h
      · cases h
      · cases h; exact .lock t _ rfl (by simp) rfl
    · cases h
  | wake t =>
    simp only [GpuQueue.step] at h
    split at h
    · split at h
      · cases h; exact .goto t _ _ rfl rfl
      · cases h
    · split at h
      · cases h; exact .goto t _ _ rfl rfl
      · cases h
    · cases h
  | waitAll t m =>
    simp only [GpuQueue.step] at h
    split at h
    · cases h
    · rename_i hn
      push Not at hn
      split at h
      · cases h; exact .goto t _ _ rfl rfl
      · cases h
        exact .lock t _ rfl (by simp) (by rw [goto_same hn.1])
  | setStream t s tid =>
    simp only [GpuQueue.step] at h
    split at h
    · cases h
    · rename_i hn
      push Not at hn
      split at h
      · cases h; exact .setStream t s tid hn.1 (by omega) ‹_› rfl
      · cases h; exact .same _ rfl

/-! ### Where unfinished work is -/

theorem push_get {S : GpuQueue} {s t : Nat} {r : Nat} {g' : GStream} (h : (S.push s t).streams[r]? = some g') :
    ∃ g, S.streams[r]? = some g ∧ g' = if s = r then { g with log := g.log ++ [t] } else g := by
  simp only [GpuQueue.push, List.getElem?_modify] at h
  cases hg : S.streams[r]? with
  | none => rw [hg] at h; cases h
  | some g =>
    rw [hg] at h
    refine ⟨g, rfl, ?_⟩
    simp only [Option.map_eq_map, Option.map_some, Option.some.injEq] at h
    rw [← h]

theorem log_push {log : List Nat} {u t i : Nat} (h : (log ++ [u])[i]? = some t) : log[i]? = some t ∨ (u = t ∧ i = log.length) := by
  by_cases hi : i < log.length
  · left; rwa [List.getElem?_append_left hi] at h
  · right
    rw [List.getElem?_append_right (by omega)] at h
    have : i - log.length = 0 := by
      by_contra hne
      obtain ⟨k, hk⟩ : ∃ k, i - log.length = k + 1 := ⟨i - log.length - 1, by omega⟩
      rw [hk] at h
      simp at h
    rw [this] at h
    simp at h
    exact ⟨h, by omega⟩

/-- The handles of a thread are set to its stream, and its unfinished work is there. -/
structure Bound (S : GpuQueue) : Prop where
  blas : S.blas = S.own
  solver : S.solver = S.own
  place : ∀ (s : Nat) (g : GStream), S.streams[s]? = some g → ∀ i t : Nat, g.log[i]? = some t → g.done ≤ i → S.own[t]? = some s

theorem bound_start (n k : Nat) : Bound (.start n k) := by
  refine ⟨rfl, rfl, fun s g h i t hi => ?_⟩
  simp only [GpuQueue.start, List.getElem?_replicate] at h
  split at h
  · cases h; simp at hi
  · cases h

theorem bound_step {S S' : GpuQueue} {e : QEvent} (b : Bound S) (hc : CarefulStep S e) (h : S.step e = some S') : Bound S' := by
  cases step_kind h with
  | same _ h' => rw [h']; exact b
  | device s g hg hd h' =>
    subst h'
    refine ⟨b.blas, b.solver, fun r g' hr i t hi hle => ?_⟩
    simp only [List.getElem?_set] at hr
    split at hr
    · subst ‹s = r›
      split at hr
      · cases hr
        exact b.place s g hg i t hi (by simp only at hle; omega)
      · cases hr
    · exact b.place r g' hr i t hi hle
  | push t s _ hp he hr hs h' =>
    subst h'
    have own : S.own[t]? = some s := by
      rcases hs with hs | hs | hs
      · exact hs
      · rwa [b.blas] at hs
      · rwa [b.solver] at hs
    refine ⟨b.blas, b.solver, fun r g' hr i u hi hle => ?_⟩
    obtain ⟨g, hg, rfl⟩ := push_get hr
    split at hi
    · subst ‹s = r›
      rw [if_pos rfl] at hle
      rcases log_push hi with hi | ⟨rfl, _⟩
      · exact b.place s g hg i u hi hle
      · exact own
    · rw [if_neg ‹_›] at hle
      exact b.place r g hg i u hi hle
  | goto t p _ he h' => subst h'; exact ⟨b.blas, b.solver, b.place⟩
  | store t w b' hp h' => subst h'; exact ⟨b.blas, b.solver, b.place⟩
  | lock t _ he hr h' => subst h'; exact ⟨b.blas, b.solver, b.place⟩
  | setStream t s tid hp hs ht h' =>
    subst h'
    obtain ⟨rfl, hd⟩ := hc
    refine ⟨by rw [← b.blas], by rw [← b.solver], fun r g hr i u hi hle => ?_⟩
    by_cases hu : u = tid
    · subst hu
      have := hd r g hr i hi
      omega
    · simp only [List.getElem?_set_ne (Ne.symm hu)]
      exact b.place r g hr i u hi hle

/-- A thread in the middle of `stream_wait()`. -/
def InWait (t : Nat) (S : GpuQueue) : Prop :=
  match S.pc t with
  | .idle => True
  | .flag _ _ => True
  | .record s => S.own[t]? = some s
  | .sync s pos => S.own[t]? = some s ∧ ∀ g : GStream, S.streams[s]? = some g → ∀ i : Nat, g.log[i]? = some t → i < pos
  | .syncAll _ => False

theorem inWait_of_same {t : Nat} {S S' : GpuQueue} (w : InWait t S) (hpc : S'.pc t = S.pc t) (hown : S'.own[t]? = S.own[t]?)
    (hlog : ∀ (s : Nat) (g' : GStream), S'.streams[s]? = some g' → ∃ g : GStream, S.streams[s]? = some g ∧
      ∀ i : Nat, g'.log[i]? = some t → g.log[i]? = some t) : InWait t S' := by
  unfold InWait at *
  rw [hpc, hown]
  split at w
  · trivial
  · trivial
  · exact w
  · refine ⟨w.1, fun g' hg' i hi => ?_⟩
    obtain ⟨g, hg, hsub⟩ := hlog _ _ hg'
    exact w.2 g hg i (hsub i hi)
  · exact w

theorem inWait_step {t : Nat} {S S' : GpuQueue} {e : QEvent} (w : InWait t S) (hc : CarefulStep S e)
    (ht : threadOf e = some t → e = .record t) (h : S.step e = some S') : InWait t S' := by
  by_cases hr : e = .record t
  · subst hr
    simp only [GpuQueue.step] at h
    split at h
    · rename_i s hs
      split at h
      · cases h
      · cases h
        unfold InWait at w ⊢
        rw [hs] at w
        simp only [GpuQueue.goto, Function.update_self]
        refine ⟨w, fun g hg i hi => ?_⟩
        have : i < g.log.length := by
          rw [List.getElem?_eq_some_iff] at hi
          exact hi.1
        simpa [GpuQueue.queued, hg] using this
    · cases h
  · have ht' : threadOf e ≠ some t := fun he => hr (ht he)
    cases step_kind h with
    | same _ h' => rw [h']; exact w
    | device s g hg hd h' =>
      subst h'
      refine inWait_of_same w rfl rfl fun r g' hg' => ?_
      simp only [List.getElem?_set] at hg'
      split at hg'
      · subst ‹s = r›
        split at hg'
        · cases hg'; exact ⟨g, hg, fun _ hi => hi⟩
        · cases hg'
      · exact ⟨g', hg', fun _ hi => hi⟩
    | push u s _ hp he _ hs h' =>
      subst h'
      have hne : u ≠ t := by rintro rfl; exact ht' he
      refine inWait_of_same w rfl rfl fun r g' hg' => ?_
      obtain ⟨g, hg, rfl⟩ := push_get hg'
      refine ⟨g, hg, fun i hi => ?_⟩
      split at hi
      · rcases log_push hi with hi | ⟨he, _⟩
        · exact hi
        · exact absurd he hne
      · exact hi
    | goto u p _ he h' =>
      subst h'
      have hne : t ≠ u := by rintro rfl; exact ht' he
      exact inWait_of_same w (Function.update_of_ne hne _ _) rfl fun r g hg => ⟨g, hg, fun _ hi => hi⟩
    | store u w' b hp h' =>
      subst h'
      have hne : t ≠ u := by rintro rfl; exact ht' rfl
      exact inWait_of_same w (Function.update_of_ne hne _ _) rfl fun r g hg => ⟨g, hg, fun _ hi => hi⟩
    | lock u _ he _ h' =>
      subst h'
      have hne : t ≠ u := by rintro rfl; exact ht' he
      exact inWait_of_same w (Function.update_of_ne hne _ _) rfl fun r g hg => ⟨g, hg, fun _ hi => hi⟩
    | setStream u s tid hp hs hlt h' =>
      subst h'
      obtain ⟨rfl, _⟩ := hc
      have hne : tid ≠ t := by rintro rfl; exact ht' rfl
      exact inWait_of_same w rfl (List.getElem?_set_ne hne) fun r g hg => ⟨g, hg, fun _ hi => hi⟩

/-- When the wait is over, everything is done. -/
theorem wake_done {t : Nat} {S S' : GpuQueue} (b : Bound S) (w : InWait t S) (h : S.step (.wake t) = some S') : AllDone t S' := by
  simp only [GpuQueue.step] at h
  unfold InWait at w
  split at h
  · rename_i s pos hs
    rw [hs] at w
    split at h
    · rename_i hpos
      cases h
      intro r g hr i hi
      by_contra hlt
      have hown := b.place r g hr i t hi (by omega)
      rw [w.1] at hown
      cases hown
      have := w.2 g hr i hi
      have hf : S.finished s = g.done := by
        have hr' : S.streams[s]? = some g := hr
        simp [GpuQueue.finished, hr']
      omega
    · cases h
  · rename_i es hs
    rw [hs] at w
    exact w.elim
  · cases h

theorem inWait_begin {t : Nat} {S S' : GpuQueue} {m : Bool} (h : S.step (.wait t m) = some S') : InWait t S' := by
  simp only [GpuQueue.step] at h
  split at h
  · cases h
  · rename_i hn
    have hidle : S.pc t = .idle := by simpa using hn
    simp only [GpuQueue.beginWait] at h
    have go : (if S.locked = true then none else match S.own[t]? with
        | some s => some (S.goto t (.record s))
        | none => some S) = some S' → InWait t S' := by
      intro hX
      split at hX
      · cases hX
      · split at hX
        · cases hX
          unfold InWait
          simpa [GpuQueue.goto] using ‹_›
        · cases hX
          unfold InWait; rw [hidle]; trivial
    cases m
    · exact go h
    · simp only [if_true] at h
      split at h
      · cases h; unfold InWait; rw [hidle]; trivial
      · cases h; unfold InWait; simp [GpuQueue.goto]
      · exact go h

/-! ### The flags -/

theorem storeBit_length (now word : List Bool) (t : Nat) (b : Bool) : (storeBit now word t b).length = now.length := by
  simp [storeBit]

theorem storeBit_same (now : List Bool) (t : Nat) (b : Bool) : storeBit now now t b = now.set t b := by
  apply List.ext_getElem?
  intro u
  unfold storeBit
  rw [List.getElem?_map, List.getElem?_set]
  by_cases hu : u < now.length
  · rw [List.getElem?_range hu]
    simp only [Option.map_some]
    by_cases he : u = t
    · subst he; simp [hu]
    · rw [if_neg he, if_neg (Ne.symm he)]
      simp [hu]
  · rw [List.getElem?_eq_none (by simpa using hu)]
    simp only [Option.map_none]
    split
    · simp; omega
    · rw [List.getElem?_eq_none (by omega)]

theorem asked_snoc (t : Nat) (es : List QEvent) (e : QEvent) :
    Asked t (es ++ [e]) ↔ e = .skipNext t ∨ (Asked t es ∧ e ≠ .wait t true) := by
  constructor
  · rintro ⟨a, b, h, hb⟩
    rcases List.eq_nil_or_concat b with rfl | ⟨b', x, rfl⟩
    · left
      have := List.append_inj' (show es ++ [e] = a ++ [.skipNext t] from h) rfl
      simpa using this.2
    · right
      rw [List.concat_eq_append] at h hb
      have := List.append_inj' (show es ++ [e] = (a ++ .skipNext t :: b') ++ [x] by rw [h]; simp) rfl
      have hx : e = x := by simpa using this.2
      subst hx
      simp only [List.mem_append, List.mem_singleton, not_or] at hb
      exact ⟨⟨a, b', this.1, hb.1⟩, Ne.symm hb.2⟩
  · rintro (rfl | ⟨⟨a, b, rfl, hb⟩, hne⟩)
    · exact ⟨es, [], by simp, by simp⟩
    · exact ⟨a, b ++ [e], by simp, by simp [hb, Ne.symm hne]⟩

/-- The flags are what the threads asked for, but for the one that is being changed. -/
structure Flags (n : Nat) (S : GpuQueue) (es : List QEvent) : Prop where
  len : S.skip.length = n
  own : S.own.length = n
  one : ∀ t u, Flagging S t → Flagging S u → t = u
  word : ∀ t w b, S.pc t = .flag w b → w = S.skip ∧ t < n ∧ (b = true ↔ Asked t es)
  flag : ∀ t < n, ¬ Flagging S t → (S.skip[t]? = some true ↔ Asked t es)

theorem flags_start (n k : Nat) : Flags n (.start n k) [] := by
  refine ⟨by simp [GpuQueue.start], by simp [GpuQueue.start], ?_, ?_, ?_⟩
  · rintro t u ⟨w, b, h⟩; cases h
  · intro t w b h; cases h
  · intro t ht _
    simp only [GpuQueue.start, List.getElem?_replicate, if_pos ht]
    constructor
    · intro h; cases h
    · rintro ⟨a, b, h, _⟩
      cases a <;> cases h

theorem flags_of_same {n : Nat} {S S' : GpuQueue} {es : List QEvent} {e : QEvent} (f : Flags n S es) (hskip : S'.skip = S.skip)
    (hown : S'.own.length = S.own.length) (hpc : ∀ t w b, S'.pc t = .flag w b ↔ S.pc t = .flag w b)
    (he : ∀ t < n, (Asked t (es ++ [e]) ↔ Asked t es)) : Flags n S' (es ++ [e]) := by
  have hfl : ∀ t, Flagging S' t ↔ Flagging S t := fun t => by
    unfold Flagging; simp only [hpc]
  refine ⟨by rw [hskip, f.len], by rw [hown, f.own], fun t u h1 h2 => f.one t u ((hfl t).1 h1) ((hfl u).1 h2), ?_, ?_⟩
  · intro t w b h
    obtain ⟨h1, h2, h3⟩ := f.word t w b ((hpc t w b).1 h)
    exact ⟨by rw [h1, hskip], h2, h3.trans (he t h2).symm⟩
  · intro t ht h
    rw [hskip, f.flag t ht (fun hh => h ((hfl t).2 hh)), he t ht]

/-- A thread begins to change its flag. -/
theorem flags_begin {n t : Nat} {S : GpuQueue} {es : List QEvent} {e : QEvent} {b : Bool} (f : Flags n S es) (ht : t < n)
    (hc : ∀ u, u ≠ t → ¬ Flagging S u) (hidle : S.pc t = .idle)
    (he : ∀ u < n, (Asked u (es ++ [e]) ↔ if u = t then b = true else Asked u es)) :
    Flags n (S.goto t (.flag S.skip b)) (es ++ [e]) := by
  have hfl : ∀ u, Flagging (S.goto t (.flag S.skip b)) u → u = t := by
    rintro u ⟨w, b', h⟩
    by_contra hne
    simp only [GpuQueue.goto, Function.update_of_ne hne] at h
    exact hc u hne ⟨w, b', h⟩
  refine ⟨f.len, f.own, fun u v h1 h2 => by rw [hfl u h1, hfl v h2], ?_, ?_⟩
  · intro u w b' h
    have hu := hfl u ⟨w, b', h⟩
    subst hu
    simp only [GpuQueue.goto, Function.update_self, WaitPc.flag.injEq] at h
    obtain ⟨rfl, rfl⟩ := h
    refine ⟨rfl, ht, ?_⟩
    rw [he u ht, if_pos rfl]
  · intro u hu h
    have hne : u ≠ t := by
      rintro rfl
      exact h ⟨S.skip, b, by simp [GpuQueue.goto]⟩
    rw [he u hu, if_neg hne]
    exact f.flag u hu (hc u hne)

theorem flags_step {n : Nat} {S S' : GpuQueue} {es : List QEvent} {e : QEvent} (f : Flags n S es) (hc : CarefulStep S e)
    (h : S.step e = some S') : Flags n S' (es ++ [e]) := by
  have neutral : (∀ t < n, e ≠ .skipNext t) → (∀ t < n, e ≠ .wait t true) → ∀ t < n, (Asked t (es ++ [e]) ↔ Asked t es) := by
    intro h1 h2 t ht
    rw [asked_snoc]
    constructor
    · rintro (h | h)
      · exact absurd h (h1 t ht)
      · exact h.1
    · exact fun h => Or.inr ⟨h, h2 t ht⟩
  have hlen := f.len
  have gotoPc : ∀ (t : Nat) (p : WaitPc), (∀ w b, S.pc t ≠ .flag w b) → (∀ w b, p ≠ .flag w b) →
      ∀ u w b, (S.goto t p).pc u = .flag w b ↔ S.pc u = .flag w b := by
    intro t p h1 h2 u w b
    by_cases hu : u = t
    · subst hu
      simp only [GpuQueue.goto, Function.update_self]
      exact ⟨fun h => absurd h (h2 w b), fun h => absurd h (h1 w b)⟩
    · simp only [GpuQueue.goto, Function.update_of_ne hu]
  cases e with
  | device s =>
    simp only [GpuQueue.step] at h
    split at h
    · split at h
      · cases h; exact flags_of_same f rfl rfl (fun _ _ _ => Iff.rfl) (neutral (by simp) (by simp))
      · cases h
    · cases h
  | kernel t =>
    simp only [GpuQueue.step] at h
    split at h
    · cases h
    · split at h <;> cases h <;> exact flags_of_same f rfl rfl (fun _ _ _ => Iff.rfl) (neutral (by simp) (by simp))
  | blas t =>
    simp only [GpuQueue.step] at h
    split at h
    · cases h
    · split at h <;> cases h <;> exact flags_of_same f rfl rfl (fun _ _ _ => Iff.rfl) (neutral (by simp) (by simp))
  | solver t =>
    simp only [GpuQueue.step] at h
    split at h
    · cases h
    · split at h <;> cases h <;> exact flags_of_same f rfl rfl (fun _ _ _ => Iff.rfl) (neutral (by simp) (by simp))
  | skipNext t =>
    simp only [GpuQueue.step] at h
    split at h
    · cases h
    · rename_i hn
      split at h
      · cases h
        refine flags_begin f (by omega) hc (by simpa using hn) fun u hu => ?_
        rw [asked_snoc]
        by_cases hut : u = t
        · subst hut; simp
        · simp [hut, Ne.symm hut]
      · rename_i hlt
        cases h
        refine flags_of_same f rfl rfl (fun _ _ _ => Iff.rfl) (neutral (fun u hu he => ?_) (by simp))
        simp only [QEvent.skipNext.injEq] at he
        omega
  | store t =>
    simp only [GpuQueue.step] at h
    split at h
    · rename_i w b hp
      cases h
      obtain ⟨rfl, htn, hb⟩ := f.word t w b hp
      have hnone : ∀ u, ¬ Flagging { S.goto t .idle with skip := storeBit S.skip S.skip t b } u := by
        rintro u ⟨w', b', h⟩
        by_cases hu : u = t
        · subst hu; simp [GpuQueue.goto] at h
        · simp only [GpuQueue.goto, Function.update_of_ne hu] at h
          exact hu (f.one u t ⟨w', b', h⟩ ⟨_, _, hp⟩)
      refine ⟨by simp [storeBit_length, f.len], f.own, fun u v h1 _ => absurd h1 (hnone u), ?_, ?_⟩
      · intro u w' b' h
        exact absurd ⟨w', b', h⟩ (hnone u)
      · intro u hu _
        simp only [storeBit_same]
        rw [(neutral (by simp) (by simp)) u hu]
        by_cases hut : u = t
        · subst hut
          rw [← hb, List.getElem?_set_self (by omega)]
          simp
        · rw [List.getElem?_set_ne (Ne.symm hut)]
          exact f.flag u hu fun hfl => hut (f.one u t hfl ⟨_, _, hp⟩)
    · cases h
  | wait t m =>
    simp only [GpuQueue.step] at h
    split at h
    · cases h
    · rename_i hn
      have hidle : S.pc t = .idle := by simpa using hn
      have hnf : ¬ Flagging S t := by rintro ⟨w, b, h⟩; rw [hidle] at h; cases h
      simp only [GpuQueue.beginWait] at h
      have go : (∀ u < n, (Asked u (es ++ [.wait t m]) ↔ Asked u es)) → (if S.locked = true then none else match S.own[t]? with
          | some s => some (S.goto t (.record s))
          | none => some S) = some S' → Flags n S' (es ++ [.wait t m]) := by
        intro ha hX
        split at hX
        · cases hX
        · split at hX
          · cases hX
            exact flags_of_same f rfl rfl (gotoPc t _ (by simp [hidle]) (by simp)) ha
          · cases hX
            exact flags_of_same f rfl rfl (fun _ _ _ => Iff.rfl) ha
      cases m
      · exact go (neutral (by simp) (by simp)) h
      · simp only [if_true] at h
        split at h
        · rename_i hnone
          cases h
          refine flags_of_same f rfl rfl (fun _ _ _ => Iff.rfl) (neutral (by simp) fun u hu he => ?_)
          simp only [QEvent.wait.injEq, and_true] at he
          subst he
          rw [List.getElem?_eq_none_iff] at hnone
          omega
        · rename_i htrue
          cases h
          refine flags_begin f ?_ hc hidle fun u hu => ?_
          · rw [List.getElem?_eq_some_iff] at htrue
            obtain ⟨hlt, _⟩ := htrue
            omega
          · rw [asked_snoc]
            by_cases hut : u = t
            · subst hut; simp
            · simp [hut, Ne.symm hut]
        · rename_i hfalse
          refine go (fun u hu => ?_) h
          rw [asked_snoc]
          by_cases hut : u = t
          · subst hut
            have := f.flag u hu hnf
            rw [hfalse] at this
            simp only [Option.some.injEq, Bool.false_eq_true, false_iff] at this
            simp [this]
          · simp [Ne.symm hut]
  | waitOn t s =>
    simp only [GpuQueue.step] at h
    split at h
    · cases h
    · rename_i hn
      have hidle : S.pc t = .idle := by simpa using hn
      cases h
      exact flags_of_same f rfl rfl (gotoPc t _ (by simp [hidle]) (by simp)) (neutral (by simp) (by simp))
  | record t =>
    simp only [GpuQueue.step] at h
    split at h
    · rename_i hp
      split at h
      · cases h
      · cases h
        exact flags_of_same f rfl rfl (gotoPc t _ (by simp [hp]) (by simp)) (neutral (by simp) (by simp))
    · cases h
  | recordFails t =>
    simp only [GpuQueue.step] at h
    split at h
    · rename_i hp
      split at h
      · cases h
      · cases h
        exact flags_of_same f rfl rfl (gotoPc t .idle (by simp [hp]) (by simp)) (neutral (by simp) (by simp))
    · cases h
  | wake t =>
    simp only [GpuQueue.step] at h
    split at h
    · rename_i hp
      split at h
      · cases h
        exact flags_of_same f rfl rfl (gotoPc t _ (by simp [hp]) (by simp)) (neutral (by simp) (by simp))
      · cases h
    · rename_i hp
      split at h
      · cases h
        exact flags_of_same f rfl rfl (gotoPc t _ (by simp [hp]) (by simp)) (neutral (by simp) (by simp))
      · cases h
    · cases h
  | waitAll t m =>
    simp only [GpuQueue.step] at h
    split at h
    · cases h
    · rename_i hn
      push Not at hn
      split at h
      · cases h
        exact flags_of_same f rfl rfl (gotoPc t _ (by simp [hn.1]) (by simp)) (neutral (by simp) (by simp))
      · cases h
        exact flags_of_same f rfl rfl (fun _ _ _ => Iff.rfl) (neutral (by simp) (by simp))
  | setStream t s tid =>
    simp only [GpuQueue.step] at h
    split at h
    · cases h
    · split at h
      · cases h
        exact flags_of_same f rfl (by simp) (fun _ _ _ => Iff.rfl) (neutral (by simp) (by simp))
      · cases h
        exact flags_of_same f rfl rfl (fun _ _ _ => Iff.rfl) (neutral (by simp) (by simp))

theorem flags_run {n : Nat} {S S' : GpuQueue} {pre es : List QEvent} (f : Flags n S pre) (hc : Careful S es) (hr : S.run es = some S') :
    Flags n S' (pre ++ es) := by
  induction es generalizing S pre with
  | nil => cases hr; simpa using f
  | cons e es ih =>
    simp only [GpuQueue.run] at hr
    cases hs : S.step e with
    | none => rw [hs] at hr; cases hr
    | some S1 =>
      rw [hs] at hr
      have := ih (flags_step f hc.1 hs) (hc.2 S1 hs) hr
      rwa [List.append_assoc] at this

/-! ### Progress -/

/-- Threads wait for events that were recorded. -/
def Recorded (S : GpuQueue) : Prop :=
  (∀ t s pos, S.pc t = .sync s pos → pos ≤ S.queued s) ∧
  (∀ t es, S.pc t = .syncAll es → ∀ e ∈ es, e.2 ≤ S.queued e.1)

theorem queued_le_of {S S' : GpuQueue} (h : ∀ (s : Nat) (g : GStream), S.streams[s]? = some g →
    ∃ g' : GStream, S'.streams[s]? = some g' ∧ g.log.length ≤ g'.log.length) (s : Nat) : S.queued s ≤ S'.queued s := by
  unfold GpuQueue.queued
  cases hg : S.streams[s]? with
  | none => simp
  | some g =>
    obtain ⟨g', h1, h2⟩ := h s g hg
    simpa [h1] using h2

theorem step_grows {S S' : GpuQueue} {e : QEvent} (h : S.step e = some S') (s : Nat) (g : GStream) (hg : S.streams[s]? = some g) :
    ∃ g' : GStream, S'.streams[s]? = some g' ∧ g.log.length ≤ g'.log.length ∧ g.done ≤ g'.done := by
  cases step_kind h with
  | same _ h' => subst h'; exact ⟨g, hg, le_rfl, le_rfl⟩
  | device r g0 hg0 hd h' =>
    subst h'
    simp only [List.getElem?_set]
    split
    · subst ‹r = s›
      rw [hg] at hg0; cases hg0
      have : r < S.streams.length := (List.getElem?_eq_some_iff.1 hg).1
      rw [if_pos this]
      exact ⟨_, rfl, le_rfl, by simp⟩
    · exact ⟨g, hg, le_rfl, le_rfl⟩
  | push t r _ hp he hr hs h' =>
    subst h'
    simp only [GpuQueue.push, List.getElem?_modify, hg]
    refine ⟨_, rfl, ?_⟩
    split <;> simp
  | goto t p _ he h' => subst h'; exact ⟨g, hg, le_rfl, le_rfl⟩
  | store t w b' hp h' => subst h'; exact ⟨g, hg, le_rfl, le_rfl⟩
  | lock t _ he hr h' => subst h'; exact ⟨g, hg, le_rfl, le_rfl⟩
  | setStream t r tid hp hs ht h' => subst h'; exact ⟨g, hg, le_rfl, le_rfl⟩

theorem run_grows {S S' : GpuQueue} {es : List QEvent} (h : S.run es = some S') (s : Nat) (g : GStream) (hg : S.streams[s]? = some g) :
    ∃ g' : GStream, S'.streams[s]? = some g' ∧ g.log.length ≤ g'.log.length ∧ g.done ≤ g'.done := by
  induction es generalizing S g with
  | nil => cases h; exact ⟨g, hg, le_rfl, le_rfl⟩
  | cons e es ih =>
    simp only [GpuQueue.run] at h
    cases hs : S.step e with
    | none => rw [hs] at h; cases h
    | some S1 =>
      rw [hs] at h
      obtain ⟨g1, h1, h2, h3⟩ := step_grows hs s g hg
      obtain ⟨g2, h4, h5, h6⟩ := ih h g1 h1
      exact ⟨g2, h4, by omega, by omega⟩

theorem recorded_step {S S' : GpuQueue} {e : QEvent} (r : Recorded S) (h : S.step e = some S') : Recorded S' := by
  have grow : ∀ s, S.queued s ≤ S'.queued s := queued_le_of fun s g hg => by
    obtain ⟨g', h1, h2, _⟩ := step_grows h s g hg
    exact ⟨g', h1, h2⟩
  -- where the pc of a thread is the old one or harmless
  have key : (∀ t, S'.pc t = S.pc t ∨ (∃ s, S'.pc t = .sync s (S.queued s)) ∨
      (∃ l : List Nat, S'.pc t = .syncAll (l.map fun s => (s, S.queued s))) ∨
      ((∀ s pos, S'.pc t ≠ .sync s pos) ∧ ∀ es, S'.pc t ≠ .syncAll es)) → Recorded S' := by
    intro hk
    constructor
    · intro t s pos hp
      rcases hk t with h1 | ⟨s', h1⟩ | ⟨l, h1⟩ | h1
      · exact le_trans (r.1 t s pos (by rw [← h1]; exact hp)) (grow s)
      · rw [h1] at hp; cases hp; exact grow s
      · rw [h1] at hp; cases hp
      · exact absurd hp (h1.1 s pos)
    · intro t es hp x hx
      rcases hk t with h1 | ⟨s', h1⟩ | ⟨l, h1⟩ | h1
      · exact le_trans (r.2 t es (by rw [← h1]; exact hp) x hx) (grow x.1)
      · rw [h1] at hp; cases hp
      · rw [h1] at hp; cases hp
        rw [List.mem_map] at hx
        obtain ⟨s, _, rfl⟩ := hx
        exact grow s
      · exact absurd hp (h1.2 es)
  have keyGoto : ∀ t p, S'.pc = Function.update S.pc t p → ((∃ s, p = .sync s (S.queued s)) ∨
      (∃ l : List Nat, p = .syncAll (l.map fun s => (s, S.queued s))) ∨
      ((∀ s pos, p ≠ .sync s pos) ∧ ∀ es, p ≠ .syncAll es)) → Recorded S' := by
    intro t p hpc hp
    apply key
    intro u
    rw [hpc]
    by_cases hu : u = t
    · subst hu
      rw [Function.update_self]
      exact Or.inr hp
    · rw [Function.update_of_ne hu]
      exact Or.inl rfl
  have plain : S'.pc = S.pc → Recorded S' := fun hp => key fun t => Or.inl (by rw [hp])
  cases e with
  | device s =>
    simp only [GpuQueue.step] at h
    split at h
    · split at h
      · cases h; exact plain rfl
      · cases h
    · cases h
  | kernel t | blas t | solver t =>
    simp only [GpuQueue.step] at h
    split at h
    · cases h
    · split at h <;> cases h <;> exact plain rfl
  | skipNext t =>
    simp only [GpuQueue.step] at h
    split at h
    · cases h
    · split at h
      · cases h; exact keyGoto t _ rfl (Or.inr (Or.inr ⟨by simp, by simp⟩))
      · cases h; exact plain rfl
  | store t =>
    simp only [GpuQueue.step] at h
    split at h
    · cases h; exact keyGoto t .idle rfl (Or.inr (Or.inr ⟨by simp, by simp⟩))
    · cases h
  | wait t m =>
    simp only [GpuQueue.step] at h
    split at h
    · cases h
    · simp only [GpuQueue.beginWait] at h
      have go : (if S.locked = true then none else match S.own[t]? with
          | some s => some (S.goto t (.record s))
          | none => some S) = some S' → Recorded S' := by
        intro hX
        split at hX
        · cases hX
        · split at hX
          · cases hX; exact keyGoto t _ rfl (Or.inr (Or.inr ⟨by simp, by simp⟩))
          · cases hX; exact plain rfl
      cases m
      · exact go h
      · simp only [if_true] at h
        split at h
        · cases h; exact plain rfl
        · cases h; exact keyGoto t _ rfl (Or.inr (Or.inr ⟨by simp, by simp⟩))
        · exact go h
  | waitOn t s =>
    simp only [GpuQueue.step] at h
    split at h
    · cases h
    · cases h; exact keyGoto t _ rfl (Or.inr (Or.inr ⟨by simp, by simp⟩))
  | record t =>
    simp only [GpuQueue.step] at h
    split at h
    · split at h
      · cases h
      · cases h; exact keyGoto t _ rfl (Or.inl ⟨_, rfl⟩)
    · cases h
  | recordFails t =>
    simp only [GpuQueue.step] at h
    split at h
    · split at h
      · cases h
      · cases h; exact keyGoto t .idle rfl (Or.inr (Or.inr ⟨by simp, by simp⟩))
    · cases h
  | wake t =>
    simp only [GpuQueue.step] at h
    split at h
    · split at h
      · cases h; exact keyGoto t _ rfl (Or.inr (Or.inr ⟨by simp, by simp⟩))
      · cases h
    · split at h
      · cases h; exact keyGoto t _ rfl (Or.inr (Or.inr ⟨by simp, by simp⟩))
      · cases h
    · cases h
  | waitAll t m =>
    simp only [GpuQueue.step] at h
    split at h
    · cases h
    · split at h
      · cases h; exact keyGoto t _ rfl (Or.inr (Or.inl ⟨_, rfl⟩))
      · cases h; exact plain rfl
  | setStream t s tid =>
    simp only [GpuQueue.step] at h
    split at h
    · cases h
    · split at h <;> cases h <;> exact plain rfl

theorem recorded_run {S S' : GpuQueue} {es : List QEvent} (r : Recorded S) (h : S.run es = some S') : Recorded S' := by
  induction es generalizing S with
  | nil => cases h; exact r
  | cons e es ih =>
    simp only [GpuQueue.run] at h
    cases hs : S.step e with
    | none => rw [hs] at h; cases h
    | some S1 => rw [hs] at h; exact ih (recorded_step r hs) h

/-- The device can do everything that is queued. -/
theorem drain (S : GpuQueue) : ∃ es S', S.run es = some S' ∧ (∀ e ∈ es, threadOf e = none) ∧ S'.pc = S.pc ∧ S'.locked = S.locked ∧
    (∀ s, S'.queued s = S.queued s) ∧ ∀ s, S.queued s ≤ S'.finished s := by
  suffices h : ∀ (k : Nat) (S : GpuQueue), ((S.streams.map fun g => g.log.length - g.done).sum = k) →
      ∃ es S', S.run es = some S' ∧ (∀ e ∈ es, threadOf e = none) ∧ S'.pc = S.pc ∧ S'.locked = S.locked ∧
        (∀ s, S'.queued s = S.queued s) ∧ ∀ s, S.queued s ≤ S'.finished s from h _ S rfl
  intro k
  induction k using Nat.strong_induction_on with
  | _ k ih =>
    intro S hk
    by_cases hall : ∀ s, S.queued s ≤ S.finished s
    · exact ⟨[], S, rfl, by simp, rfl, rfl, fun _ => rfl, hall⟩
    · push Not at hall
      obtain ⟨s, hs⟩ := hall
      cases hg : S.streams[s]? with
      | none => simp [GpuQueue.queued, hg] at hs
      | some g =>
        have hlt : g.done < g.log.length := by simpa [GpuQueue.queued, GpuQueue.finished, hg] using hs
        obtain ⟨hsl, hgs⟩ := List.getElem?_eq_some_iff.1 hg
        let S1 : GpuQueue := { S with streams := S.streams.set s { g with done := g.done + 1 } }
        have hstep : S.step (.device s) = some S1 := by
          simp only [GpuQueue.step, hg, if_pos hlt, S1]
        have hsum : (S1.streams.map fun g => g.log.length - g.done).sum < k := by
          rw [← hk]
          show ((S.streams.set s { g with done := g.done + 1 }).map _).sum < _
          rw [List.map_set]
          have e1 := List.set_eq_take_append_cons_drop (l := S.streams.map fun g => g.log.length - g.done) (i := s)
            (a := g.log.length - (g.done + 1))
          rw [if_pos (by simpa using hsl)] at e1
          have e2 : (S.streams.map fun g => g.log.length - g.done) =
              (S.streams.map fun g => g.log.length - g.done).take s ++ (g.log.length - g.done) ::
              (S.streams.map fun g => g.log.length - g.done).drop (s + 1) := by
            conv_lhs => rw [← List.take_append_drop s (S.streams.map fun g => g.log.length - g.done)]
            congr 1
            rw [List.drop_eq_getElem_cons (by simpa using hsl)]
            simp [hgs]
          rw [e1, e2]
          simp only [List.sum_append, List.sum_cons]
          rw [← e2]
          omega
        obtain ⟨es, S', h1, h2, h3, h4, h5, h6⟩ := ih _ hsum S1 rfl
        have hq : ∀ r, S1.queued r = S.queued r := by
          intro r
          unfold GpuQueue.queued
          simp only [S1, List.getElem?_set]
          split
          · subst ‹s = r›
            rw [hg]; rfl
          · rfl
        refine ⟨.device s :: es, S', by simp only [GpuQueue.run, hstep, h1], ?_, h3, h4, fun r => (h5 r).trans (hq r),
          fun r => by rw [← hq r]; exact h6 r⟩
        intro e he
        rcases List.mem_cons.1 he with rfl | he
        · rfl
        · exact h2 e he

end GpuQueue
end Einsums
