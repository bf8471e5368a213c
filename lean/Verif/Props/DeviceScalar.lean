import Verif.Spec.DeviceScalar

/-
C171: device tensors of no dimensions.
-/
namespace Einsums.Props
open Spec Model

section
variable {R : Type}

/-- Every variable is a tensor with an allocation of its own, of the kind of its mode. -/
structure Dev0Holds (s : Dev0State R) (V : List (Option R)) : Prop where
  mlen : s.mem.length = V.length
  olen : s.objs.length = V.length
  live : ∀ (k : Nat) (v : R), V[k]? = some (some v) → ∃ name mode, mode ≠ DevMode.unknown ∧
    s.objs[k]? = some (some ⟨name, mode, some k⟩) ∧ s.mem[k]? = some (some (mode, v))
  gone : ∀ k : Nat, V[k]? = some none → s.objs[k]? = some none ∧ s.mem[k]? = some none

theorem dev0_alloc {s : Dev0State R} {V : List (Option R)} (h : Dev0Holds s V) (name : String) {mode : DevMode} (hm : mode ≠ .unknown) (v : R) :
    Dev0Holds (s.alloc name mode v) (V ++ [some v]) := by
  have h1 := h.mlen
  have h2 := h.olen
  refine ⟨by simp [Dev0State.alloc, h1], by simp [Dev0State.alloc, h2], fun k w hk => ?_, fun k hk => ?_⟩
  · by_cases c : k < V.length
    · rw [List.getElem?_append_left c] at hk
      obtain ⟨n, m, a, b, e⟩ := h.live k w hk
      refine ⟨n, m, a, ?_, ?_⟩
      · simp only [Dev0State.alloc]; rw [List.getElem?_append_left (by omega), b]
      · simp only [Dev0State.alloc]; rw [List.getElem?_append_left (by omega), e]
    · have : k = V.length := by
        have := (List.getElem?_eq_some_iff.1 hk).1; simp at this; omega
      subst this
      simp only [List.getElem?_concat_length, Option.some.injEq] at hk
      subst hk
      refine ⟨name, mode, hm, ?_, ?_⟩
      · simp only [Dev0State.alloc]; rw [← h2, List.getElem?_concat_length, h2, h1]
      · simp only [Dev0State.alloc]; rw [← h1, List.getElem?_concat_length]
  · have c : k < V.length := by
      by_contra c
      have : k = V.length := by
        have := (List.getElem?_eq_some_iff.1 hk).1; simp at this; omega
      subst this
      simp at hk
    rw [List.getElem?_append_left c] at hk
    obtain ⟨a, b⟩ := h.gone k hk
    refine ⟨?_, ?_⟩
    · simp only [Dev0State.alloc]; rw [List.getElem?_append_left (by omega), a]
    · simp only [Dev0State.alloc]; rw [List.getElem?_append_left (by omega), b]

theorem dev0_set {s : Dev0State R} {V : List (Option R)} (h : Dev0Holds s V) {k : Nat} {m : DevMode} {c : DevMode × R}
    (hc : s.mem[k]? = some (some c)) {n : String} (ho : s.objs[k]? = some (some ⟨n, m, some k⟩)) (hm : m ≠ .unknown) (e : c.1 = m) (v : R) :
    Dev0Holds { s with mem := s.mem.set k (some (c.1, v)) } (V.set k (some v)) := by
  have h1 := h.mlen
  have h2 := h.olen
  have hk := (List.getElem?_eq_some_iff.1 hc).1
  refine ⟨by simp [h1], by simp [h2], fun l w hl => ?_, fun l hl => ?_⟩
  · by_cases e' : k = l
    · subst e'
      rw [List.getElem?_set_self (by omega)] at hl
      cases hl
      exact ⟨n, m, hm, ho, by simp only; rw [List.getElem?_set_self (by omega), e]⟩
    · rw [List.getElem?_set_ne e'] at hl
      obtain ⟨a, b, c1, d, g⟩ := h.live l w hl
      exact ⟨a, b, c1, d, by simp only; rw [List.getElem?_set_ne e', g]⟩
  · by_cases e' : k = l
    · subst e'
      rw [List.getElem?_set_self (by omega)] at hl
      cases hl
    · rw [List.getElem?_set_ne e'] at hl
      obtain ⟨a, b⟩ := h.gone l hl
      exact ⟨a, by simp only; rw [List.getElem?_set_ne e', b]⟩

theorem dev0_live {s : Dev0State R} {V : List (Option R)} (h : Dev0Holds s V) {k : Nat} {v : R} (hk : V[k]?.join = some v) :
    ∃ name mode, mode ≠ DevMode.unknown ∧ s.objs[k]? = some (some ⟨name, mode, some k⟩) ∧ s.mem[k]? = some (some (mode, v)) ∧
      s.obj k = .ok ⟨name, mode, some k⟩ ∧ s.loadDev ⟨name, mode, some k⟩ = .ok v ∧ s.value ⟨name, mode, some k⟩ = .ok v ∧
      ∀ w, Dev0Holds { s with mem := s.mem.set k (some (mode, w)) } (V.set k (some w)) ∧
        s.storeDev ⟨name, mode, some k⟩ w = .ok { s with mem := s.mem.set k (some (mode, w)) } ∧
        s.put ⟨name, mode, some k⟩ w = .ok { s with mem := s.mem.set k (some (mode, w)) } := by
  have hk' : V[k]? = some (some v) := by
    cases e : V[k]? with
    | none => simp [e] at hk
    | some o => cases o with
      | none => simp [e] at hk
      | some w => simp [e] at hk; rw [hk]
  obtain ⟨n, m, hm, ho, hc⟩ := h.live k v hk'
  refine ⟨n, m, hm, ho, hc, by simp [Dev0State.obj, ho], by simp [Dev0State.loadDev, hc], ?_, fun w => ⟨dev0_set h hc ho hm rfl w, ?_, ?_⟩⟩
  · cases m <;> simp_all [Dev0State.value, Dev0State.loadHost, Dev0State.loadDev]
  · simp [Dev0State.storeDev, hc]
  · cases m <;> simp_all [Dev0State.put, Dev0State.storeHost, Dev0State.storeDev]

end

section
variable {R : Type} [Zero R] [Add R] [Sub R] [Mul R] [Div R]

/-- One statement. -/
theorem dev0_step (z : Nat → R) (moved : String → String) {s : Dev0State R} {V : List (Option R)} (h : Dev0Holds s V) (c : Dev0Op R)
    (hp : ¬ c.PlainCopy) {V' : List (Option R)} {o : Option R} (hs : specDev0Step z V c = some (V', o)) :
    ∃ s', c.step z moved s = .ok (s', o) ∧ Dev0Holds s' V' := by
  cases c with
  | declare =>
    simp only [specDev0Step, Option.some.injEq, Prod.mk.injEq] at hs
    obtain ⟨rfl, rfl⟩ := hs
    exact ⟨_, rfl, by rw [h.mlen]; exact dev0_alloc h _ (by simp) _⟩
  | ofDims mode =>
    simp only [specDev0Step] at hs
    split at hs
    · cases hs
    · simp only [Option.some.injEq, Prod.mk.injEq] at hs
      obtain ⟨rfl, rfl⟩ := hs
      cases mode <;> simp_all [Dev0Op.step] <;> (try rw [h.mlen]) <;> exact dev0_alloc h _ (by simp) _
  | named n mode =>
    simp only [specDev0Step] at hs
    split at hs
    · cases hs
    · simp only [Option.some.injEq, Prod.mk.injEq] at hs
      obtain ⟨rfl, rfl⟩ := hs
      cases mode <;> simp_all [Dev0Op.step] <;> (try rw [h.mlen]) <;> exact dev0_alloc h _ (by simp) _
  | copy src mode =>
    simp only [specDev0Step, Option.map_eq_some_iff, Prod.mk.injEq] at hs
    obtain ⟨v, hv, rfl, rfl⟩ := hs
    obtain ⟨n, m, hm, ho, hc, e1, e2, e3, _⟩ := dev0_live h hv
    cases mode with
    | unknown => exact absurd rfl hp
    | devOnly => exact ⟨_, by simp only [Dev0Op.step, e1, e2, Outcome.ok_bind]; rfl, dev0_alloc h _ (by simp) _⟩
    | mapped => exact ⟨_, by simp only [Dev0Op.step, e1, e3, Outcome.ok_bind]; rfl, dev0_alloc h _ (by simp) _⟩
    | pinned => exact ⟨_, by simp only [Dev0Op.step, e1, e3, Outcome.ok_bind]; rfl, dev0_alloc h _ (by simp) _⟩
  | ofHost v mode =>
    simp only [specDev0Step] at hs
    split at hs
    · cases hs
    · simp only [Option.some.injEq, Prod.mk.injEq] at hs
      obtain ⟨rfl, rfl⟩ := hs
      cases mode <;> simp_all [Dev0Op.step] <;> exact dev0_alloc h _ (by simp) _
  | assign dst src =>
    simp only [specDev0Step, Option.bind_eq_some_iff, Option.map_eq_some_iff, Prod.mk.injEq] at hs
    obtain ⟨u, hu, v, hv, rfl, rfl⟩ := hs
    obtain ⟨n, m, hm, ho, hc, e1, e2, e3, e4⟩ := dev0_live h hv
    obtain ⟨n', m', hm', ho', hc', g1, g2, g3, g4⟩ := dev0_live h hu
    obtain ⟨k1, k2, _⟩ := g4 v
    exact ⟨_, by simp only [Dev0Op.step, e1, e2, g1, k2, Outcome.ok_bind], k1⟩
  | set k v =>
    simp only [specDev0Step, Option.map_eq_some_iff, Prod.mk.injEq] at hs
    obtain ⟨u, hu, rfl, rfl⟩ := hs
    obtain ⟨n', m', hm', ho', hc', g1, g2, g3, g4⟩ := dev0_live h hu
    obtain ⟨k1, _, k2⟩ := g4 v
    exact ⟨_, by simp only [Dev0Op.step, g1, k2, Outcome.ok_bind], k1⟩
  | compound k op v =>
    simp only [specDev0Step, Option.map_eq_some_iff, Prod.mk.injEq] at hs
    obtain ⟨u, hu, rfl, rfl⟩ := hs
    obtain ⟨n', m', hm', ho', hc', g1, g2, g3, g4⟩ := dev0_live h hu
    obtain ⟨k1, _, k2⟩ := g4 (op.meaning u v)
    have : op.host u v = op.meaning u v := by cases op <;> rfl
    exact ⟨_, by simp only [Dev0Op.step, g1, g3, this, k2, Outcome.ok_bind], k1⟩
  | get k =>
    simp only [specDev0Step, Option.map_eq_some_iff, Prod.mk.injEq] at hs
    obtain ⟨u, hu, rfl, rfl⟩ := hs
    obtain ⟨n', m', hm', ho', hc', g1, g2, g3, g4⟩ := dev0_live h hu
    exact ⟨_, by simp only [Dev0Op.step, g1, g3, Outcome.ok_bind], h⟩
  | toHost k =>
    simp only [specDev0Step, Option.map_eq_some_iff, Prod.mk.injEq] at hs
    obtain ⟨u, hu, rfl, rfl⟩ := hs
    obtain ⟨n', m', hm', ho', hc', g1, g2, g3, g4⟩ := dev0_live h hu
    refine ⟨{ s with objs := s.objs.set k (some ⟨moved n', m', some k⟩) }, by simp only [Dev0Op.step, g1, g3, Outcome.ok_bind], ?_⟩
    have hk := (List.getElem?_eq_some_iff.1 ho').1
    refine ⟨h.mlen, by simp [h.olen], fun l w hl => ?_, fun l hl => ?_⟩
    · obtain ⟨a, b, c1, d, g⟩ := h.live l w hl
      by_cases e' : k = l
      · subst e'
        rw [hc'] at g
        cases g
        exact ⟨moved n', m', hm', by simp only; rw [List.getElem?_set_self hk], hc'⟩
      · exact ⟨a, b, c1, by simp only; rw [List.getElem?_set_ne e', d], g⟩
    · obtain ⟨a, b⟩ := h.gone l hl
      refine ⟨?_, b⟩
      by_cases e' : k = l
      · subst e'; rw [ho'] at a; cases a
      · simp only; rw [List.getElem?_set_ne e', a]
  | destroy k =>
    simp only [specDev0Step, Option.map_eq_some_iff, Prod.mk.injEq] at hs
    obtain ⟨u, hu, rfl, rfl⟩ := hs
    obtain ⟨n', m', hm', ho', hc', g1, g2, g3, g4⟩ := dev0_live h hu
    have hk := (List.getElem?_eq_some_iff.1 ho').1
    have hk2 := (List.getElem?_eq_some_iff.1 hc').1
    have h2 := h.olen
    have hr : s.release ⟨n', m', some k⟩ = .ok { s with mem := s.mem.set k none } := by simp [Dev0State.release, hc']
    refine ⟨⟨s.mem.set k none, s.objs.set k none⟩, by simp only [Dev0Op.step, g1, hr, Outcome.ok_bind], ?_⟩
    refine ⟨by simp [h.mlen], by simp [h.olen], fun l w hl => ?_, fun l hl => ?_⟩
    · by_cases e' : k = l
      · subst e'
        rw [List.getElem?_set_self (by omega)] at hl
        cases hl
      · rw [List.getElem?_set_ne e'] at hl
        obtain ⟨a, b, c1, d, g⟩ := h.live l w hl
        exact ⟨a, b, c1, by simp only; rw [List.getElem?_set_ne e', d], by simp only; rw [List.getElem?_set_ne e', g]⟩
    · by_cases e' : k = l
      · subst e'
        exact ⟨by simp only; rw [List.getElem?_set_self hk], by simp only; rw [List.getElem?_set_self hk2]⟩
      · rw [List.getElem?_set_ne e'] at hl
        obtain ⟨a, b⟩ := h.gone l hl
        exact ⟨by simp only; rw [List.getElem?_set_ne e', a], by simp only; rw [List.getElem?_set_ne e', b]⟩

theorem dev0_run (z : Nat → R) (moved : String → String) (p : List (Dev0Op R)) (hp : ∀ c ∈ p, ¬ c.PlainCopy) {s : Dev0State R}
    {V V' : List (Option R)} {os : List R} (h : Dev0Holds s V) (hs : specDev0 z p V = some (V', os)) :
    ∃ s', runDev0 z moved p s = .ok (s', os) ∧ Dev0Holds s' V' := by
  induction p generalizing s V os with
  | nil =>
    simp only [specDev0, Option.some.injEq, Prod.mk.injEq] at hs
    obtain ⟨rfl, rfl⟩ := hs
    exact ⟨s, rfl, h⟩
  | cons c p ih =>
    simp only [specDev0, Option.bind_eq_some_iff, Option.map_eq_some_iff] at hs
    obtain ⟨⟨W, o⟩, h1, ⟨V2, os2⟩, h2, e⟩ := hs
    simp only [Prod.mk.injEq] at e
    obtain ⟨rfl, rfl⟩ := e
    obtain ⟨s1, g1, g2⟩ := dev0_step z moved h c (hp c (by simp)) h1
    obtain ⟨s2, k1, k2⟩ := ih (fun c' hc' => hp c' (by simp [hc'])) g2 h2
    exact ⟨s2, by simp only [runDev0, g1, k1, Outcome.ok_bind], k2⟩

/-- **C171 (histories, partial: copies name a mode).** A program that creates device tensors of no dimensions in any modes, copies them with
a mode, assigns, updates, reads, converts and destroys them acts like the program on variables: no exception, no undefined behaviour, and
every value read is that of the variable.  At every time there is one allocation per live tensor: it is made with the tensor and released
with it, by the matching call. -/
theorem C171_history_partial (z : Nat → R) (moved : String → String) (p : List (Dev0Op R)) (hp : ∀ c ∈ p, ¬ c.PlainCopy)
    {V : List (Option R)} {os : List R} (hs : specDev0 z p [] = some (V, os)) :
    ∃ s, runDev0 z moved p ⟨[], []⟩ = .ok (s, os) ∧ s.mem.length = V.length ∧ s.objs.length = V.length ∧
      ∀ k < V.length, ((s.mem[k]?.join).isSome = (V[k]?.join).isSome ∧ (s.objs[k]?.join).isSome = (V[k]?.join).isSome) ∧
        ∀ v, V[k]?.join = some v → ∃ o, s.obj k = .ok o ∧ s.value o = .ok v := by
  obtain ⟨s, h1, h2⟩ := dev0_run z moved p hp (s := ⟨[], []⟩) (V := []) ⟨rfl, rfl, by simp, by simp⟩ hs
  refine ⟨s, h1, h2.mlen, h2.olen, fun k hk => ⟨?_, fun v hv => ?_⟩⟩
  · cases e : V[k]? with
    | none => rw [List.getElem?_eq_none_iff] at e; omega
    | some o =>
      cases o with
      | none => obtain ⟨a, b⟩ := h2.gone k e; simp [a, b]
      | some v => obtain ⟨_, _, _, a, b⟩ := h2.live k v e; simp [a, b]
  · obtain ⟨n, m, _, _, _, e1, _, e3, _⟩ := dev0_live h2 hv
    exact ⟨_, e1, e3⟩

/-- **C171 (end, partial).** When every tensor has been destroyed, all memory has been released. -/
theorem C171_released_partial (z : Nat → R) (moved : String → String) (p : List (Dev0Op R)) (hp : ∀ c ∈ p, ¬ c.PlainCopy)
    {V : List (Option R)} {os : List R} (hs : specDev0 z p [] = some (V, os)) (he : ∀ x ∈ V, x = none) :
    ∃ s, runDev0 z moved p ⟨[], []⟩ = .ok (s, os) ∧ ∀ x ∈ s.mem, x = none := by
  obtain ⟨s, h1, h2, _, h3⟩ := C171_history_partial z moved p hp hs
  refine ⟨s, h1, fun x hx => ?_⟩
  obtain ⟨k, hk⟩ := List.getElem?_of_mem hx
  have hlt := (List.getElem?_eq_some_iff.1 hk).1
  obtain ⟨⟨a, _⟩, _⟩ := h3 k (by omega)
  obtain ⟨y, hy⟩ : ∃ y, V[k]? = some y := ⟨_, List.getElem?_eq_getElem (by omega)⟩
  have := he y (List.mem_of_getElem? hy)
  subst this
  rw [hk, hy] at a
  simpa using a

/-- **C171 (unknown modes).** Creating a tensor with an unknown mode throws. -/
theorem C171_unknown (z : Nat → R) (moved : String → String) (s : Dev0State R) (n : String) (v : R) :
    (Dev0Op.step z moved s (.ofDims .unknown)).isError ∧ (Dev0Op.step z moved s (.named n .unknown)).isError ∧
      (Dev0Op.step z moved s (.ofHost v .unknown)).isError := ⟨rfl, rfl, rfl⟩

/-- **C171 (copies, refuted).** After every program, the plain copy `DeviceTensor<T, 0> x(y)` of a tensor makes a tensor without memory:
reading it, assigning a number to it, assigning it to a tensor and assigning a tensor to it all throw or are undefined. -/
theorem C171_copy_refuted (z : Nat → R) (moved : String → String) (p : List (Dev0Op R)) (hp : ∀ c ∈ p, ¬ c.PlainCopy) {V : List (Option R)}
    {os : List R} (hs : specDev0 z p [] = some (V, os)) {k : Nat} {v : R} (hk : V[k]?.join = some v) :
    ∃ s, runDev0 z moved (p ++ [.copy k .unknown]) ⟨[], []⟩ = .ok (s, os) ∧
      ∀ r w, Dev0Op.step z moved s (.get V.length) ≠ .ok r ∧ Dev0Op.step z moved s (.set V.length w) ≠ .ok r ∧
        Dev0Op.step z moved s (.assign k V.length) ≠ .ok r ∧ Dev0Op.step z moved s (.assign V.length k) ≠ .ok r := by
  obtain ⟨s, h1, h2⟩ := dev0_run z moved p hp (s := ⟨[], []⟩) (V := []) ⟨rfl, rfl, by simp, by simp⟩ hs
  obtain ⟨n, m, hm, ho, hc, e1, e2, e3, e4⟩ := dev0_live h2 hk
  have happ : ∀ (p q : List (Dev0Op R)) (s s1 s2 : Dev0State R) (o1 o2 : List R), runDev0 z moved p s = .ok (s1, o1) →
      runDev0 z moved q s1 = .ok (s2, o2) → runDev0 z moved (p ++ q) s = .ok (s2, o1 ++ o2) := by
    intro p
    induction p with
    | nil =>
      intro q s s1 s2 o1 o2 a b
      simp only [runDev0, Outcome.ok.injEq, Prod.mk.injEq] at a
      obtain ⟨rfl, rfl⟩ := a
      simpa using b
    | cons c p ih =>
      intro q s s1 s2 o1 o2 a b
      simp only [List.cons_append, runDev0] at a ⊢
      cases hst : c.step z moved s with
      | error e => rw [hst] at a; cases a
      | ub e => rw [hst] at a; cases a
      | ok r =>
        rw [hst] at a
        simp only [Outcome.ok_bind] at a ⊢
        cases hrn : runDev0 z moved p r.1 with
        | error e => rw [hrn] at a; cases a
        | ub e => rw [hrn] at a; cases a
        | ok r2 =>
          rw [hrn] at a
          simp only [Outcome.ok_bind, Outcome.ok.injEq, Prod.mk.injEq] at a
          obtain ⟨rfl, rfl⟩ := a
          rw [ih q r.1 r2.1 s2 r2.2 o2 hrn b]
          simp
  refine ⟨{ s with objs := s.objs ++ [some ⟨"(Unnamed)", m, none⟩] }, ?_, ?_⟩
  · have := happ p [.copy k .unknown] ⟨[], []⟩ s { s with objs := s.objs ++ [some ⟨"(Unnamed)", m, none⟩] } os [] h1
      (by simp only [runDev0, Dev0Op.step, e1, Outcome.ok_bind]; rw [if_neg hm]; rfl)
    simpa using this
  · have hob : Dev0State.obj { s with objs := s.objs ++ [some ⟨"(Unnamed)", m, none⟩] } V.length = .ok ⟨"(Unnamed)", m, none⟩ := by
      simp only [Dev0State.obj]; rw [← h2.olen, List.getElem?_concat_length]
    have hok : Dev0State.obj { s with objs := s.objs ++ [some ⟨"(Unnamed)", m, none⟩] } k = .ok ⟨n, m, some k⟩ := by
      simp only [Dev0State.obj]; rw [List.getElem?_append_left (List.getElem?_eq_some_iff.1 ho).1, ho]
    have hld : Dev0State.loadDev { s with objs := s.objs ++ [some ⟨"(Unnamed)", m, none⟩] } ⟨n, m, some k⟩ = .ok v := e2
    intro r w
    refine ⟨?_, ?_, ?_, ?_⟩
    · simp only [Dev0Op.step, hob, Outcome.ok_bind]
      cases m <;> simp_all [Dev0State.value, Dev0State.loadHost, Dev0State.loadDev]
    · simp only [Dev0Op.step, hob, Outcome.ok_bind]
      cases m <;> simp_all [Dev0State.put, Dev0State.storeHost, Dev0State.storeDev]
    · simp only [Dev0Op.step, hob, hok, Outcome.ok_bind]
      simp [Dev0State.loadDev]
    · simp only [Dev0Op.step, hob, hok, hld, Outcome.ok_bind]
      simp [Dev0State.storeDev]

/-- **C171 (names, partial).** Assigning, updating and reading keep the name and the mode of every tensor. -/
theorem C171_names_partial (z : Nat → R) (moved : String → String) (s s' : Dev0State R) (o : Option R) (c : Dev0Op R)
    (hc : (∃ i j, c = .assign i j) ∨ (∃ k v, c = .set k v) ∨ (∃ k op v, c = .compound k op v) ∨ ∃ k, c = .get k)
    (h : c.step z moved s = .ok (s', o)) : s'.objs = s.objs := by
  have hst : ∀ (x : Dev0) (v : R) (t : Dev0State R), s.storeDev x v = .ok t → t.objs = s.objs := by
    intro x v t ht
    unfold Dev0State.storeDev at ht
    split at ht
    · cases ht
    · split at ht <;> cases ht; rfl
  have hsh : ∀ (x : Dev0) (v : R) (t : Dev0State R), s.storeHost x v = .ok t → t.objs = s.objs := by
    intro x v t ht
    unfold Dev0State.storeHost at ht
    split at ht
    · cases ht
    · split at ht
      · split at ht <;> cases ht; rfl
      · cases ht
  have hpt : ∀ (x : Dev0) (v : R) (t : Dev0State R), s.put x v = .ok t → t.objs = s.objs := by
    intro x v t ht
    unfold Dev0State.put at ht
    split at ht
    · exact hsh _ _ _ ht
    · split at ht
      · exact hst _ _ _ ht
      · cases ht
  have hb : ∀ {α β : Type} {x : Outcome α} {g : α → Outcome β} {y : β}, (x >>= g) = .ok y → ∃ a, x = .ok a ∧ g a = .ok y := by
    intro α β x g y hx
    cases x with
    | ok a => exact ⟨a, rfl, hx⟩
    | error e => cases hx
    | ub e => cases hx
  rcases hc with ⟨i, j, rfl⟩ | ⟨k, v, rfl⟩ | ⟨k, op, v, rfl⟩ | ⟨k, rfl⟩
  · simp only [Dev0Op.step] at h
    obtain ⟨_, _, h⟩ := hb h
    obtain ⟨_, _, h⟩ := hb h
    obtain ⟨_, _, h⟩ := hb h
    obtain ⟨t, ht, h⟩ := hb h
    have := Outcome.ok.inj h
    simp only [Prod.mk.injEq] at this
    rw [← this.1]; exact hst _ _ _ ht
  · simp only [Dev0Op.step] at h
    obtain ⟨_, _, h⟩ := hb h
    obtain ⟨t, ht, h⟩ := hb h
    have := Outcome.ok.inj h
    simp only [Prod.mk.injEq] at this
    rw [← this.1]; exact hpt _ _ _ ht
  · simp only [Dev0Op.step] at h
    obtain ⟨_, _, h⟩ := hb h
    obtain ⟨_, _, h⟩ := hb h
    obtain ⟨t, ht, h⟩ := hb h
    have := Outcome.ok.inj h
    simp only [Prod.mk.injEq] at this
    rw [← this.1]; exact hpt _ _ _ ht
  · simp only [Dev0Op.step] at h
    obtain ⟨_, _, h⟩ := hb h
    obtain ⟨_, _, h⟩ := hb h
    have := Outcome.ok.inj h
    simp only [Prod.mk.injEq] at this
    rw [← this.1]

/-- **C171 (names, refuted).** Converting a tensor to a host tensor takes its name away: with strings that are empty after they have been
moved from, a named tensor has no name afterwards.  And a copy of a tensor does not have its name. -/
theorem C171_names_refuted (z : Nat → R) (moved : String → String) (hmv : ∀ n, moved n = "") (n : String) (hn' : n ≠ "(Unnamed)")
    (v : R) : ∃ s t u, runDev0 z moved [.named n .mapped, .set 0 v] ⟨[], []⟩ = .ok (s, []) ∧ s.objs = [some ⟨n, .mapped, some 0⟩] ∧
      Dev0Op.step z moved s (.toHost 0) = .ok (t, some v) ∧ t.objs = [some ⟨"", .mapped, some 0⟩] ∧
      Dev0Op.step z moved s (.copy 0 .mapped) = .ok (u, none) ∧ ∃ c, u.objs[1]? = some (some c) ∧ c.name ≠ n ∧ u.value c = .ok v := by
  refine ⟨⟨[some (.mapped, v)], [some ⟨n, .mapped, some 0⟩]⟩, ⟨[some (.mapped, v)], [some ⟨"", .mapped, some 0⟩]⟩,
    ⟨[some (.mapped, v), some (.mapped, v)], [some ⟨n, .mapped, some 0⟩, some ⟨"(Unnamed)", .mapped, some 1⟩]⟩, rfl, rfl, ?_, rfl, rfl,
    _, rfl, fun e => hn' e.symm, rfl⟩
  have : Dev0Op.step z moved ⟨[some (.mapped, v)], [some ⟨n, .mapped, some 0⟩]⟩ (.toHost 0) =
    .ok (⟨[some (.mapped, v)], [some ⟨moved n, .mapped, some 0⟩]⟩, some v) := rfl
  rw [this, hmv]

end

/-- `x("a", DEV_ONLY); y(5.0 on the host, MAPPED); x = y; x += 2; z(x, PINNED); y = x; x ends; (T) y; (Tensor) z`. -/
private def ex0 : List (Dev0Op Int) :=
  [.named "a" .devOnly, .ofHost 5 .mapped, .assign 0 1, .compound 0 .add 2, .copy 0 .pinned, .assign 1 0, .destroy 0, .get 1, .compound 2 .mul 3,
    .toHost 2]

example : specDev0 (fun _ => 99) ex0 [] = some ([none, some 7, some 21], [7, 21]) := by decide
example : ∀ c ∈ ex0, ¬ c.PlainCopy := by simp [ex0, Dev0Op.PlainCopy]
example : runDev0 (fun _ => 99) (fun _ => "") ex0 ⟨[], []⟩ = .ok (⟨[none, some (.mapped, 7), some (.pinned, 21)],
    [none, some ⟨"(Unnamed)", .mapped, some 1⟩, some ⟨"", .pinned, some 2⟩]⟩, [7, 21]) := by decide
/-- After destroying the rest. -/
example : ∃ os, specDev0 (fun _ => (99 : Int)) (ex0 ++ [.destroy 2, .destroy 1]) [] = some ([none, none, none], os) := ⟨_, rfl⟩
/-- The plain copy of a tensor in MAPPED memory: reading it dereferences the null pointer. -/
example : (runDev0 (fun _ => (99 : Int)) id [.ofHost 5 .mapped, .copy 0 .unknown, .get 1] ⟨[], []⟩).isUb := by decide

end Einsums.Props
