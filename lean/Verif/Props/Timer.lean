import Verif.Proofs.Timer
import Verif.Props.Print
import Verif.Props.Stl
/-
Timers: accounting (C37), report (C62), sections (C60).
-/
namespace Einsums.Props
open Spec Model

/-- `initialize` and the calls after it, from any earlier state. -/
def lifetime (st : TimerState) (thread : Nat) (par : Bool) (clk : Nat → Int) (ops : List TimerOp) : Outcome TimerState :=
  st.initialise thread par clk >>= fun st => st.run ops

theorem lifetime_rep (st : TimerState) (thread : Nat) (par : Bool) (clk : Nat → Int) (ops : List TimerOp) :
    ∃ st', lifetime st thread par clk ops = .ok st' ∧ TimerRep st' (TimerLog.start.run (overheadOps thread par clk 1000 ++ ops)) := by
  obtain ⟨st1, e1, h1⟩ := timerRep_run (overheadOps thread par clk 1000) (timerRep_start st)
  obtain ⟨st2, e2, h2⟩ := timerRep_run ops h1
  refine ⟨st2, ?_, ?_⟩
  · unfold lifetime TimerState.initialise
    rw [overhead_eq, e1, Outcome.ok_bind, e2]
  · unfold TimerLog.run at *
    rw [List.foldl_append]; exact h2

/-! ### C37 -/

/-- **C37 (any history).** After `initialize` and any sequence of calls by any threads, nothing has gone wrong, and every
timer has the number of calls and the accumulated time of the completed pairs of its path; a timer exists if its path has
been pushed; the current timer is the innermost open one.  `TimerLog.run` says which calls complete which. -/
theorem C37_history (st : TimerState) (thread : Nat) (par : Bool) (clk : Nat → Int) (ops : List TimerOp) :
    ∃ st', lifetime st thread par clk ops = .ok st' ∧
      ∃ log, log = TimerLog.start.run (overheadOps thread par clk 1000 ++ ops) ∧
      (∀ p, p ≠ [] → st'.callsOf p = log.calls p ∧ st'.timeOf p = log.time p ∧ ((st'.find p).isSome ↔ p ∈ log.pushed)) ∧
      st'.current = log.openTimers.bind fun fs => st'.find (fs.map (·.1)) := by
  obtain ⟨st', e, h⟩ := lifetime_rep st thread par clk ops
  refine ⟨st', e, _, rfl, ?_, ?_⟩
  · intro p hp
    obtain ⟨h1, h2⟩ := callsOf_eq h.tree p hp
    refine ⟨h1, h2, ?_⟩
    rw [Option.isSome_iff_exists]
    constructor
    · rintro ⟨i, hi⟩
      have := List.mem_of_getElem? ((find_iff h.tree p i).1 hi)
      simpa [hp] using this
    · intro hm
      obtain ⟨i, hi⟩ := List.mem_iff_getElem?.1 (List.mem_cons_of_mem [] hm)
      exact ⟨i, (find_iff h.tree p i).2 hi⟩
  · cases ho : (TimerLog.start.run (overheadOps thread par clk 1000 ++ ops)).openTimers with
    | none => rw [h.closedAt ho]; rfl
    | some fs =>
      obtain ⟨i, hi, hp⟩ := h.openAt fs ho
      rw [hi, Option.bind_some, (find_iff h.tree _ i).2 hp]

/-- What a well-nested program does to the log. -/
theorem program_log (prog : TimedProgram) : ∀ (l : TimerLog) (fs : List (TimerName × Int)), l.openTimers = some fs →
    (l.run prog.ops).openTimers = some fs ∧
    ((l.run prog.ops).completed).Perm (l.completed ++ prog.blocks (fs.map (·.1))) := by
  induction prog with
  | done => intro l fs h; exact ⟨h, by simp [TimedProgram.ops, TimedProgram.blocks, TimerLog.run]⟩
  | block name par start stop body rest ihb ihr =>
    intro l fs h
    have hrun : ∀ (l : TimerLog) a b, l.run (a ++ b) = (l.run a).run b := by
      intro l a b; simp [TimerLog.run]
    have hcons : ∀ (l : TimerLog) a b, l.run (a :: b) = (l.step a).run b := by
      intro l a b; simp [TimerLog.run]
    rw [TimedProgram.ops, hcons, hrun, hcons, TimedProgram.blocks]
    set l1 := l.step (.push 0 par name start) with hl1
    have e1 : l1.openTimers = some ((TimedProgram.effective name par, start) :: fs) := by
      rw [hl1]; simp only [TimerLog.step, if_true, h]; rfl
    have e1' : l1.completed = l.completed := by
      rw [hl1]; simp only [TimerLog.step, if_true, h]
    obtain ⟨b1, b2⟩ := ihb l1 _ e1
    set l2 := l1.run body.ops
    have hc : ∀ l3, l3 = l2.step (TimedProgram.stopOp stop) → l3.openTimers = some fs ∧
        l3.completed = l2.completed ++ [(TimedProgram.effective name par :: fs.map (·.1), TimedProgram.duration start stop)] := by
      intro l3 hl3
      cases stop with
      | now t =>
        simp only [TimedProgram.stopOp, TimerLog.step, if_true, TimerLog.complete, b1] at hl3
        rw [hl3]; exact ⟨rfl, rfl⟩
      | elapsed d =>
        simp only [TimedProgram.stopOp, TimerLog.step, if_true, TimerLog.complete, b1] at hl3
        rw [hl3]; exact ⟨rfl, rfl⟩
    obtain ⟨c1, c2⟩ := hc _ rfl
    obtain ⟨r1, r2⟩ := ihr _ fs c1
    refine ⟨r1, r2.trans ?_⟩
    rw [c2]
    refine ((b2.append_right _).append_right _).trans ?_
    rw [e1']
    simp only [List.map_cons, List.append_assoc, List.singleton_append]
    refine List.Perm.append_left _ ?_
    exact List.perm_middle

/-- **C37 (nested blocks).** In every state reached while timers are open, running a program with well-nested timers
returns to the same timer, and adds to every timer exactly the number and the durations of the program's blocks with that
path. -/
theorem C37_nested (st : TimerState) (thread : Nat) (par : Bool) (clk : Nat → Int) (ops : List TimerOp) :
    ∃ st1, lifetime st thread par clk ops = .ok st1 ∧
      ∀ i p, st1.current = some i → st1.find p = some i → ∀ prog : TimedProgram, ∃ st2, st1.run prog.ops = .ok st2 ∧
        st2.current = st1.current ∧
        ∀ q, q ≠ [] →
          st2.callsOf q = st1.callsOf q + ((prog.blocks p).filter (·.1 = q)).length ∧
          st2.timeOf q = st1.timeOf q + (((prog.blocks p).filter (·.1 = q)).map (·.2)).sum := by
  obtain ⟨st1, e, h⟩ := lifetime_rep st thread par clk ops
  refine ⟨st1, e, ?_⟩
  intro i p hc hf prog
  generalize TimerLog.start.run (overheadOps thread par clk 1000 ++ ops) = l at h
  obtain ⟨st2, e2, h2⟩ := timerRep_run prog.ops h
  have hp := (find_iff h.tree p i).1 hf
  cases ho : l.openTimers with
  | none => rw [h.closedAt ho] at hc; cases hc
  | some fs =>
    obtain ⟨i', hi', hfs⟩ := h.openAt fs ho
    rw [hc] at hi'; cases hi'
    have hpe : p = fs.map (·.1) := by
      rw [hp] at hfs; exact Option.some.inj hfs
    subst hpe
    obtain ⟨o2, c2⟩ := program_log prog l fs ho
    refine ⟨st2, e2, ?_, ?_⟩
    · obtain ⟨j, hj, hjp⟩ := h2.openAt fs o2
      rw [hj, hc]
      have hmono : ∀ (ops : List TimerOp) (l : TimerLog), l.pushed <+: (l.run ops).pushed := by
        intro ops
        induction ops with
        | nil => intro l; exact List.prefix_rfl
        | cons op ops ih =>
          intro l
          refine List.IsPrefix.trans ?_ (ih (l.step op))
          cases op with
          | push t pr nm nw =>
            simp only [TimerLog.step]
            split
            · split
              · exact List.prefix_rfl
              · simp only
                generalize (if pr = true then nm ++ TimerState.masterSuffix else nm) = n
                split
                · exact List.prefix_rfl
                · exact List.prefix_append _ _
            · exact List.prefix_rfl
          | pop t nw =>
            simp only [TimerLog.step, TimerLog.complete]
            split
            · split <;> exact List.prefix_rfl
            · exact List.prefix_rfl
          | popElapsed t nw =>
            simp only [TimerLog.step, TimerLog.complete]
            split
            · split <;> exact List.prefix_rfl
            · exact List.prefix_rfl
      obtain ⟨t, ht⟩ := hmono prog.ops l
      have : ([] :: (l.run prog.ops).pushed)[i]? = some (fs.map (·.1)) := by
        rw [← ht, ← List.cons_append, List.getElem?_append_left (List.getElem?_eq_some_iff.1 hp).1, hp]
      rw [index_unique h2.tree.nodup hjp this]
    · intro q hq
      obtain ⟨a1, a2⟩ := callsOf_eq h.tree q hq
      obtain ⟨b1, b2⟩ := callsOf_eq h2.tree q hq
      rw [a1, a2, b1, b2]
      have hperm := c2.filter (fun c => decide (c.1 = q))
      constructor
      · unfold TimerLog.calls
        rw [hperm.length_eq, List.filter_append, List.length_append]
      · unfold TimerLog.time
        rw [(hperm.map (·.2)).sum_eq, List.filter_append, List.map_append, List.sum_append]

/-- **C37 (other threads).** Calls by threads other than the master change nothing. -/
theorem C37_threads (st : TimerState) (ops : List TimerOp) : st.run ops = st.run (ops.filter (·.thread = 0)) := by
  induction ops generalizing st with
  | nil => rfl
  | cons op ops ih =>
    by_cases c : op.thread = 0
    · rw [List.filter_cons_of_pos (by simpa using c)]
      unfold TimerState.run at *
      rw [List.foldlM_cons, List.foldlM_cons]
      congr 1
      funext st
      exact ih st
    · rw [List.filter_cons_of_neg (by simpa using c)]
      have : st.step op = .ok st := by
        cases op with
        | push t pr nm nw => simp only [TimerOp.thread] at c; simp [TimerState.step, TimerState.push, c]
        | pop t nw => simp only [TimerOp.thread] at c; simp [TimerState.step, TimerState.pop, c]
        | popElapsed t nw => simp only [TimerOp.thread] at c; simp [TimerState.step, TimerState.popElapsed, c]
      rw [← ih]
      unfold TimerState.run
      rw [List.foldlM_cons, this, Outcome.ok_bind]

/-- The log of the loop of `initialize`. -/
theorem overhead_log (clk : Nat → Int) (n : Nat) : (TimerLog.start.run (overheadOps 0 false clk n)).openTimers = some [] ∧
    (TimerLog.start.run (overheadOps 0 false clk n)).pushed = (if n = 0 then [] else [[TimerState.overheadName]]) ∧
    (TimerLog.start.run (overheadOps 0 false clk n)).calls [TimerState.overheadName] = n := by
  induction n with
  | zero => exact ⟨rfl, rfl, rfl⟩
  | succ n ih =>
    obtain ⟨i1, i2, i3⟩ := ih
    have hs : overheadOps 0 false clk (n + 1) = overheadOps 0 false clk n ++
        [.push 0 false TimerState.overheadName (clk (2 * n)), .pop 0 (clk (2 * n + 1))] := by
      simp [overheadOps, List.range_succ]
    rw [hs]
    unfold TimerLog.run at *
    rw [List.foldl_append]
    generalize List.foldl TimerLog.step TimerLog.start (overheadOps 0 false clk n) = l at i1 i2 i3
    simp only [List.foldl_cons, List.foldl_nil, TimerLog.step, if_true, i1, TimerLog.complete, Bool.false_eq_true, if_false]
    refine ⟨trivial, ?_, ?_⟩
    · simp only [List.map_nil]
      rw [i2]
      by_cases c : n = 0
      · simp [c]
      · simp [c]
    · rw [(log_complete_calls ⟨l.openTimers, _, l.completed⟩ _ _ _ _).1]
      simp only [List.map_nil, if_true]
      have : (TimerLog.mk l.openTimers (if [TimerState.overheadName] ∈ l.pushed then l.pushed
        else l.pushed ++ [[TimerState.overheadName]]) l.completed).calls [TimerState.overheadName] = n := i3
      rw [this]

theorem initialise_rep (st : TimerState) (clk : Nat → Int) :
    ∃ st' l, st.initialise 0 false clk = .ok st' ∧ TimerRep st' l ∧ l.openTimers = some [] ∧
      l.pushed = [[TimerState.overheadName]] ∧ l.calls [TimerState.overheadName] = 1000 := by
  obtain ⟨st', e, h⟩ := timerRep_run (overheadOps 0 false clk 1000) (timerRep_start st)
  obtain ⟨l1, l2, l3⟩ := overhead_log clk 1000
  exact ⟨st', _, by unfold TimerState.initialise; rw [overhead_eq, e], h, l1, l2, l3⟩

/-- **C37 (`initialize`).** Called by the main thread, it leaves the root as current timer and one timer, with 1000 calls. -/
theorem C37_initialize (st : TimerState) (clk : Nat → Int) :
    ∃ st', st.initialise 0 false clk = .ok st' ∧ st'.current = st'.find [] ∧ (st'.find []).isSome ∧
      (∀ p, p ≠ [] → ((st'.find p).isSome ↔ p = [TimerState.overheadName])) ∧
      st'.callsOf [TimerState.overheadName] = 1000 := by
  obtain ⟨st', l, e, h, l1, l2, l3⟩ := initialise_rep st clk
  refine ⟨st', e, ?_, ?_, ?_, ?_⟩
  · obtain ⟨i, hi, hp⟩ := h.openAt [] l1
    rw [hi, (find_iff h.tree [] i).2 hp]
  · rw [TimerState.find, h.tree.root]; rfl
  · intro p hp
    rw [Option.isSome_iff_exists]
    constructor
    · rintro ⟨i, hi⟩
      have := List.mem_of_getElem? ((find_iff h.tree p i).1 hi)
      rw [l2] at this
      simpa [hp] using this
    · rintro rfl
      refine ⟨1, (find_iff h.tree _ 1).2 ?_⟩
      rw [l2]; rfl
  · rw [(callsOf_eq h.tree _ (by simp)).1, l3]

/-- **C37 (refuted: an unmatched `pop`).** Popping the root loses the current timer: from then on no call changes any
timer, so later blocks are not accounted for. -/
theorem C37_unmatched_refuted (st : TimerState) (clk : Nat → Int) (t : Int) :
    ∃ st', lifetime st 0 false clk [.pop 0 t] = .ok st' ∧ st'.current = none ∧
      ∀ ops, ∃ st'', st'.run ops = .ok st'' ∧ st''.nodes = st'.nodes ∧ st''.current = none := by
  obtain ⟨st1, l, e1, h1, l1, _, _⟩ := initialise_rep st clk
  obtain ⟨st', e, h⟩ := timerRep_run [.pop 0 t] h1
  have hnone : st'.current = none := by
    apply h.closedAt
    simp only [TimerLog.run, List.foldl_cons, List.foldl_nil, TimerLog.step, if_true, TimerLog.complete, l1]
  refine ⟨st', by unfold lifetime; rw [e1, Outcome.ok_bind, e], hnone, ?_⟩
  intro ops
  clear e h e1 h1
  induction ops generalizing st' with
  | nil => exact ⟨st', rfl, rfl, hnone⟩
  | cons op ops ih =>
    have hstep : ∃ s, st'.step op = .ok s ∧ s.nodes = st'.nodes ∧ s.current = none := by
      cases op with
      | push th pr nm nw =>
        simp only [TimerState.step, TimerState.push, hnone]
        split
        · split
          · exact ⟨_, rfl, rfl, hnone⟩
          · exact ⟨_, rfl, rfl, rfl⟩
        · exact ⟨_, rfl, rfl, hnone⟩
      | pop th nw =>
        simp only [TimerState.step, TimerState.pop, hnone]
        split
        · split
          · exact ⟨_, rfl, rfl, hnone⟩
          · exact ⟨_, rfl, rfl, rfl⟩
        · exact ⟨_, rfl, rfl, hnone⟩
      | popElapsed th nw =>
        simp only [TimerState.step, TimerState.popElapsed, hnone]
        split
        · split
          · exact ⟨_, rfl, rfl, hnone⟩
          · exact ⟨_, rfl, rfl, rfl⟩
        · exact ⟨_, rfl, rfl, hnone⟩
    obtain ⟨s, e1, e2, e3⟩ := hstep
    obtain ⟨s', f1, f2, f3⟩ := ih s e3
    refine ⟨s', ?_, f2.trans e2, f3⟩
    unfold TimerState.run at *
    rw [List.foldlM_cons, e1, Outcome.ok_bind, f1]

/-- A program with a block inside a block, run twice over. -/
example : ((TimedProgram.block [97] false 0 (.now 10) (.block [98] false 2 (.elapsed 3) .done .done)
      (.block [97] false 20 (.now 25) .done .done)).blocks []) = [([[97]], 10), ([[98], [97]], 3), ([[97]], 5)] ∧
    ((TimedProgram.block [97] false 0 (.now 10) (.block [98] false 2 (.elapsed 3) .done .done)
      (.block [97] false 20 (.now 25) .done .done)).ops.length = 6) := by decide

/-! ### C62: the report -/

/-- The line of the timer with path `p` when the report begins at level `b`. -/
def lineOf (l : TimerLog) (b : Nat) (p : TimerPath) : TimerState.ReportLine :=
  ⟨4 * (b + p.length : Nat), p.headD [], l.time p, l.calls p⟩

theorem indent_deindent {k : Nat} {ps : PrintState} (h : IndentInv k ps) :
    IndentInv (k + 1) (ps.indent 0) ∧ (ps.indent 0).deindent 0 = ps := by
  have h1 : IndentInv (k + 1) (ps.indent 0) := by
    simp only [PrintState.indent, if_true]
    apply indentInv_update
    simp [h.level]; omega
  refine ⟨h1, ?_⟩
  have h2 : IndentInv k ((ps.indent 0).deindent 0) := by
    simp only [PrintState.deindent, if_true]
    apply indentInv_update
    simp only [h1.level]
    split <;> omega
  generalize he : (ps.indent 0).deindent 0 = ps' at h2
  have i2 : ps'.suppress = ps.suppress := by rw [← he]; rfl
  have i3 : ps'.printMasterThreadId = ps.printMasterThreadId := by rw [← he]; rfl
  cases ps; cases ps'
  have e1 := h2.level; have e2 := h2.string; have e3 := h.level; have e4 := h.string
  simp only at e1 e2 e3 e4 i2 i3
  rw [PrintState.mk.injEq]
  exact ⟨by rw [e1, e3], by rw [e2, e4], i3, i2⟩

/-- The line fits: its width is not negative. -/
def fits (b : Nat) (p : TimerPath) : Bool := decide (4 * (b + p.length) ≤ 70)

/-- The error thrown for a timer too deep. -/
abbrev tooDeep : Outcome (PrintState × List TimerState.ReportLine) := .error "fmt::format_error: negative width"

theorem report_fold {l : TimerLog} {b : Nat} (ps : PrintState) (L : TimerName → List TimerPath)
    (f : PrintState × List TimerState.ReportLine → TimerName → Outcome (PrintState × List TimerState.ReportLine))
    (names : List TimerName)
    (hf : ∀ n ∈ names, ∀ acc, f (ps, acc) n =
      if (L n).all (fits b) then .ok (ps, acc ++ (L n).map (lineOf l b)) else tooDeep) : ∀ acc,
    names.foldlM f (ps, acc) =
      if (names.flatMap L).all (fits b) then .ok (ps, acc ++ (names.flatMap L).map (lineOf l b)) else tooDeep := by
  induction names with
  | nil => intro acc; simp
  | cons n names ih =>
    intro acc
    rw [List.foldlM_cons, hf n (by simp), List.flatMap_cons, List.all_append]
    cases c : (L n).all (fits b)
    · rfl
    · rw [if_pos rfl, Outcome.ok_bind, ih (fun m hm => hf m (by simp [hm])), Bool.true_and]
      simp

theorem printTimer_ok {st : TimerState} {l : TimerLog} (h : TreeRep st l) (b : Nat) (fuel : Nat) :
    ∀ (i : Nat) (p : TimerPath) (ps : PrintState), ([] :: l.pushed)[i]? = some p → IndentInv (b + p.length) ps →
    (∀ q ∈ l.pushed, p <:+ q → q.length < p.length + (fuel + 1)) →
    TimerState.printTimerInfo 0 st (fuel + 1) i ps =
      if ((if p = [] then [] else [p]) ++ below l.pushed fuel p).all (fits b) then
        .ok (ps, ((if p = [] then [] else [p]) ++ below l.pushed fuel p).map (lineOf l b))
      else tooDeep := by
  have finish : ∀ (i : Nat) (p : TimerPath) (ps : PrintState) (nd : TimerDetail) (fuel : Nat),
      ([] :: l.pushed)[i]? = some p → IndentInv (b + p.length) ps → st.nodes[i]? = some nd → NodeRep l p nd →
      TimerState.reportChildren 0 (TimerState.printTimerInfo 0 st fuel) nd ps =
        (if (below l.pushed fuel p).all (fits b) then
          .ok (ps, (below l.pushed fuel p).map (lineOf l b)) else tooDeep) →
      TimerState.printTimerInfo 0 st (fuel + 1) i ps =
        if ((if p = [] then [] else [p]) ++ below l.pushed fuel p).all (fits b) then
          .ok (ps, ((if p = [] then [] else [p]) ++ below l.pushed fuel p).map (lineOf l b))
        else tooDeep := by
    intro i p ps nd fuel hi hps n1 n2 hchildren
    have hroot : (st.root ≠ some i) ↔ p ≠ [] := by
      rw [h.root]
      constructor
      · rintro hne rfl
        exact hne (by rw [index_unique h.nodup hi (by simp : ([] :: l.pushed)[0]? = some [])])
      · rintro hne hx
        cases hx
        simp at hi
        exact hne hi
    rw [TimerState.printTimerInfo, deref_ok n1, Outcome.ok_bind, hchildren, List.all_append]
    by_cases c : p = []
    · rw [if_neg (by rw [hroot]; simpa using c), Outcome.ok_bind, if_pos c, List.nil_append, List.all_nil, Bool.true_and]
      cases (below l.pushed fuel p).all (fits b) <;> rfl
    · rw [if_pos (hroot.2 c), if_neg c]
      unfold TimerState.reportLine
      rw [hps.level]
      obtain ⟨n, q, rfl⟩ := List.exists_cons_of_ne_nil c
      by_cases c2 : 4 * (b + (n :: q).length) ≤ 70
      · have hf : fits b (n :: q) = true := by simpa [fits] using c2
        rw [if_neg (by omega), Outcome.map_ok, Outcome.ok_bind, List.all_cons, hf, List.all_nil, Bool.true_and, Bool.true_and]
        cases (below l.pushed fuel (n :: q)).all (fits b)
        · rfl
        · simp [lineOf, n2.name n q rfl, n2.time, n2.calls]
      · have hf : fits b (n :: q) = false := by simpa [fits] using c2
        rw [if_pos (by omega), List.all_cons, hf]
        rfl
  induction fuel with
  | zero =>
    intro i p ps hi hps hdepth
    obtain ⟨nd, n1, n2⟩ := h.node i p hi
    have hch : nd.children = [] := by
      cases hc : nd.children with
      | nil => rfl
      | cons c cs =>
        obtain ⟨m, j⟩ := c
        have : nd.children.lookup m = some j := by rw [hc]; simp
        have hm := List.mem_of_getElem? ((n2.children m j).1 this)
        have := hdepth (m :: p) (by simpa using hm) (List.suffix_cons _ _)
        simp at this
    refine finish i p ps nd 0 hi hps n1 n2 ?_
    unfold TimerState.reportChildren
    rw [if_pos hch]
    rfl
  | succ fuel ih =>
    intro i p ps hi hps hdepth
    obtain ⟨nd, n1, n2⟩ := h.node i p hi
    obtain ⟨hps1, hps2⟩ := indent_deindent hps
    refine finish i p ps nd (fuel + 1) hi hps n1 n2 ?_
    unfold TimerState.reportChildren
    by_cases hch : nd.children = []
    · rw [if_pos hch]
      have hnc : childNames l.pushed p = [] := by
        rw [List.eq_nil_iff_forall_not_mem]
        intro n hn
        obtain ⟨j, hj⟩ := List.mem_iff_getElem?.1 (List.mem_cons_of_mem [] (mem_childNames.1 hn))
        have := (n2.children n j).2 hj
        rw [hch] at this; cases this
      simp [below, hnc]
    · rw [if_neg hch, n2.order, report_fold (l := l) (b := b) (ps.indent 0)
        (fun n => (n :: p) :: below l.pushed fuel (n :: p))]
      · change (if (below l.pushed (fuel + 1) p).all (fits b) then _ else tooDeep) >>= _ = _
        cases (below l.pushed (fuel + 1) p).all (fits b)
        · rfl
        · rw [if_pos rfl, if_pos rfl, Outcome.ok_bind]
          simp only [hps2, List.nil_append]
          rfl
      · intro n hn acc
        obtain ⟨j, hj⟩ := List.mem_iff_getElem?.1 (List.mem_cons_of_mem [] (mem_childNames.1 hn))
        simp only [(n2.children n j).2 hj]
        rw [ih j (n :: p) (ps.indent 0) hj (by simpa [Nat.add_assoc] using hps1) (by
          intro q hq hs
          have := hdepth q hq ((List.suffix_cons _ _).trans hs)
          simp; omega)]
        rw [if_neg (by simp : ¬ n :: p = []), List.singleton_append]
        cases ((n :: p) :: below l.pushed fuel (n :: p)).all (fits b) <;> rfl

theorem closed_mem {st : TimerState} {l : TimerLog} (h : TreeRep st l) (n : TimerName) (p : TimerPath) (hm : n :: p ∈ l.pushed) :
    p = [] ∨ p ∈ l.pushed := by
  obtain ⟨i, hi⟩ := List.mem_iff_getElem?.1 (List.mem_cons_of_mem [] hm)
  obtain ⟨j, _, hj⟩ := h.closed i n p hi
  have := List.mem_of_getElem? hj
  simpa using this

theorem report_eq {st : TimerState} {l : TimerLog} (h : TreeRep st l) {b : Nat} {ps : PrintState} (hps : IndentInv b ps) :
    st.report 0 ps = if (below l.pushed l.pushed.length []).all (fits b) then
      .ok (ps, (below l.pushed l.pushed.length []).map (lineOf l b)) else tooDeep := by
  unfold TimerState.report
  rw [h.root]
  simp only
  rw [h.len, printTimer_ok h b l.pushed.length 0 [] ps (by simp) (by simpa using hps)]
  · simp
  · intro q hq _
    obtain ⟨i, hi⟩ := List.mem_iff_getElem?.1 hq
    have h1 := path_length h q (i + 1) (by simpa using hi)
    have h2 := (List.getElem?_eq_some_iff.1 hi).1
    simp; omega

theorem mem_below_root {st : TimerState} {l : TimerLog} (h : TreeRep st l) (p : TimerPath) :
    p ∈ below l.pushed l.pushed.length [] ↔ p ∈ l.pushed := by
  constructor
  · intro hp; exact (mem_below _ hp).2.2
  · intro hp
    have hne : p ≠ [] := by
      rintro rfl
      exact (List.nodup_cons.1 h.nodup).1 hp
    obtain ⟨i, hi⟩ := List.mem_iff_getElem?.1 hp
    have h1 := path_length h p (i + 1) (by simpa using hi)
    have h2 := (List.getElem?_eq_some_iff.1 hi).1
    exact below_complete (closed_mem h) p _ [] List.nil_suffix (Ne.symm hne) hp (by simp; omega)

theorem isSome_find {st : TimerState} {l : TimerLog} (h : TreeRep st l) (p : TimerPath) (hp : p ≠ []) :
    (st.find p).isSome ↔ p ∈ l.pushed := by
  rw [Option.isSome_iff_exists]
  constructor
  · rintro ⟨i, hi⟩
    have := List.mem_of_getElem? ((find_iff h p i).1 hi)
    simpa [hp] using this
  · intro hm
    obtain ⟨i, hi⟩ := List.mem_iff_getElem?.1 (List.mem_cons_of_mem [] hm)
    exact ⟨i, (find_iff h p i).2 hi⟩

/-- The report of a state. -/
theorem report_of_rep {st : TimerState} {l : TimerLog} (h : TimerRep st l) {ps : PrintState} {b : Nat} (hb : IndentInv b ps)
    (hfit : ∀ p ∈ l.pushed, 4 * (b + p.length) ≤ 70) :
    ∃ paths : List TimerPath,
      st.report 0 ps = .ok (ps, paths.map fun p => ⟨4 * (b + p.length : Nat), p.headD [], st.timeOf p, st.callsOf p⟩) ∧
      paths.Nodup ∧ (∀ p, p ∈ paths ↔ p ∈ l.pushed) ∧ paths.Pairwise (ReportedBefore l.pushed) := by
  have hne : ∀ p ∈ l.pushed, p ≠ [] := by
    rintro p hp rfl
    exact (List.nodup_cons.1 h.tree.nodup).1 hp
  have hpw := below_pairwise (List.nodup_cons.1 h.tree.nodup).2 l.pushed.length []
  refine ⟨below l.pushed l.pushed.length [], ?_, ?_, fun p => mem_below_root h.tree p, hpw⟩
  · have hm : (below l.pushed l.pushed.length []).map (lineOf l b) = (below l.pushed l.pushed.length []).map
        fun p => ⟨4 * (b + p.length : Nat), p.headD [], st.timeOf p, st.callsOf p⟩ := by
      apply List.map_congr_left
      intro p hp
      obtain ⟨c1, c2⟩ := callsOf_eq h.tree p (hne p ((mem_below_root h.tree p).1 hp))
      rw [lineOf, c1, c2]
    rw [report_eq h.tree hb, if_pos, hm]
    rw [List.all_eq_true]
    intro p hp
    simpa [fits] using hfit p ((mem_below_root h.tree p).1 hp)
  · refine hpw.imp ?_
    rintro p q hpq rfl
    exact reportedBefore_irrefl p hpq

/-- **C62 (partial).** After `initialize` and any sequence of calls, the report has exactly one line for every timer,
with its name, accumulated time and number of calls, indented by four spaces per level of nesting below the current
indentation; a timer comes before those inside it, and timers inside the same one come in the order in which they were
first pushed.  The indentation is afterwards what it was.  Missing: timers nested so deep that their indentation exceeds
70, see `C62_deep_refuted`. -/
theorem C62_report_partial (st : TimerState) (thread : Nat) (par : Bool) (clk : Nat → Int) (ops : List TimerOp)
    (indents : List IndentOp) :
    ∃ st', lifetime st thread par clk ops = .ok st' ∧
      ∃ b : Nat, (runIndent indents .init).indentLevel = 4 * b ∧
      ((∀ p, p ≠ [] → (st'.find p).isSome → 4 * (b + p.length) ≤ 70) →
      ∃ paths : List TimerPath,
        st'.report 0 (runIndent indents .init) = .ok (runIndent indents .init,
          paths.map fun p => ⟨4 * (b + p.length : Nat), p.headD [], st'.timeOf p, st'.callsOf p⟩) ∧
        paths.Nodup ∧ (∀ p, p ∈ paths ↔ p ≠ [] ∧ (st'.find p).isSome) ∧
        paths.Pairwise (ReportedBefore (TimerLog.start.run (overheadOps thread par clk 1000 ++ ops)).pushed)) := by
  obtain ⟨st', e, h⟩ := lifetime_rep st thread par clk ops
  obtain ⟨b, hb, _⟩ := indentInv_run indents 0 _ indentInv_init
  refine ⟨st', e, b, hb.level, ?_⟩
  intro hfit
  generalize TimerLog.start.run (overheadOps thread par clk 1000 ++ ops) = l at h ⊢
  have hne : ∀ p ∈ l.pushed, p ≠ [] := by
    rintro p hp rfl
    exact (List.nodup_cons.1 h.tree.nodup).1 hp
  obtain ⟨paths, hr, hnd, hmem, hpw⟩ := report_of_rep h hb (fun p hp => hfit p (hne p hp) ((isSome_find h.tree p (hne p hp)).2 hp))
  refine ⟨paths, hr, hnd, fun p => ?_, hpw⟩
  rw [hmem]
  constructor
  · intro hm; exact ⟨hne p hm, (isSome_find h.tree p (hne p hm)).2 hm⟩
  · rintro ⟨h1, h2⟩; exact (isSome_find h.tree p h1).1 h2

/-- **C62 (refuted: deep nesting).** With 18 or more timers nested, the report throws instead of listing them. -/
theorem C62_deep_refuted (st : TimerState) (clk : Nat → Int) (names : List TimerName) (hn : 18 ≤ names.length) :
    ∃ st', lifetime st 0 false clk (names.map fun n => .push 0 false n 0) = .ok st' ∧
      st'.report 0 .init = .error "fmt::format_error: negative width" := by
  obtain ⟨st1, l, e1, h1, l1, _, _⟩ := initialise_rep st clk
  obtain ⟨st', e, h⟩ := timerRep_run (names.map fun n => TimerOp.push 0 false n 0) h1
  have key : ∀ (names : List TimerName) (l : TimerLog) fs, l.openTimers = some fs →
      ∃ fs', (l.run (names.map fun n => TimerOp.push 0 false n 0)).openTimers = some fs' ∧ fs'.length = fs.length + names.length := by
    intro names
    induction names with
    | nil => intro l fs h; exact ⟨fs, h, rfl⟩
    | cons n names ih =>
      intro l fs h
      obtain ⟨fs', f1, f2⟩ := ih (l.step (.push 0 false n 0)) ((n, 0) :: fs) (by simp [TimerLog.step, h])
      exact ⟨fs', f1, by simp at f2 ⊢; omega⟩
  obtain ⟨fs, f1, f2⟩ := key names l [] l1
  obtain ⟨i, _, hi⟩ := h.openAt fs f1
  refine ⟨st', by unfold lifetime; rw [e1, Outcome.ok_bind, e], ?_⟩
  rw [report_eq h.tree indentInv_init, if_neg]
  rw [List.all_eq_true]
  intro hall
  have hm := List.mem_of_getElem? hi
  have hlen : (fs.map (·.1)).length = names.length := by simpa using f2
  have hm' : fs.map (·.1) ∈ (l.run (names.map fun n => TimerOp.push 0 false n 0)).pushed := by
    rw [List.mem_cons] at hm
    rcases hm with hm | hm
    · rw [hm] at hlen; simp at hlen; omega
    · exact hm
  have := hall _ ((mem_below_root h.tree _).2 hm')
  simp [fits] at this
  simp at hlen
  omega

/-- **C62 (refuted before `initialize`).** The report of a process that has not called `initialize` dereferences null. -/
theorem C62_uninitialised_refuted (ps : PrintState) : (TimerState.fresh.report 0 ps).isUb = true := rfl

/-- Two timers inside the first, reported in the order of their first push, not of their names. -/
example : ∃ st l, (TimerState.fresh.initialise 0 false (fun _ => 0)) = .ok st ∧ TimerRep st l ∧
    ReportedBefore [[[97]], [[99], [97]], [[98], [97]]] [[99], [97]] [[98], [97]] := by
  obtain ⟨st1, l, e1, h1, _⟩ := initialise_rep .fresh (fun _ => 0)
  exact ⟨st1, l, e1, h1, Or.inr ⟨[[97]], [99], [98], by simp, by simp, by decide, 1, 2, by decide, rfl, rfl⟩⟩

/-! ### C60: sections -/

/-- **C60 (a section is one block).** In every state reached while timers are open: a section around a well-nested
program, ended explicitly and then destroyed, or only destroyed, adds one call with the time from its construction to its
first end to the timer named by its trimmed name, adds what the program adds, and returns to the timer it began in.
Destroying it after `end()` has no further effect. -/
theorem C60_section (st : TimerState) (thread : Nat) (par0 : Bool) (clk : Nat → Int) (ops : List TimerOp) :
    ∃ st1, lifetime st thread par0 clk ops = .ok st1 ∧
      ∀ i p, st1.current = some i → st1.find p = some i →
      ∀ (par : Bool) (name : List UInt8) (t0 t1 t2 : Int) (prog : TimedProgram),
        ∃ s s' st2 st3 st4, SectionObj.construct 0 par name true t0 st1 = .ok (s, st2) ∧ st2.run prog.ops = .ok st3 ∧
          s.end' 0 t1 st3 = .ok (s', st4) ∧ s'.end' 0 t2 st4 = .ok (s', st4) ∧
          st4.current = st1.current ∧
          ∀ q, q ≠ [] →
            st4.callsOf q = st1.callsOf q +
              ((TimedProgram.block (trim name) par t0 (.now t1) prog .done).blocks p |>.filter (·.1 = q)).length ∧
            st4.timeOf q = st1.timeOf q +
              (((TimedProgram.block (trim name) par t0 (.now t1) prog .done).blocks p |>.filter (·.1 = q)).map (·.2)).sum := by
  obtain ⟨st1, e1, h1⟩ := C37_nested st thread par0 clk ops
  refine ⟨st1, e1, ?_⟩
  intro i p hc hf par name t0 t1 t2 prog
  obtain ⟨st4, e4, hcur, hq⟩ := h1 i p hc hf (.block (trim name) par t0 (.now t1) prog .done)
  simp only [TimedProgram.ops, TimedProgram.stopOp] at e4
  have hrc : ∀ (st : TimerState) a b, st.run (a :: b) = st.step a >>= fun st => st.run b := by
    intro st a b; rfl
  rw [hrc] at e4
  cases h2 : st1.step (.push 0 par (trim name) t0) with
  | error m => rw [h2] at e4; cases e4
  | ub m => rw [h2] at e4; cases e4
  | ok st2 =>
    rw [h2, Outcome.ok_bind, run_append] at e4
    cases h3 : st2.run prog.ops with
    | error m => rw [h3] at e4; cases e4
    | ub m => rw [h3] at e4; cases e4
    | ok st3 =>
      rw [h3, Outcome.ok_bind, hrc] at e4
      cases h4 : st3.step (.pop 0 t1) with
      | error m => rw [h4] at e4; cases e4
      | ub m => rw [h4] at e4; cases e4
      | ok st4' =>
        rw [h4, Outcome.ok_bind] at e4
        cases e4
        refine ⟨⟨some (trim name, true)⟩, ⟨none⟩, st2, st3, st4, ?_, h3, ?_, rfl, hcur, hq⟩
        · unfold SectionObj.construct
          simp only [TimerState.step] at h2
          rw [if_pos rfl, h2]; rfl
        · unfold SectionObj.end'
          simp only [TimerState.step] at h4
          simp only [h4]; rfl

/-- **C60 (untimed).** A section without timer changes no timer. -/
theorem C60_untimed (st : TimerState) (thread : Nat) (par : Bool) (name : List UInt8) (t0 t1 : Int) :
    ∃ s, SectionObj.construct thread par name false t0 st = .ok (s, st) ∧ s.end' thread t1 st = .ok (⟨none⟩, st) :=
  ⟨_, rfl, rfl⟩

/-- **C60 (refuted: sections that overlap).** When the outer section is ended first, the times are exchanged: here `a`
runs from 0 to 5 and `b`, begun inside it, from 1 to 9; recorded are 9 for `a` and 4 for `b`. -/
theorem C60_overlap_refuted (st : TimerState) (thread : Nat) (par0 : Bool) (clk : Nat → Int) (ops : List TimerOp)
    (a b : List UInt8) :
    ∃ st1, lifetime st thread par0 clk ops = .ok st1 ∧
      ∀ i p, st1.current = some i → st1.find p = some i →
      ∃ sa sb s' st2 st3 st4 st5, SectionObj.construct 0 false a true 0 st1 = .ok (sa, st2) ∧
        SectionObj.construct 0 false b true 1 st2 = .ok (sb, st3) ∧
        sa.end' 0 5 st3 = .ok (s', st4) ∧ sb.end' 0 9 st4 = .ok (s', st5) ∧
        st5.timeOf (trim a :: p) = st1.timeOf (trim a :: p) + 9 ∧
        st5.timeOf (trim b :: trim a :: p) = st1.timeOf (trim b :: trim a :: p) + 4 := by
  obtain ⟨st1, e1, h1⟩ := C37_nested st thread par0 clk ops
  refine ⟨st1, e1, ?_⟩
  intro i p hc hf
  obtain ⟨st5, e5, _, hq⟩ := h1 i p hc hf (.block (trim a) false 0 (.now 9) (.block (trim b) false 1 (.now 5) .done .done) .done)
  simp only [TimedProgram.ops, TimedProgram.stopOp, List.nil_append, List.cons_append] at e5
  have hrc : ∀ (st : TimerState) a b, st.run (a :: b) = st.step a >>= fun st => st.run b := by
    intro st a b; rfl
  rw [hrc] at e5
  cases h2 : st1.step (.push 0 false (trim a) 0) with
  | error m => rw [h2] at e5; cases e5
  | ub m => rw [h2] at e5; cases e5
  | ok st2 =>
  rw [h2, Outcome.ok_bind, hrc] at e5
  cases h3 : st2.step (.push 0 false (trim b) 1) with
  | error m => rw [h3] at e5; cases e5
  | ub m => rw [h3] at e5; cases e5
  | ok st3 =>
  rw [h3, Outcome.ok_bind, hrc] at e5
  cases h4 : st3.step (.pop 0 5) with
  | error m => rw [h4] at e5; cases e5
  | ub m => rw [h4] at e5; cases e5
  | ok st4 =>
  rw [h4, Outcome.ok_bind, hrc] at e5
  cases h5 : st4.step (.pop 0 9) with
  | error m => rw [h5] at e5; cases e5
  | ub m => rw [h5] at e5; cases e5
  | ok st5' =>
  rw [h5, Outcome.ok_bind] at e5
  cases e5
  simp only [TimerState.step] at h2 h3 h4 h5
  refine ⟨⟨some (trim a, true)⟩, ⟨some (trim b, true)⟩, ⟨none⟩, st2, st3, st4, st5, ?_, ?_, ?_, ?_, ?_, ?_⟩
  · unfold SectionObj.construct; rw [if_pos rfl, h2]; rfl
  · unfold SectionObj.construct; rw [if_pos rfl, h3]; rfl
  · unfold SectionObj.end'; simp only [h4]; rfl
  · unfold SectionObj.end'; simp only [h5]; rfl
  · have h := (hq (trim a :: p) (by simp)).2
    have hne : ¬ (trim b :: trim a :: p = trim a :: p) := fun e => absurd (congrArg List.length e) (by simp)
    simpa [TimedProgram.blocks, TimedProgram.effective, TimedProgram.duration, List.filter_cons, hne] using h
  · have h := (hq (trim b :: trim a :: p) (by simp)).2
    have hne : ¬ (trim a :: p = trim b :: trim a :: p) := fun e => absurd (congrArg List.length e) (by simp)
    simpa [TimedProgram.blocks, TimedProgram.effective, TimedProgram.duration, List.filter_cons, hne] using h

end Einsums.Props
