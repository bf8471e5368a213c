import Verif.Spec.Shutdown
import Verif.Props.Timer

/-
C164: the library shuts down and leaves its timing report where it was asked to.
-/
namespace Einsums.Props
open Spec Model

/-- Shutting down with a report. -/
theorem finalizeTo_ok {debug : Bool} {ps ps' : PrintState} {lines : List TimerState.ReportLine}
    {written : List TimerState.ReportLine → Outcome (List (ReportSink × List TimerState.ReportLine))} {L : LibState}
    (hg : ∀ g, L.gpu = some g → ∃ p, g.pool = some p ∧ g.pools = [p])
    (hr : L.timer.report 0 ps = .ok (ps', lines)) {w : List (ReportSink × List TimerState.ReportLine)} (hw : written lines = .ok w)
    (hd : debug = true → L.timer.root = L.timer.current) :
    ∃ L', L.finalizeTo debug ps written = .ok L' ∧ ShutDown L' ∧ L'.reports = L.reports ++ w ∧ L'.gpu.isSome = L.gpu.isSome := by
  have hfin : L.timer.finalize debug = .ok { L.timer with nodes := [], current := none, root := none } := by
    unfold TimerState.finalize
    rw [if_neg]
    rintro ⟨h1, h2⟩
    exact h2 (hd h1)
  obtain ⟨timer, gpu, reports⟩ := L
  cases gpu with
  | none =>
      refine ⟨⟨{ timer with nodes := [], current := none, root := none }, none, reports ++ w⟩, ?_, ⟨rfl, rfl, rfl, ?_⟩, rfl, rfl⟩
      · simp only [LibState.finalizeTo, LibState.finalizePre, Outcome.ok_bind]
        simp only at hr hfin
        rw [hr, Outcome.ok_bind, hw, Outcome.ok_bind, hfin, Outcome.ok_bind]
      · intro g h; cases h
  | some g =>
      obtain ⟨p, hp, hps⟩ := hg g rfl
      refine ⟨⟨{ timer with nodes := [], current := none, root := none }, some { g with pools := [], streams := none, blas := none, solver := none },
        reports ++ w⟩, ?_, ⟨rfl, rfl, rfl, ?_⟩, rfl, rfl⟩
      · simp only [LibState.finalizeTo, LibState.finalizePre, GpuLib.finalize, hp, hps, List.mem_singleton, if_true, Outcome.ok_bind,
          List.erase_cons_head]
        simp only at hr hfin
        rw [hr, Outcome.ok_bind, hw, Outcome.ok_bind, hfin, Outcome.ok_bind]
      · intro g' h
        cases h
        exact ⟨rfl, rfl, rfl, rfl⟩

/-- Running the timers after `initialize`. -/
theorem use_start (u : LibUse) (L : LibState) :
    ∃ st, L.initialize u.threads u.clk >>= (fun L => L.timer.run u.work >>= fun t => Outcome.ok { L with timer := t }) =
      .ok { timer := st, gpu := L.gpu.map (GpuLib.initialize u.threads), reports := L.reports } ∧ TimerRep st u.log := by
  obtain ⟨st, e, hrep⟩ := lifetime_rep L.timer 0 false u.clk u.work
  refine ⟨st, ?_, hrep⟩
  unfold lifetime at e
  cases e1 : L.timer.initialise 0 false u.clk with
  | error m => rw [e1] at e; cases e
  | ub m => rw [e1] at e; cases e
  | ok t =>
      rw [e1, Outcome.ok_bind] at e
      unfold LibState.initialize
      simp only [e1, Outcome.ok_bind, e]

/-- A use is its start and its end. -/
theorem use_run (debug : Bool) (openable : String → Bool) (ps : PrintState) (u : LibUse) (L : LibState) :
    ∃ st, TimerRep st u.log ∧ u.run debug openable ps L = LibState.finalize debug openable ps u.arg
      { timer := st, gpu := L.gpu.map (GpuLib.initialize u.threads), reports := L.reports } := by
  obtain ⟨st, e, hrep⟩ := use_start u L
  refine ⟨st, hrep, ?_⟩
  unfold LibUse.run
  cases e1 : L.initialize u.threads u.clk with
  | error m => rw [e1] at e; cases e
  | ub m => rw [e1] at e; cases e
  | ok L1 =>
      rw [e1, Outcome.ok_bind] at e
      rw [Outcome.ok_bind]
      cases e2 : L1.timer.run u.work with
      | error m => simp only [e2] at e; cases e
      | ub m => simp only [e2] at e; cases e
      | ok t =>
          simp only [e2, Outcome.ok_bind] at e ⊢
          rw [Outcome.ok.inj e]

/-- What `finalize` finds. -/
theorem use_report (debug : Bool) (openable : String → Bool) (indents : List IndentOp) (u : LibUse) (L : LibState) (hL : ShutDown L)
    (hfit : ∀ p ∈ u.log.pushed, (runIndent indents .init).indentLevel + 4 * p.length ≤ 70)
    (hclosed : debug = true → u.log.openTimers = some []) :
    ∃ L1 lines, u.run debug openable (runIndent indents .init) L = LibState.finalize debug openable (runIndent indents .init) u.arg L1 ∧
      L1.reports = L.reports ∧ L1.gpu.isSome = L.gpu.isSome ∧
      (∀ g, L1.gpu = some g → ∃ p, g.pool = some p ∧ g.pools = [p]) ∧
      L1.timer.report 0 (runIndent indents .init) = .ok (runIndent indents .init, lines) ∧
      IsReport (runIndent indents .init).indentLevel u.log lines ∧ (debug = true → L1.timer.root = L1.timer.current) := by
  obtain ⟨st, hr2, hrun⟩ := use_run debug openable (runIndent indents .init) u L
  obtain ⟨b, hb, _⟩ := indentInv_run indents 0 _ indentInv_init
  have hne : ∀ p ∈ u.log.pushed, p ≠ [] := by
    rintro p hp rfl
    exact (List.nodup_cons.1 hr2.tree.nodup).1 hp
  obtain ⟨paths, hr, hnd, hmem, hpw⟩ := report_of_rep hr2 hb (fun p hp => by
    have := hfit p hp
    rw [hb.level] at this; omega)
  have hrepo : IsReport (runIndent indents .init).indentLevel u.log
      (paths.map fun p : TimerPath => (⟨4 * (b + p.length : Nat), p.headD [], st.timeOf p, st.callsOf p⟩ : TimerState.ReportLine)) := by
    refine ⟨paths, ?_, hnd, hmem, hpw⟩
    apply List.map_congr_left
    intro p hp
    obtain ⟨c1, c2⟩ := callsOf_eq hr2.tree p (hne p ((hmem p).1 hp))
    rw [c1, c2, hb.level, show (4 * ((b + p.length : Nat) : Int)) = 4 * (b : Int) + 4 * (p.length : Int) by push_cast; ring]
  refine ⟨_, _, hrun, rfl, by simp, ?_, hr, hrepo, fun hdb => ?_⟩
  · intro g hg
    simp only [Option.map_eq_some_iff] at hg
    obtain ⟨g0, h0, rfl⟩ := hg
    exact ⟨g0.next, rfl, by simp only [GpuLib.initialize]; rw [(hL.2.2.2 g0 h0).1]⟩
  · obtain ⟨i, hi, hi0⟩ := hr2.openAt [] (hclosed hdb)
    have : i = 0 := index_unique hr2.tree.nodup hi0 rfl
    simp only
    rw [hi, this, hr2.tree.root]

/-- **C164 (partial).** `initialize`, any timed work, and `finalize` with `true` or a file: the report of that work goes where it was asked
for, once, and nothing of the library is left, so that it can be initialised again.  Missing: `finalize()` and `finalize(false)`
(`C164_default_refuted`); files that cannot be opened (`C164_unopenable_refuted`); timers that are nested too deep for the report
(`C62_deep_refuted`); in debug builds, timers that are still running (an assertion). -/
theorem C164_use_partial (debug : Bool) (openable : String → Bool) (indents : List IndentOp) (u : LibUse) (L : LibState) (hL : ShutDown L)
    (s : ReportSink) (h : u.Reports debug openable (runIndent indents .init).indentLevel s) :
    ∃ L' lines, u.run debug openable (runIndent indents .init) L = .ok L' ∧ ShutDown L' ∧
      IsReport (runIndent indents .init).indentLevel u.log lines ∧ L'.reports = L.reports ++ [(s, lines)] ∧
      L'.gpu.isSome = L.gpu.isSome := by
  obtain ⟨L1, lines, hrun, hreps, hgpu, hpool, hr, hrepo, hd⟩ := use_report debug openable indents u L hL h.fits h.closed
  have ho := h.writable
  have hfin : ∃ written, LibState.finalize debug openable (runIndent indents .init) u.arg L1 =
      LibState.finalizeTo debug (runIndent indents .init) written L1 ∧ written lines = .ok [(s, lines)] := by
    have hs := h.sink
    cases ha : u.arg with
    | flag r =>
        cases r with
        | false => rw [ha] at hs; cases hs
        | true =>
            rw [ha] at hs
            cases hs
            exact ⟨fun r => .ok [(.stdout, r)], rfl, rfl⟩
    | cstring f =>
        rw [ha] at hs
        cases hs
        exact ⟨fun r => if openable f then .ok [(.file f, r)] else .ub "fprintf to a null pointer", rfl,
          if_pos (show openable f = true from ho)⟩
    | string f =>
        rw [ha] at hs
        cases hs
        exact ⟨fun r => .ok (if openable f then [(.file f, r)] else []), rfl,
          congrArg Outcome.ok (if_pos (show openable f = true from ho))⟩
  obtain ⟨written, hw, hl⟩ := hfin
  obtain ⟨L', h1, h2, h3, h4⟩ := finalizeTo_ok (debug := debug) hpool hr hl hd
  exact ⟨L', lines, by rw [hrun, hw, h1], h2, hrepo, by rw [h3, hreps], by rw [h4, hgpu]⟩

/-- **C164 (partial): any number of uses.** A process may use the library again and again: each use leaves its own report, in order, and
nothing else.  Missing: as in `C164_use_partial`. -/
theorem C164_uses_partial (debug : Bool) (openable : String → Bool) (indents : List IndentOp) (us : List LibUse) :
    ∀ L, ShutDown L → (∀ u ∈ us, ∃ s, u.Reports debug openable (runIndent indents .init).indentLevel s) →
    ∃ L' reports, runUses debug openable (runIndent indents .init) us L = .ok L' ∧ ShutDown L' ∧ L'.reports = L.reports ++ reports ∧
      List.Forall₂ (fun u (r : ReportSink × List TimerState.ReportLine) =>
        sinkOf u.arg = some r.1 ∧ IsReport (runIndent indents .init).indentLevel u.log r.2) us reports := by
  induction us with
  | nil => intro L hL _; exact ⟨L, [], rfl, hL, by simp, .nil⟩
  | cons u us ih =>
      intro L hL hus
      obtain ⟨s, hs⟩ := hus u (by simp)
      obtain ⟨L1, lines, e1, h1, hrep, hr1, _⟩ := C164_use_partial debug openable indents u L hL s hs
      obtain ⟨L2, reps, e2, h2, hr2, hf⟩ := ih L1 h1 (fun v hv => hus v (by simp [hv]))
      refine ⟨L2, (s, lines) :: reps, ?_, h2, ?_, .cons ⟨hs.sink, hrep⟩ hf⟩
      · unfold runUses
        rw [e1, Outcome.ok_bind, e2]
      · rw [hr2, hr1]; simp

/-- **C164 (refuted: the default).** `finalize()`, which is `finalize(false)`, shuts nothing down: after any number of uses that end with it
there is no report, the timers are still there, and on a GPU there is one more memory pool for every use. -/
theorem C164_default_refuted (debug : Bool) (openable : String → Bool) (ps : PrintState) (us : List LibUse) (hus : us ≠ [])
    (ha : ∀ u ∈ us, u.arg = .flag false) (gpu : Bool) :
    ∃ L', runUses debug openable ps us (.fresh gpu) = .ok L' ∧ L'.reports = [] ∧ ¬ ShutDown L' ∧ L'.gpu.isSome = gpu ∧
      ∀ g, L'.gpu = some g → g.pools.length = us.length ∧ g.streams.isSome ∧ g.blas.isSome ∧ g.solver.isSome := by
  have key : ∀ (us : List LibUse), (∀ u ∈ us, u.arg = .flag false) → ∀ L : LibState, ∃ L', runUses debug openable ps us L = .ok L' ∧
      L'.reports = L.reports ∧ L'.gpu.isSome = L.gpu.isSome ∧
      (us ≠ [] → L'.timer.root = some 0) ∧
      ∀ g g', L.gpu = some g → L'.gpu = some g' → g'.pools.length = g.pools.length + us.length ∧
        (us ≠ [] → g'.streams.isSome ∧ g'.blas.isSome ∧ g'.solver.isSome) := by
    intro us
    induction us with
    | nil =>
        intro _ L
        refine ⟨L, rfl, rfl, rfl, fun h => absurd rfl h, fun g g' h1 h2 => ?_⟩
        rw [h1] at h2; cases h2
        exact ⟨rfl, fun h => absurd rfl h⟩
    | cons u us ih =>
        intro ha L
        obtain ⟨st, hst, e⟩ := use_run debug openable ps u L
        rw [ha u (by simp)] at e
        obtain ⟨L', e', hr, hg, ht, hp⟩ := ih (fun v hv => ha v (by simp [hv]))
          { timer := st, gpu := L.gpu.map (GpuLib.initialize u.threads), reports := L.reports }
        refine ⟨L', ?_, hr, by rw [hg]; simp, ?_, ?_⟩
        · unfold runUses
          rw [e]
          exact e'
        · intro _
          by_cases c : us = []
          · subst c
            cases e'
            exact hst.tree.root
          · exact ht c
        · intro g g' h1 h2
          obtain ⟨p1, p2⟩ := hp (GpuLib.initialize u.threads g) g' (by simp [h1]) h2
          refine ⟨by rw [p1]; simp [GpuLib.initialize]; omega, fun _ => ?_⟩
          by_cases c : us = []
          · subst c
            cases e'
            simp only [h1, Option.map_some, Option.some.injEq] at h2
            rw [← h2]
            exact ⟨rfl, rfl, rfl⟩
          · exact p2 c
  obtain ⟨L', e, hr, hg, ht, hp⟩ := key us ha (.fresh gpu)
  refine ⟨L', e, hr, fun hsd => ?_, ?_, fun g hgg => ?_⟩
  · have := ht hus
    rw [hsd.2.1] at this
    cases this
  · rw [hg]; cases gpu <;> rfl
  · cases gpu with
    | false => rw [hgg] at hg; cases hg
    | true =>
        obtain ⟨p1, p2⟩ := hp .fresh g rfl hgg
        exact ⟨by rw [p1]; simp [GpuLib.fresh], p2 hus⟩

/-- **C164 (refuted: twice).** Shutting down a library that is not running, or has been shut down: with a GPU it throws, without one it
reads through a null pointer. -/
theorem C164_twice_refuted (debug : Bool) (openable : String → Bool) (ps : PrintState) (arg : FinalizeArg) (ha : sinkOf arg ≠ none)
    (L : LibState) (hL : ShutDown L) :
    (L.gpu.isSome → ∃ m, LibState.finalize debug openable ps arg L = .error m) ∧
    (L.gpu = none → (LibState.finalize debug openable ps arg L).isUb = true) := by
  obtain ⟨timer, gpu, reports⟩ := L
  obtain ⟨_, hroot, _, hgpu⟩ := hL
  simp only at hroot hgpu
  have hfin : ∀ written, (∀ g, gpu = some g → ∃ m, LibState.finalizeTo debug ps written ⟨timer, gpu, reports⟩ = .error m) ∧
      (gpu = none → (LibState.finalizeTo debug ps written ⟨timer, gpu, reports⟩).isUb = true) := by
    intro written
    constructor
    · rintro g rfl
      have hp := (hgpu g rfl).1
      refine ⟨"hipMemPoolDestroy", ?_⟩
      have hf : g.finalize = .error "hipMemPoolDestroy" := by
        unfold GpuLib.finalize
        cases g.pool with
        | none => rfl
        | some p => simp only [hp, List.not_mem_nil, if_false]
      unfold LibState.finalizeTo LibState.finalizePre
      simp only [hf]
      rfl
    · rintro rfl
      unfold LibState.finalizeTo LibState.finalizePre
      simp only [Outcome.ok_bind, TimerState.report, hroot]
      rfl
  have hall : ∃ written, LibState.finalize debug openable ps arg ⟨timer, gpu, reports⟩ =
      LibState.finalizeTo debug ps written ⟨timer, gpu, reports⟩ := by
    cases arg with
    | flag r =>
        cases r with
        | false => exact absurd rfl ha
        | true => exact ⟨fun r => .ok [(.stdout, r)], rfl⟩
    | cstring f => exact ⟨fun r => if openable f then .ok [(.file f, r)] else .ub "fprintf to a null pointer", rfl⟩
    | string f => exact ⟨fun r => .ok (if openable f then [(.file f, r)] else []), rfl⟩
  obtain ⟨written, hw⟩ := hall
  rw [hw]
  refine ⟨fun h => ?_, (hfin written).2⟩
  obtain ⟨g, hg⟩ := Option.isSome_iff_exists.1 h
  exact (hfin written).1 g hg

/-- **C164 (refuted: files that cannot be opened).** Given as a C string, the name of a file that cannot be opened makes the report write
through a null pointer; given as a C++ string, the report is lost and nobody is told. -/
theorem C164_unopenable_refuted (debug : Bool) (openable : String → Bool) (indents : List IndentOp) (u : LibUse) (L : LibState)
    (hL : ShutDown L) (f : String) (hf : openable f = false) (hfit : ∀ p ∈ u.log.pushed, (runIndent indents .init).indentLevel + 4 * p.length ≤ 70)
    (hclosed : debug = true → u.log.openTimers = some []) :
    (u.arg = .cstring f → (u.run debug openable (runIndent indents .init) L).isUb = true) ∧
    (u.arg = .string f → ∃ L', u.run debug openable (runIndent indents .init) L = .ok L' ∧ ShutDown L' ∧ L'.reports = L.reports) := by
  obtain ⟨L1, lines, hrun, hreps, hgpu, hpool, hr, hrepo, hd⟩ := use_report debug openable indents u L hL hfit hclosed
  constructor
  · intro ha
    rw [hrun, ha]
    obtain ⟨timer, gpu, reports⟩ := L1
    simp only [LibState.finalize, LibState.finalizeTo]
    have hpre : ∃ gpu', LibState.finalizePre ⟨timer, gpu, reports⟩ = .ok ⟨timer, gpu', reports⟩ := by
      cases gpu with
      | none => exact ⟨none, rfl⟩
      | some g =>
          obtain ⟨p, hp, hps⟩ := hpool g rfl
          simp only [LibState.finalizePre, GpuLib.finalize, hp, hps, List.mem_singleton, if_true, Outcome.ok_bind]
          exact ⟨_, rfl⟩
    obtain ⟨gpu', hpre⟩ := hpre
    rw [hpre, Outcome.ok_bind]
    simp only at hr ⊢
    rw [hr, Outcome.ok_bind]
    simp only [hf]
    rfl
  · intro ha
    obtain ⟨L', h1, h2, h3, _⟩ := finalizeTo_ok (debug := debug) hpool hr
      (written := fun r => .ok (if openable f then [(.file f, r)] else [])) (w := []) (by simp only [hf]; rfl) hd
    exact ⟨L', by rw [hrun, ha]; exact h1, h2, by rw [h3, hreps]; simp⟩

/-- **C164 (refuted: Python).** Whatever a program has given to `set_finalize_arg`, and whatever it has done, nothing is reported when Python
exits, and the library is not shut down. -/
theorem C164_python_refuted (threads : Nat) (clk : Nat → Int) (debug : Bool) (openable : String → Bool) (ps : PrintState)
    (args : List PyFinalizeArg) (work : List TimerOp) (gpu : Bool) :
    ∃ L', pySession threads clk debug openable ps args work (.fresh gpu) = .ok L' ∧ L'.reports = [] ∧ ¬ ShutDown L' := by
  obtain ⟨st, e, hrep⟩ := use_start ⟨threads, clk, work, .flag false⟩ (.fresh gpu)
  refine ⟨{ timer := st, gpu := (LibState.fresh gpu).gpu.map (GpuLib.initialize threads), reports := [] }, ?_, rfl, fun h => ?_⟩
  rotate_left
  · have := hrep.tree.root
    rw [h.2.1] at this
    cases this
  · unfold pySession PyPackage.import'
    simp only at e
    cases e1 : LibState.initialize threads clk (.fresh gpu) with
    | error m => rw [e1] at e; cases e
    | ub m => rw [e1] at e; cases e
    | ok L1 =>
        rw [e1, Outcome.ok_bind] at e
        simp only [Outcome.ok_bind]
        have hid : ∀ (args : List PyFinalizeArg) (m : PyPackage), args.foldl (fun m a => m.setFinalizeArg a) m = m := by
          intro args
          induction args with
          | nil => intro m; rfl
          | cons a args ih => intro m; exact ih _
        rw [hid]
        cases e2 : L1.timer.run work with
        | error m => simp only [e2] at e; cases e
        | ub m => simp only [e2] at e; cases e
        | ok t =>
            simp only [e2, Outcome.ok_bind] at e ⊢
            exact e

/-- **C164 (refuted: other numbers of threads).** After a use with fewer threads, waiting for the GPU throws on every thread beyond them,
although the library has been shut down, and initialised again for that thread, in between. -/
theorem C164_waits_refuted (g : GpuLib) (hw : g.waits = none) (n m t : Nat) (hn : n ≤ t) (hm : t < m) :
    ∃ g', ((g.initialize n).finalize >>= fun g => .ok (g.initialize m)) = .ok g' ∧ g'.streams = some m ∧
      g'.streamWait t = .error "std::out_of_range" ∧ (g.streams = none → (g.initialize m).streamWait t = .ok ()) := by
  refine ⟨⟨g.next + 1 + 1, (g.next + 1) :: g.pools, some (g.next + 1), some m, some m, some m, some n⟩, ?_, rfl, ?_, fun h => ?_⟩
  · simp [GpuLib.finalize, GpuLib.initialize, hw]
  · simp only [GpuLib.streamWait, if_pos hn]
  · simp only [GpuLib.streamWait, GpuLib.initialize, hw, h, Option.getD_none]
    rw [if_neg (by omega), if_neg (by omega)]

/-- A use with one timed block. -/
def useEx (arg : FinalizeArg) : LibUse := ⟨4, fun _ => 0, [.push 0 false [97] 5, .pop 0 7], arg⟩

theorem useEx_log (arg : FinalizeArg) : (useEx arg).log.pushed = [[TimerState.overheadName], [[97]]] ∧ (useEx arg).log.openTimers = some [] := by
  obtain ⟨h1, h2, _⟩ := overhead_log (fun _ => 0) 1000
  have hlog : (useEx arg).log = (TimerLog.start.run (overheadOps 0 false (fun _ => 0) 1000)).run [.push 0 false [97] 5, .pop 0 7] := by
    have h : ∀ u : LibUse, u.log = (TimerLog.start.run (overheadOps 0 false u.clk 1000)).run u.work := by
      intro u
      have : u.log = TimerLog.start.run (overheadOps 0 false u.clk 1000 ++ u.work) := rfl
      rw [this, TimerLog.run, List.foldl_append]
      rfl
    rw [h]
    rfl
  rw [hlog]
  generalize TimerLog.start.run (overheadOps 0 false (fun _ => 0) 1000) = l at h1 h2
  have hne : ¬ [([97] : TimerName)] ∈ l.pushed := by rw [h2]; decide
  constructor
  · simp only [TimerLog.run, List.foldl_cons, List.foldl_nil, TimerLog.step, if_true, h1, Bool.false_eq_true, if_false, List.map_nil, hne,
      TimerLog.complete]
    rw [h2]
    rfl
  · simp only [TimerLog.run, List.foldl_cons, List.foldl_nil, TimerLog.step, if_true, h1, Bool.false_eq_true, if_false, TimerLog.complete]

theorem useEx_reports (debug : Bool) (arg : FinalizeArg) (s : ReportSink) (h : sinkOf arg = some s) :
    (useEx arg).Reports debug (fun f => f == "out.txt" || f == "log") (runIndent [] .init).indentLevel s ↔
      Writable (fun f => f == "out.txt" || f == "log") s := by
  obtain ⟨h1, h2⟩ := useEx_log arg
  refine ⟨fun h => h.writable, fun hw => ⟨h, hw, ?_, fun _ => h2⟩⟩
  rw [h1]
  intro p hp
  simp only [List.mem_cons, List.not_mem_nil, or_false] at hp
  rcases hp with rfl | rfl <;> decide

/-- Non-vacuity of `C164_use_partial` and `C164_uses_partial`: uses that end with a file, standard output, and a file again. -/
example : ∀ u ∈ [useEx (.cstring "out.txt"), useEx (.flag true), useEx (.string "log")],
    ∃ s, u.Reports true (fun f => f == "out.txt" || f == "log") (runIndent [] .init).indentLevel s := by
  intro u hu
  simp only [List.mem_cons, List.not_mem_nil, or_false] at hu
  rcases hu with rfl | rfl | rfl
  · exact ⟨.file "out.txt", (useEx_reports _ _ _ rfl).2 (by simp [Writable])⟩
  · exact ⟨.stdout, (useEx_reports _ _ _ rfl).2 trivial⟩
  · exact ⟨.file "log", (useEx_reports _ _ _ rfl).2 (by simp [Writable])⟩

/-- A new process is shut down, with or without a GPU. -/
theorem fresh_shutDown (gpu : Bool) : ShutDown (.fresh gpu) := by
  refine ⟨rfl, rfl, rfl, fun g hg => ?_⟩
  cases gpu with
  | false => cases hg
  | true => cases hg; exact ⟨rfl, rfl, rfl, rfl⟩

/-- Non-vacuity of `C164_unopenable_refuted`: a file in a directory that does not exist. -/
example : ((useEx (.cstring "no/such")).run true (fun f => f == "out.txt") (runIndent [] .init) (.fresh true)).isUb = true :=
  (C164_unopenable_refuted true _ [] (useEx (.cstring "no/such")) (.fresh true) (fresh_shutDown true) "no/such" (by decide)
    (by
      rw [(useEx_log _).1]
      intro p hp
      simp only [List.mem_cons, List.not_mem_nil, or_false] at hp
      rcases hp with rfl | rfl <;> decide)
    (fun _ => (useEx_log _).2)).1 rfl

/-- Non-vacuity of `C164_waits_refuted`: two threads, then four; the third and fourth cannot wait. -/
example : GpuLib.fresh.waits = none ∧ (2 : Nat) ≤ 3 ∧ 3 < 4 := by decide

/-- Non-vacuity of `C164_twice_refuted` and `C164_default_refuted`. -/
example : sinkOf (.flag true) ≠ none ∧ ShutDown (.fresh true) ∧ (useEx (.flag false)).arg = .flag false :=
  ⟨by decide, fresh_shutDown true, rfl⟩

end Einsums.Props
