import Verif.Spec.Timer

/-
Model of starting and shutting down the library: `initialize`, the overloads of `finalize` (src/InitializeFinalize.cpp), the handles of the
GPU (src/_GPUUtils.hip) and what the Python package does at import and exit (einsums/__init__.py, src/python/PyMain.cpp).

The timers and their report are those of Model/Timer.lean.  The BLAS back end has nothing to do (backends/linear_algebra/vendor/Vendor.cpp
195–198).  Contracts of HIP: creating succeeds; destroying a pool that does not exist fails, and `hip_catch` throws.
-/
namespace Einsums.Model
open Spec

/-- InitializeFinalize.cpp 51–91: where a report goes. -/
inductive ReportSink where
  | stdout
  | file (name : String)
  deriving DecidableEq, Repr

/-- _GPUUtils.hip 463–510: the memory pools that exist (`pools`), the variable `pool`, and the vectors of streams and handles: null, or with as
many elements as there were threads. -/
structure GpuLib where
  next : Nat
  pools : List Nat
  pool : Option Nat
  streams : Option Nat
  blas : Option Nat
  solver : Option Nat
  waits : Option Nat
  deriving DecidableEq, Repr

/-- _GPUUtils.hip 463 (and the null pointers of the vectors): a new process. -/
def GpuLib.fresh : GpuLib := ⟨0, [], none, none, none, none, none⟩

/-- _GPUUtils.hip 465–511: `gpu::initialize`; `threads` is `omp_get_max_threads()`. -/
def GpuLib.initialize (threads : Nat) (g : GpuLib) : GpuLib :=
  { next := g.next + 1
    pools := g.next :: g.pools
    pool := some g.next
    streams := some (g.streams.getD threads)
    blas := some (g.blas.getD threads)
    solver := some (g.solver.getD threads)
    waits := some (g.waits.getD threads) }

/-- _GPUUtils.hip 513–538: `gpu::finalize`. -/
def GpuLib.finalize (g : GpuLib) : Outcome GpuLib :=
  match g.pool with
  | none => .error "hipMemPoolDestroy"
  | some p =>
      if p ∈ g.pools then .ok { g with pools := g.pools.erase p, streams := none, blas := none, solver := none }
      else .error "hipMemPoolDestroy"

/-- _GPUUtils.hip 548–553: `stream_wait(may_skip)` on a thread: `skip_waits->at`, then the stream of the thread (`default_streams->at`). -/
def GpuLib.streamWait (thread : Nat) (g : GpuLib) : Outcome Unit :=
  match g.waits, g.streams with
  | some w, some s =>
      if w ≤ thread then .error "std::out_of_range" else if s ≤ thread then .error "std::out_of_range" else .ok ()
  | _, _ => .ub "null pointer"

/-- InitializeFinalize.cpp 21–91: the library in a process: its timers, the GPU if it was built for one, and the reports written so far. -/
structure LibState where
  timer : TimerState
  gpu : Option GpuLib
  reports : List (ReportSink × List TimerState.ReportLine)
  deriving DecidableEq, Repr

/-- InitializeFinalize.cpp 21–36: a new process; `gpu`: built with HIP. -/
def LibState.fresh (gpu : Bool) : LibState := ⟨.fresh, if gpu then some .fresh else none, []⟩

/-- InitializeFinalize.cpp 21–36: `initialize`, by thread 0 outside of parallel regions. -/
def LibState.initialize (threads : Nat) (clk : Nat → Int) (L : LibState) : Outcome LibState := do
  let t ← L.timer.initialise 0 false clk
  .ok { L with timer := t, gpu := L.gpu.map (GpuLib.initialize threads) }

/-- InitializeFinalize.cpp 38–45: `finalize_pre`. -/
def LibState.finalizePre (L : LibState) : Outcome LibState :=
  match L.gpu with
  | none => .ok L
  | some g => do
      let g ← g.finalize
      .ok { L with gpu := some g }

/-- InitializeFinalize.cpp 51–91: what `finalize` is called with. -/
inductive FinalizeArg where
  | flag (report : Bool)
  | cstring (name : String)
  | string (name : String)
  deriving DecidableEq, Repr

/-- InitializeFinalize.cpp 73–80, 82–89: `finalize(file_pointer)` and `finalize(output_stream)`; `written`: what the file or stream takes. -/
def LibState.finalizeTo (debug : Bool) (ps : PrintState) (written : List TimerState.ReportLine → Outcome (List (ReportSink × List TimerState.ReportLine)))
    (L : LibState) : Outcome LibState := do
  let L ← L.finalizePre
  let r ← L.timer.report 0 ps
  let w ← written r.2
  let t ← L.timer.finalize debug
  .ok { L with timer := t, reports := L.reports ++ w }

/-- InitializeFinalize.cpp 51–71: `finalize`.  `openable`: the files that can be opened for writing.  A stream that could not be opened takes
nothing; `fprintf` to a null pointer is undefined. -/
def LibState.finalize (debug : Bool) (openable : String → Bool) (ps : PrintState) : FinalizeArg → LibState → Outcome LibState
  | .flag true, L => L.finalizeTo debug ps (fun r => .ok [(.stdout, r)])
  | .flag false, L => .ok L
  | .cstring name, L =>
      L.finalizeTo debug ps (fun r => if openable name then .ok [(.file name, r)] else .ub "fprintf to a null pointer")
  | .string name, L => L.finalizeTo debug ps (fun r => .ok (if openable name then [(.file name, r)] else []))

/-- PyMain.cpp 47–55, __init__.py 40: an argument of `finalize` in Python. -/
inductive PyFinalizeArg where
  | flag (report : Bool)
  | name (file : String)
  deriving DecidableEq, Repr

/-- PyMain.cpp 49–52: the overloads of `core.finalize`. -/
def PyFinalizeArg.toCpp : PyFinalizeArg → FinalizeArg
  | .flag b => .flag b
  | .name f => .cstring f

/-- __init__.py 35–49: the library, the variable `__outfile` of the package and the argument registered with `atexit`. -/
structure PyPackage where
  lib : LibState
  outfile : PyFinalizeArg
  atexit : PyFinalizeArg
  deriving DecidableEq, Repr

/-- __init__.py 35–49: importing the package: `core.initialize()`, `__outfile = False`, and `atexit.register(core.finalize, __outfile)` stores
the value that `__outfile` has then. -/
def PyPackage.import' (threads : Nat) (clk : Nat → Int) (L : LibState) : Outcome PyPackage := do
  let L ← L.initialize threads clk
  .ok ⟨L, .flag false, .flag false⟩

/-- __init__.py 40–46: `set_finalize_arg` assigns to a local variable (there is no `global`). -/
def PyPackage.setFinalizeArg (_arg : PyFinalizeArg) (m : PyPackage) : PyPackage := m

/-- __init__.py 49: the exit of the interpreter. -/
def PyPackage.exit (debug : Bool) (openable : String → Bool) (ps : PrintState) (m : PyPackage) : Outcome LibState :=
  m.lib.finalize debug openable ps m.atexit.toCpp

/-- __init__.py 35–49: a session: the import, the calls of `set_finalize_arg`, the timed work of the library, the exit. -/
def pySession (threads : Nat) (clk : Nat → Int) (debug : Bool) (openable : String → Bool) (ps : PrintState) (args : List PyFinalizeArg)
    (work : List TimerOp) (L : LibState) : Outcome LibState := do
  let m ← PyPackage.import' threads clk L
  let m := args.foldl (fun m a => m.setFinalizeArg a) m
  let t ← m.lib.timer.run work
  PyPackage.exit debug openable ps { m with lib := { m.lib with timer := t } }

end Einsums.Model
