import Mathlib.Logic.Function.Basic
/-
Streams of the GPU, the threads that queue work in them and wait for it: src/_GPUUtils.hip, set_stream, get_stream, skip_next_wait, stream_wait,
all_stream_wait.

Every step is one atomic action of a thread or of the device.  Sections under `wait_mutex` are one step.  An exception leaves the function
without an effect unless said otherwise.
Contracts of HIP: a stream does its operations in the order they were queued; an event recorded in a stream is reached when everything queued
before it is done; `hipEventSynchronize` returns when the event is reached.
Simplifications: the library is initialised; streams given by the user exist; the creation and destruction of events are left out.
-/
namespace Einsums.Model

/-- _GPUUtils.hip 465–496 (hipStream_t): the threads that queued the operations of a stream, in order, and how many are done. -/
structure GStream where
  log : List Nat
  done : Nat
  deriving Repr, DecidableEq

/-- _GPUUtils.hip 544–600: where a thread is: outside these functions; between the load and the store of the word with its flag; before
`hipEventRecord` (561–563); in `hipEventSynchronize` (567; 584). -/
inductive WaitPc where
  | idle
  | flag (word : List Bool) (value : Bool)
  | record (s : Nat)
  | sync (s pos : Nat)
  | syncAll (events : List (Nat × Nat))
  deriving Repr, DecidableEq

/-- _GPUUtils.hip 262–268: all streams; `default_streams`, and the streams the BLAS and solver handles of the threads are set to;
`skip_waits`; whether `wait_mutex` was left locked; and where the threads are. -/
structure GpuQueue where
  streams : List GStream
  own : List Nat
  blas : List Nat
  solver : List Nat
  skip : List Bool
  locked : Bool
  pc : Nat → WaitPc

/-- _GPUUtils.hip 465–511: `gpu::initialize` with `n` threads; there are `extra` other streams. -/
def GpuQueue.start (n extra : Nat) : GpuQueue :=
  ⟨List.replicate (n + extra) ⟨[], 0⟩, List.range n, List.range n, List.range n, List.replicate n false, false, fun _ => .idle⟩

/-- Steps: the device does the next operation of a stream; a thread launches a kernel on `get_stream()`, calls a function of hipBLAS or hipSOLVER with its
handle, `skip_next_wait()`, the store that ends the update of a flag, `stream_wait(may_skip)`, `stream_wait(stream)`, `hipEventRecord` and the same
with an error, the end of `hipEventSynchronize`, `all_stream_wait()` when `omp_get_max_threads()` is `max`, `set_stream(stream, thread_id)`
(_GPUUtils.hip 544–618). -/
inductive QEvent where
  | device (s : Nat)
  | kernel (t : Nat)
  | blas (t : Nat)
  | solver (t : Nat)
  | skipNext (t : Nat)
  | store (t : Nat)
  | wait (t : Nat) (maySkip : Bool)
  | waitOn (t s : Nat)
  | record (t : Nat)
  | recordFails (t : Nat)
  | wake (t : Nat)
  | waitAll (t max : Nat)
  | setStream (t s tid : Nat)
  deriving Repr, DecidableEq

/-- Queueing an operation of thread `t` in stream `s` (_GPUUtils.hip: get_stream, hipblasSetStream). -/
def GpuQueue.push (S : GpuQueue) (s t : Nat) : GpuQueue :=
  { S with streams := S.streams.modify s fun g => { g with log := g.log ++ [t] } }

/-- How many operations were queued in a stream (_GPUUtils.hip 563, 577: what an event recorded now stands for). -/
def GpuQueue.queued (S : GpuQueue) (s : Nat) : Nat := ((S.streams[s]?.map fun g => g.log.length).getD 0)

/-- How many are done (_GPUUtils.hip 567, 584). -/
def GpuQueue.finished (S : GpuQueue) (s : Nat) : Nat := ((S.streams[s]?.map fun g => g.done).getD 0)

/-- _GPUUtils.hip 545, 550: storing a bit of a `std::vector<bool>`: the word of 64 bits that was loaded is written back with the bit
changed. -/
def storeBit (now word : List Bool) (t : Nat) (b : Bool) : List Bool :=
  (List.range now.length).map fun u =>
    if u = t then b else if u / 64 = t / 64 then word.getD u false else now.getD u false

/-- A thread goes on elsewhere (_GPUUtils.hip 544–600). -/
def GpuQueue.goto (S : GpuQueue) (t : Nat) (p : WaitPc) : GpuQueue := { S with pc := Function.update S.pc t p }

/-- _GPUUtils.hip 548–554: `stream_wait(may_skip)`: the flag, then `get_stream()`, which needs the mutex. -/
def GpuQueue.beginWait (S : GpuQueue) (t : Nat) (maySkip : Bool) : Option GpuQueue :=
  let go : Option GpuQueue :=
    if S.locked then none
    else match S.own[t]? with
      | some s => some (S.goto t (.record s))
      | none => some S
  if maySkip then
    match S.skip[t]? with
    | none => some S
    | some true => some (S.goto t (.flag S.skip false))
    | some false => go
  else go

/-- _GPUUtils.hip 544–618: one step; `none`: not possible in this state. -/
def GpuQueue.step (S : GpuQueue) : QEvent → Option GpuQueue
  | .device s => match S.streams[s]? with
      | some g => if g.done < g.log.length then some { S with streams := S.streams.set s { g with done := g.done + 1 } } else none
      | none => none
  | .kernel t => if S.pc t ≠ .idle ∨ S.locked then none else match S.own[t]? with
      | some s => some (S.push s t)
      | none => some S
  | .blas t => if S.pc t ≠ .idle then none else match S.blas[t]? with
      | some s => some (S.push s t)
      | none => some S
  | .solver t => if S.pc t ≠ .idle then none else match S.solver[t]? with
      | some s => some (S.push s t)
      | none => some S
  | .skipNext t => if S.pc t ≠ .idle then none
      else if t < S.skip.length then some (S.goto t (.flag S.skip true)) else some S
  | .store t => match S.pc t with
      | .flag w b => some { S.goto t .idle with skip := storeBit S.skip w t b }
      | _ => none
  | .wait t maySkip => if S.pc t ≠ .idle then none else S.beginWait t maySkip
  | .waitOn t s => if S.pc t ≠ .idle then none else some (S.goto t (.record s))
  | .record t => match S.pc t with
      | .record s => if S.locked then none else some (S.goto t (.sync s (S.queued s)))
      | _ => none
  | .recordFails t => match S.pc t with
      | .record _ => if S.locked then none else some { S.goto t .idle with locked := true }
      | _ => none
  | .wake t => match S.pc t with
      | .sync s pos => if pos ≤ S.finished s then some (S.goto t .idle) else none
      | .syncAll es => if es.all fun e => decide (e.2 ≤ S.finished e.1) then some (S.goto t .idle) else none
      | _ => none
  | .waitAll t max => if S.pc t ≠ .idle ∨ S.locked then none
      else if max ≤ S.own.length then some (S.goto t (.syncAll ((S.own.take max).map fun s => (s, S.queued s))))
      else some { S with locked := true }
  | .setStream t s tid => if S.pc t ≠ .idle ∨ S.locked ∨ S.streams.length ≤ s then none
      else if tid < S.own.length then
        some { S with own := S.own.set tid s, blas := S.blas.set t s, solver := S.solver.set t s }
      else some S

/-- An execution: any interleaving of such steps (_GPUUtils.hip 544–618). -/
def GpuQueue.run (S : GpuQueue) : List QEvent → Option GpuQueue
  | [] => some S
  | e :: es => match S.step e with
      | some S' => S'.run es
      | none => none

end Einsums.Model
