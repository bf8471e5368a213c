import Verif.Proofs.GpuStreams
/-
C167: after waiting for the GPU, the work of the thread is done.
-/
namespace Einsums.Props
open Spec Model

/-- **C167 (waiting, partial).** In every interleaving of the threads and the device in which the streams are used with care: when
`stream_wait(may_skip)` of a thread comes back after waiting, everything that this thread queued before, as kernels or through hipBLAS and
hipSOLVER, is done.
Missing: streams set for another thread, or set while work is queued, and flags updated at the same time (refuted below). -/
theorem C167_wait_partial (n extra : Nat) (before during : List QEvent) (t : Nat) (maySkip : Bool) (S : GpuQueue)
    (hr : (GpuQueue.start n extra).run (before ++ .wait t maySkip :: during ++ [.wake t]) = some S)
    (hc : Careful (.start n extra) (before ++ .wait t maySkip :: during ++ [.wake t]))
    (ht : ∀ e ∈ during, threadOf e = some t → e = .record t) : AllDone t S := by
  obtain ⟨M, hM, hwake⟩ := GpuQueue.run_snoc hr
  have hcM := (GpuQueue.careful_append hc hM).1
  have bM := GpuQueue.careful_invariant (fun S S' e b c h => GpuQueue.bound_step b c h) (GpuQueue.bound_start n extra) hcM hM
  refine GpuQueue.wake_done bM ?_ hwake
  rw [GpuQueue.run_append] at hM
  cases hB : (GpuQueue.start n extra).run before with
  | none => rw [hB] at hM; cases hM
  | some B =>
    rw [hB] at hM
    simp only [Option.bind_some, GpuQueue.run] at hM
    have hcB := (GpuQueue.careful_append hcM hB).2
    cases hW : B.step (.wait t maySkip) with
    | none => rw [hW] at hM; cases hM
    | some W =>
      rw [hW] at hM
      have hcW := hcB.2 W hW
      have w := GpuQueue.inWait_begin hW
      clear hW hcB hB hcM hc hr hwake bM
      simp only at hM
      induction during generalizing W with
      | nil => cases hM; exact w
      | cons e es ih =>
        simp only [GpuQueue.run] at hM
        cases hs : W.step e with
        | none => rw [hs] at hM; cases hM
        | some W' =>
          rw [hs] at hM
          exact ih (fun x hx => ht x (by simp [hx])) W' hM (hcW.2 W' hs) (GpuQueue.inWait_step w hcW.1 (ht e (by simp)) hs)

/-- **C167 (skipping, partial).** A skippable wait of a thread does not wait if and only if the thread called `skip_next_wait()` and no
skippable wait since.
Missing: flags updated at the same time (refuted below). -/
theorem C167_skip_partial (n extra : Nat) (before : List QEvent) (t : Nat) (ht : t < n) (S : GpuQueue)
    (hr : (GpuQueue.start n extra).run (before ++ [.wait t true]) = some S)
    (hc : Careful (.start n extra) (before ++ [.wait t true])) :
    (Asked t before → ∃ S', S.step (.store t) = some S' ∧ S'.pc t = .idle) ∧
    (¬ Asked t before → ∃ s, S.pc t = .record s ∧ S.own[t]? = some s) := by
  obtain ⟨M, hM, hw⟩ := GpuQueue.run_snoc hr
  have hcM := (GpuQueue.careful_append hc hM).1
  have f := GpuQueue.flags_run (GpuQueue.flags_start n extra) hcM hM
  rw [List.nil_append] at f
  simp only [GpuQueue.step] at hw
  split at hw
  · cases hw
  · rename_i hn
    have hidle : M.pc t = .idle := by simpa using hn
    have hflag := f.flag t ht (by rintro ⟨w, b, h⟩; rw [hidle] at h; cases h)
    have hlt : t < M.skip.length := by rw [f.len]; exact ht
    have hlo : t < M.own.length := by rw [f.own]; exact ht
    simp only [GpuQueue.beginWait, if_true] at hw
    rw [List.getElem?_eq_getElem hlt] at hw hflag
    cases hb : M.skip[t] with
    | true =>
      rw [hb] at hw hflag
      cases hw
      refine ⟨fun _ => ⟨_, by simp only [GpuQueue.step, GpuQueue.goto, Function.update_self]; rfl, by simp⟩, fun h => absurd (hflag.1 rfl) h⟩
    | false =>
      rw [hb] at hw hflag
      simp only at hw
      split at hw
      · cases hw
      · rw [List.getElem?_eq_getElem hlo] at hw
        cases hw
        refine ⟨fun h => ?_, fun _ => ⟨M.own[t], by simp [GpuQueue.goto], by simp [GpuQueue.goto, hlo]⟩⟩
        have := hflag.2 h
        simp at this

/-- **C167 (all streams).** `all_stream_wait()` with no more threads than at the initialisation, in any state, whatever the other threads and the
device do: when it comes back, everything that was queued in the streams of the first
`omp_get_max_threads()` threads when it was called is done. -/
theorem C167_all (during : List QEvent) (t max : Nat) (S0 S : GpuQueue) (hmax : max ≤ S0.own.length)
    (hr : S0.run (.waitAll t max :: during ++ [.wake t]) = some S) (ht : ∀ e ∈ during, threadOf e ≠ some t)
    (u s : Nat) (hu : u < max) (hs : S0.own[u]? = some s) : S0.queued s ≤ S.finished s := by
  obtain ⟨M, hM, hwake⟩ := GpuQueue.run_snoc hr
  simp only [GpuQueue.run, GpuQueue.step] at hM
  split at hM
  · rename_i A hA
    split at hA
    · cases hA
    · have hpA : A.pc t = .syncAll ((S0.own.take max).map fun s => (s, S0.queued s)) := by
        cases hA; simp [GpuQueue.goto]
      have hpM : M.pc t = .syncAll ((S0.own.take max).map fun s => (s, S0.queued s)) := by
        rw [← hpA]
        clear hA hpA hwake hr hmax hs
        induction during generalizing A with
        | nil => cases hM; rfl
        | cons e es ih =>
          simp only [GpuQueue.run] at hM
          cases hst : A.step e with
          | none => rw [hst] at hM; cases hM
          | some A' =>
            rw [hst] at hM
            rw [ih (fun x hx => ht x (by simp [hx])) A' hM]
            have hne := ht e (by simp)
            cases GpuQueue.step_kind hst with
            | same _ h' => rw [h']
            | device s g hg hd h' => rw [h']
            | push v s _ hp he hr hs h' => rw [h']; rfl
            | goto v p _ he h' => rw [h']; exact Function.update_of_ne (by rintro rfl; exact hne he) _ _
            | store v w b hp h' => rw [h']; exact Function.update_of_ne (by rintro rfl; exact hne rfl) _ _
            | lock v _ he hr h' => rw [h']; exact Function.update_of_ne (by rintro rfl; exact hne he) _ _
            | setStream v s tid hp hs ht h' => rw [h']
      simp only [GpuQueue.step, hpM] at hwake
      split at hwake
      · rename_i hall
        cases hwake
        rw [List.all_eq_true] at hall
        have hmem : s ∈ S0.own.take max := by
          rw [List.mem_iff_getElem?]
          exact ⟨u, by rw [List.getElem?_take_of_lt hu]; exact hs⟩
        have hle : S0.queued s ≤ M.finished s := by simpa using hall (s, S0.queued s) (List.mem_map_of_mem hmem)
        exact hle
      · cases hwake
  · cases hM

/-- **C167 (waits end).** After every execution, careful or not, a thread that waits for events comes back once the device has done what is
queued: nothing else is needed from other threads. -/
theorem C167_ends (n extra : Nat) (before : List QEvent) (t : Nat) (S : GpuQueue)
    (hr : (GpuQueue.start n extra).run before = some S)
    (hp : (∃ s pos, S.pc t = .sync s pos) ∨ ∃ es, S.pc t = .syncAll es) :
    ∃ work S', (∀ e ∈ work, threadOf e = none) ∧ S.run (work ++ [.wake t]) = some S' ∧ S'.pc t = .idle := by
  have r := GpuQueue.recorded_run (S := GpuQueue.start n extra) ⟨fun t s pos h => (by cases h), fun t es h => (by cases h)⟩ hr
  obtain ⟨work, D, h1, h2, h3, _, _, h5⟩ := GpuQueue.drain S
  have hw : D.step (.wake t) = some (D.goto t .idle) := by
    rcases hp with ⟨s, pos, hp⟩ | ⟨es, hp⟩
    · simp only [GpuQueue.step, h3, hp]
      rw [if_pos (le_trans (r.1 t s pos hp) (h5 s))]
    · simp only [GpuQueue.step, h3, hp]
      rw [if_pos]
      rw [List.all_eq_true]
      intro e he
      simpa using le_trans (r.2 t es hp e he) (h5 e.1)
  refine ⟨work, D.goto t .idle, h2, ?_, by simp [GpuQueue.goto]⟩
  rw [GpuQueue.run_append, h1]
  simp only [Option.bind_some, GpuQueue.run, hw]

/-! ### Refutations -/

/-- **C167 (refuted: setting the stream of another thread).** `set_stream(stream, thread_id)` changes the stream of the thread `thread_id`
but the handles of the thread that calls it.  Thread 0 sets the stream of thread 1; then it waits for work it gave to hipBLAS, comes back, and the
work is not done. -/
theorem C167_set_other_refuted : ∃ S : GpuQueue,
    (GpuQueue.start 2 1).run [.setStream 0 2 1, .blas 0, .wait 0 true, .record 0, .wake 0] = some S ∧ ¬ AllDone 0 S := by
  refine ⟨_, rfl, fun h => ?_⟩
  have := h 2 ⟨[0], 0⟩ (by decide) 0 rfl
  exact absurd this (by decide)

/-- **C167 (refuted: setting the stream while work is queued).** The wait is for the new stream only. -/
theorem C167_set_busy_refuted : ∃ S : GpuQueue,
    (GpuQueue.start 1 1).run [.kernel 0, .setStream 0 1 0, .wait 0 true, .record 0, .wake 0] = some S ∧ ¬ AllDone 0 S := by
  refine ⟨_, rfl, fun h => ?_⟩
  have := h 0 ⟨[0], 0⟩ (by decide) 0 rfl
  exact absurd this (by decide)

/-- **C167 (refuted: flags).** The flags of the threads share the words of a `std::vector<bool>`.  Thread 1 asks for a skip and skips a wait;
meanwhile thread 0 asks for one and writes back the flag of thread 1.  The next wait of thread 1 does not wait, although it was not asked to, and
the kernel is not done. -/
theorem C167_flags_refuted :
    let es : List QEvent := [.skipNext 1, .store 1, .skipNext 0, .wait 1 true, .store 1, .store 0, .kernel 1]
    ∃ S S' : GpuQueue, (GpuQueue.start 2 0).run (es ++ [.wait 1 true]) = some S ∧ ¬ Asked 1 es ∧
      S.step (.store 1) = some S' ∧ S'.pc 1 = .idle ∧ ¬ AllDone 1 S' := by
  refine ⟨_, _, rfl, ?_, rfl, by decide, fun h => ?_⟩
  · have e : ([.skipNext 1, .store 1, .skipNext 0, .wait 1 true, .store 1, .store 0, .kernel 1] : List QEvent) =
      (((((([] ++ [.skipNext 1]) ++ [.store 1]) ++ [.skipNext 0]) ++ [.wait 1 true]) ++ [.store 1]) ++ [.store 0]) ++ [.kernel 1] := rfl
    rw [e]
    simp only [GpuQueue.asked_snoc]
    simp
  · have := h 1 ⟨[1], 0⟩ (by decide) 0 rfl
    exact absurd this (by decide)

/-- **C167 (refuted: more threads than at the initialisation).** `all_stream_wait()` throws while it holds the mutex.  So does a wait whose
`hipEventRecord` fails.  From then on no thread can launch a kernel on its stream, set a stream or get past the beginning of a wait that is not
skipped: they block for ever. -/
theorem C167_lock_refuted (S S1 : GpuQueue) (t max : Nat)
    (h1 : (S.own.length < max ∧ S.step (.waitAll t max) = some S1) ∨ S.step (.recordFails t) = some S1) (es : List QEvent) (S2 : GpuQueue)
    (h2 : S1.run es = some S2) (u s tid m : Nat) :
    S2.step (.kernel u) = none ∧ S2.step (.wait u false) = none ∧ S2.step (.record u) = none ∧ S2.step (.waitAll u m) = none ∧
    S2.step (.setStream u s tid) = none := by
  have hl1 : S1.locked = true := by
    rcases h1 with ⟨hlt, h1⟩ | h1
    · simp only [GpuQueue.step] at h1
      split at h1
      · cases h1
      · rw [if_neg (by omega)] at h1
        cases h1; rfl
    · simp only [GpuQueue.step] at h1
      split at h1
      · split at h1
        · cases h1
        · cases h1; rfl
      · cases h1
  have hl2 : S2.locked = true := by
    clear h1
    induction es generalizing S1 with
    | nil => cases h2; exact hl1
    | cons e es ih =>
      simp only [GpuQueue.run] at h2
      cases hst : S1.step e with
      | none => rw [hst] at h2; cases h2
      | some S1' =>
        rw [hst] at h2
        refine ih S1' h2 ?_
        cases GpuQueue.step_kind hst with
        | same _ h' => rw [h']; exact hl1
        | device s g hg hd h' => rw [h']; exact hl1
        | push v s _ hp he hr hs h' => rw [h']; exact hl1
        | goto v p _ he h' => rw [h']; exact hl1
        | store v w b hp h' => rw [h']; exact hl1
        | lock v _ he hr h' => rw [h']
        | setStream v s tid hp hs ht h' => rw [h']; exact hl1
  refine ⟨by simp [GpuQueue.step, hl2], ?_, ?_, by simp [GpuQueue.step, hl2], by simp [GpuQueue.step, hl2]⟩
  · simp only [GpuQueue.step, GpuQueue.beginWait, hl2]
    split <;> simp
  · simp only [GpuQueue.step, hl2]
    split <;> simp

/-- **C167 (refuted: fewer threads).** With fewer threads than at the initialisation `all_stream_wait()` does not wait for all streams. -/
theorem C167_fewer_refuted : ∃ S : GpuQueue,
    (GpuQueue.start 2 0).run [.kernel 1, .waitAll 0 1, .wake 0] = some S ∧ ¬ AllDone 1 S := by
  refine ⟨_, rfl, fun h => ?_⟩
  have := h 1 ⟨[1], 0⟩ (by decide) 0 rfl
  exact absurd this (by decide)

/-! ### Concrete cases -/

/-- Two threads queue work and wait; the second one switches to a stream of its own when it is done, and skips a wait.  The execution is
careful, and leaves the work of the first thread undone. -/
example : let es : List QEvent := [.kernel 0, .blas 1, .device 1, .wait 1 true, .record 1, .wake 1, .setStream 1 2 1, .solver 1, .skipNext 1,
      .store 1, .wait 1 true, .store 1] ++ .wait 1 true :: [.record 1, .device 2] ++ [.wake 1]
    (∃ S, (GpuQueue.start 2 1).run es = some S ∧ AllDone 1 S ∧ ¬ AllDone 0 S) ∧ Careful (.start 2 1) es := by
  have hc : Careful (.start 2 1) ([.kernel 0, .blas 1, .device 1, .wait 1 true, .record 1, .wake 1, .setStream 1 2 1, .solver 1, .skipNext 1,
      .store 1, .wait 1 true, .store 1] ++ .wait 1 true :: [.record 1, .device 2] ++ [.wake 1]) := by
    refine ⟨trivial, fun S h => ?_⟩; cases h
    refine ⟨trivial, fun S h => ?_⟩; cases h
    refine ⟨trivial, fun S h => ?_⟩; cases h
    refine ⟨?_, fun S h => ?_⟩
    · rintro u hu ⟨w, b, h⟩; cases h
    cases h
    refine ⟨trivial, fun S h => ?_⟩; cases h
    refine ⟨trivial, fun S h => ?_⟩; cases h
    refine ⟨⟨rfl, ?_⟩, fun S h => ?_⟩
    · intro s g hs i hi
      match s, hs with
      | 0, hs => cases hs; match i, hi with | 0, hi => cases hi
      | 1, hs => cases hs; match i, hi with | 0, hi => decide
      | 2, hs => cases hs; cases hi
    cases h
    refine ⟨trivial, fun S h => ?_⟩; cases h
    refine ⟨?_, fun S h => ?_⟩
    · rintro u hu ⟨w, b, h⟩
      simp [GpuQueue.goto, GpuQueue.push, GpuQueue.start] at h
    cases h
    refine ⟨trivial, fun S h => ?_⟩; cases h
    refine ⟨?_, fun S h => ?_⟩
    · rintro u hu ⟨w, b, h⟩
      simp [GpuQueue.goto, GpuQueue.push, GpuQueue.start] at h
    cases h
    refine ⟨trivial, fun S h => ?_⟩; cases h
    refine ⟨?_, fun S h => ?_⟩
    · rintro u hu ⟨w, b, h⟩
      simp [GpuQueue.goto, GpuQueue.push, GpuQueue.start] at h
    cases h
    refine ⟨trivial, fun S h => ?_⟩; cases h
    refine ⟨trivial, fun S h => ?_⟩; cases h
    refine ⟨trivial, fun S h => ?_⟩; cases h
    trivial
  refine ⟨⟨_, rfl, C167_wait_partial 2 1 _ _ 1 true _ rfl hc (by decide), fun h => ?_⟩, hc⟩
  have := h 0 ⟨[0], 0⟩ (by decide) 0 rfl
  exact absurd this (by decide)

/-- Two threads have queued work; `all_stream_wait()` comes back when both streams are done, though the second thread has queued more. -/
example : ∃ S0 S : GpuQueue, (GpuQueue.start 2 0).run [.kernel 0, .kernel 1] = some S0 ∧
    S0.run (.waitAll 0 2 :: [.kernel 1, .device 1, .device 0] ++ [.wake 0]) = some S ∧ S.finished 1 = 1 ∧ S.queued 1 = 2 :=
  ⟨_, _, rfl, rfl, rfl, rfl⟩

/-- A thread that waits. -/
example : ∃ S : GpuQueue, (GpuQueue.start 1 0).run [.kernel 0, .wait 0 false, .record 0] = some S ∧ S.pc 0 = .sync 0 1 ∧
    S.step (.wake 0) = none := ⟨_, rfl, rfl, rfl⟩

end Einsums.Props
