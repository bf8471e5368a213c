import Verif.Spec.GpuErrors

/-!
# Failing GPU calls (C168)
-/

namespace Einsums.Props

open Spec Model

/-- A switch whose every case throws the exception of its label throws the exception of the number,
or the one of `default`. -/
theorem gpuSwitch_status (code : GpuStatus → Int) (cases : List (GpuStatus × GpuExc))
    (other : GpuExc) (h : ∀ p ∈ cases, p.2.status = p.1) (c : Int) :
    code (gpuSwitch code cases other c).status = c ∨
      ((∀ p ∈ cases, code p.1 ≠ c) ∧ gpuSwitch code cases other c = other) := by
  unfold gpuSwitch
  cases hf : cases.find? (fun p => code p.1 == c) with
  | none =>
    refine Or.inr ⟨fun p hp => ?_, rfl⟩
    have := List.find?_eq_none.1 hf p hp
    simpa using this
  | some p =>
    left
    have h1 := List.find?_some hf
    have h2 := h p (List.mem_of_find?_eq_some hf)
    simp only [beq_iff_eq] at h1
    rw [h2, h1]

theorem hipSwitch_status : ∀ p ∈ hipSwitch, p.2.status = p.1 := by decide
theorem blasSwitch_status : ∀ p ∈ blasSwitch, p.2.status = p.1 := by decide
theorem solverSwitch_status : ∀ p ∈ solverSwitch, p.2.status = p.1 := by decide

/-- **C168 (calls that succeed).**  A wrapped call returns exactly when its status is success and an
exception for success was not asked for: no failure goes unnoticed, and no success is reported as a
failure. -/
theorem C168_returns (lib : GpuLibrary) (code : GpuStatus → Int) (text : Int → String) (c : Int)
    (site : CallSite) (ts : Bool) :
    catchOf lib code text c site ts = none ↔
      c = code (successOf lib).status ∧ ts = false := by
  cases lib <;> simp only [catchOf, hipCatch, blasCatch, solverCatch, successOf, GpuExc.status] <;>
    split <;> cases ts <;> simp_all

/-- The name an exception name stands for. -/
def firstName : GpuExc → GpuExc
  | .ErrorMemoryAllocation => .ErrorOutOfMemory
  | .ErrorInitializationError => .ErrorNotInitialized
  | .ErrorMapBufferObjectFailed => .ErrorMapFailed
  | .ErrorInvalidResourceHandle => .ErrorInvalidHandle
  | e => e

theorem firstName_code (code : GpuStatus → Int) (ha : HipAliases code) (e : GpuExc) :
    code (firstName e).status = code e.status := by
  cases e <;>
    first
    | rfl
    | exact ha.memory.symm
    | exact ha.initialization.symm
    | exact ha.map.symm
    | exact ha.handle.symm

theorem firstName_not_second (e : GpuExc) : firstName e ∉ secondNames := by
  cases e <;> decide

theorem firstName_lib (e : GpuExc) : (firstName e).lib = e.lib := by
  cases e <;> rfl

theorem firstName_eq (e : GpuExc) (h : e ∉ secondNames) : firstName e = e := by
  cases e <;> first | rfl | exact absurd h (by decide)

/-- Every exception name of a library that is not a second name is thrown by a case of its switch,
or for success, or by `default`. -/
theorem switch_complete (e : GpuExc) (h : e ∉ secondNames) :
    e = successOf e.lib ∨ e = unknownOf e.lib ∨
      (e.status, e) ∈ hipSwitch ∧ e.lib = .hip ∨ (e.status, e) ∈ blasSwitch ∧ e.lib = .blas ∨
      (e.status, e) ∈ solverSwitch ∧ e.lib = .solver := by
  cases e <;> first | decide | exact absurd h (by decide)

/-- What is thrown, whatever the status: the exception of the number of the status, or the one for
unknown statuses when no exception name of the library has the number. -/
theorem thrown_code (lib : GpuLibrary) (code : GpuStatus → Int) (ha : HipAliases code)
    (text : Int → String) (c : Int) (site : CallSite) (ts : Bool) (t : GpuThrown)
    (h : catchOf lib code text c site ts = some t) :
    t.lib = lib ∧ (t.code = c ∨
      ((∀ e : GpuExc, e.lib = lib → code e.status ≠ c) ∧
        t.code = code (unknownOf lib).status)) := by
  have key : ∀ (cases : List (GpuStatus × GpuExc)), (∀ p ∈ cases, p.2.status = p.1) →
      (∀ e : GpuExc, e.lib = lib → e ∉ secondNames →
        e = successOf lib ∨ e = unknownOf lib ∨ (e.status, e) ∈ cases) →
      c ≠ code (successOf lib).status →
      code (gpuSwitch code cases (unknownOf lib) c).status = c ∨
      ((∀ e : GpuExc, e.lib = lib → code e.status ≠ c) ∧
        code (gpuSwitch code cases (unknownOf lib) c).status = code (unknownOf lib).status) := by
    intro cases hc hall hs
    rcases gpuSwitch_status code cases (unknownOf lib) hc c with h1 | ⟨h1, h2⟩
    · exact Or.inl h1
    · by_cases hu : code (unknownOf lib).status = c
      · left; rw [h2, hu]
      · right
        refine ⟨fun e he hce => ?_, by rw [h2]⟩
        rcases hall (firstName e) (by rw [firstName_lib, he]) (firstName_not_second e) with
          h3 | h3 | h3
        · apply hs; rw [← hce, ← firstName_code code ha e, h3]
        · apply hu; rw [← h3, firstName_code code ha e, hce]
        · exact h1 _ h3 (by rw [firstName_code code ha e, hce])
  cases lib with
  | hip =>
    have k := key hipSwitch hipSwitch_status (by
      intro e he h; have := switch_complete e h; rw [he] at this; simpa using this)
    simp only [catchOf, hipCatch] at h
    split at h
    · rename_i hs
      split at h
      · cases h; exact ⟨rfl, Or.inl hs.symm⟩
      · cases h
    · rename_i hs
      cases h; exact ⟨rfl, k hs⟩
  | blas =>
    have k := key blasSwitch blasSwitch_status (by
      intro e he h; have := switch_complete e h; rw [he] at this; simpa using this)
    simp only [catchOf, blasCatch] at h
    split at h
    · rename_i hs
      split at h
      · cases h; exact ⟨rfl, Or.inl hs.symm⟩
      · cases h
    · rename_i hs
      cases h; exact ⟨rfl, k hs⟩
  | solver =>
    have k := key solverSwitch solverSwitch_status (by
      intro e he h; have := switch_complete e h; rw [he] at this; simpa using this)
    simp only [catchOf, solverCatch] at h
    split at h
    · rename_i hs
      split at h
      · cases h; exact ⟨rfl, Or.inl hs.symm⟩
      · cases h
    · rename_i hs
      cases h; exact ⟨rfl, k hs⟩

/-- **C168 (the exception is that of the status).**  If the status of a call is one for which the
library declares an exception type, that type is what is thrown. -/
theorem C168_declared_partial (e : GpuExc) (code : GpuStatus → Int) (ha : HipAliases code)
    (text : Int → String) (site : CallSite) (ts : Bool) (t : GpuThrown)
    (h : catchOf e.lib code text (code e.status) site ts = some t) :
    t.lib = e.lib ∧ t.code = code e.status := by
  obtain ⟨h1, h2 | ⟨h2, -⟩⟩ := thrown_code e.lib code ha text _ site ts t h
  · exact ⟨h1, h2⟩
  · exact absurd rfl (h2 e rfl)

/-- **C168 (a status without an exception type).**  A status for which no exception type is declared
is thrown as the one for unknown statuses … -/
theorem C168_unlisted_partial (lib : GpuLibrary) (code : GpuStatus → Int) (ha : HipAliases code)
    (text : Int → String) (c : Int) (site : CallSite) (ts : Bool) (t : GpuThrown)
    (h : catchOf lib code text c site ts = some t)
    (hc : ∀ e : GpuExc, e.lib = lib → code e.status ≠ c) :
    t.lib = lib ∧ t.code = code (unknownOf lib).status := by
  obtain ⟨h1, h2 | ⟨-, h2⟩⟩ := thrown_code lib code ha text c site ts t h
  · exfalso
    -- the thrown number is that of a declared type
    cases lib <;> simp only [catchOf, hipCatch, blasCatch, solverCatch] at h <;> split at h
    all_goals first
      | (rename_i hs; split at h <;> cases h <;>
          first
          | exact hc .Success rfl h2
          | exact hc .blasSuccess rfl h2
          | exact hc .solverSuccess rfl h2)
      | skip
    · cases h
      rcases gpuSwitch_status code hipSwitch .ErrorUnknown hipSwitch_status c with h3 | ⟨-, h3⟩
      · exact hc (gpuSwitch code hipSwitch .ErrorUnknown c) (by
          unfold gpuSwitch; split
          · rename_i p hp
            exact (by decide : ∀ p ∈ hipSwitch, p.2.lib = .hip) p (List.mem_of_find?_eq_some hp)
          · rfl) h3
      · rw [h3] at h2; exact hc .ErrorUnknown rfl h2
    · cases h
      rcases gpuSwitch_status code blasSwitch .blasUnknown blasSwitch_status c with h3 | ⟨-, h3⟩
      · exact hc (gpuSwitch code blasSwitch .blasUnknown c) (by
          unfold gpuSwitch; split
          · rename_i p hp
            exact (by decide : ∀ p ∈ blasSwitch, p.2.lib = .blas) p (List.mem_of_find?_eq_some hp)
          · rfl) h3
      · rw [h3] at h2; exact hc .blasUnknown rfl h2
    · cases h
      rcases gpuSwitch_status code solverSwitch .solverUnknown solverSwitch_status c with
        h3 | ⟨-, h3⟩
      · exact hc (gpuSwitch code solverSwitch .solverUnknown c) (by
          unfold gpuSwitch; split
          · rename_i p hp
            exact (by decide : ∀ p ∈ solverSwitch, p.2.lib = .solver) p
              (List.mem_of_find?_eq_some hp)
          · rfl) h3
      · rw [h3] at h2; exact hc .solverUnknown rfl h2
  · exact ⟨h1, h2⟩

/-- … so the exception does not carry the status of the call: `e == status` is false for it.  (The
text still gives the number: `C168_message`.) -/
theorem C168_unlisted_refuted (lib : GpuLibrary) (code : GpuStatus → Int) (ha : HipAliases code)
    (text : Int → String) (c : Int) (site : CallSite) (ts : Bool) (t : GpuThrown)
    (h : catchOf lib code text c site ts = some t)
    (hc : ∀ e : GpuExc, e.lib = lib → code e.status ≠ c) : t.code ≠ c := by
  rw [(C168_unlisted_partial lib code ha text c site ts t h hc).2]
  exact hc (unknownOf lib) (by cases lib <;> rfl)

theorem mentions_left (a x b : String) : Mentions (a ++ x ++ b) x := ⟨a, b, rfl⟩

theorem Mentions.append {m x : String} (h : Mentions m x) (r : String) : Mentions (m ++ r) x := by
  obtain ⟨a, b, rfl⟩ := h
  exact ⟨a, b ++ r, by simp [String.append_assoc]⟩

theorem mentions_end (a x : String) : Mentions (a ++ x) x := ⟨a, "", by simp⟩

theorem mentions_start (x : String) : Mentions x x := ⟨"", "", by simp⟩

theorem hipCatch_message (code : GpuStatus → Int) (text : Int → String) (c : Int)
    (site : CallSite) (ts : Bool) (t : GpuThrown) (h : hipCatch code text c site ts = some t) :
    ∃ r, t.message = site.file ++ site.location ++ site.function ++ "\nError in line: " ++
      site.call ++ "\nHIP error code " ++ toString c ++ ": " ++ r := by
  unfold hipCatch at h
  split at h
  · split at h
    · cases h; exact ⟨_, rfl⟩
    · cases h
  · cases h; exact ⟨_, rfl⟩

theorem blasCatch_message (code : GpuStatus → Int) (text : Int → String) (c : Int)
    (site : CallSite) (ts : Bool) (t : GpuThrown) (h : blasCatch code text c site ts = some t) :
    ∃ r, t.message = site.file ++ site.location ++ "\nError in line: " ++
      site.call ++ "\nhipBLAS error code " ++ toString c ++ ": " ++ site.function ++ r := by
  unfold blasCatch at h
  split at h
  · split at h
    · cases h; exact ⟨_, rfl⟩
    · cases h
  · cases h; exact ⟨_, rfl⟩

theorem solverCatch_message (code : GpuStatus → Int) (c : Int)
    (site : CallSite) (ts : Bool) (t : GpuThrown) (h : solverCatch code c site ts = some t) :
    ∃ r, t.message = site.file ++ site.location ++ site.function ++ "\nError in line: " ++
      site.call ++ "\nhipSolver error code " ++ toString c ++ ": " ++ r := by
  unfold solverCatch at h
  split at h
  · split at h
    · cases h; exact ⟨_, rfl⟩
    · cases h
  · cases h; exact ⟨_, rfl⟩

/-- **C168 (the text).**  The text of the exception names the file, the line, the function, the call
and the number of the status, also of a status without an exception type. -/
theorem C168_message (lib : GpuLibrary) (code : GpuStatus → Int) (text : Int → String) (c : Int)
    (site : CallSite) (ts : Bool) (t : GpuThrown)
    (h : catchOf lib code text c site ts = some t) :
    Mentions t.message (site.file ++ site.location) ∧ Mentions t.message site.function ∧
      Mentions t.message site.call ∧ Mentions t.message (" error code " ++ toString c) := by
  have hH : "\nHIP error code " = "\nHIP" ++ " error code " := rfl
  have hB : "\nhipBLAS error code " = "\nhipBLAS" ++ " error code " := rfl
  have hS : "\nhipSolver error code " = "\nhipSolver" ++ " error code " := rfl
  have plain : ∀ (n r : String),
      Mentions (site.file ++ site.location ++ site.function ++ "\nError in line: " ++ site.call ++
        (n ++ " error code ") ++ toString c ++ ": " ++ r) (site.file ++ site.location) ∧
      Mentions (site.file ++ site.location ++ site.function ++ "\nError in line: " ++ site.call ++
        (n ++ " error code ") ++ toString c ++ ": " ++ r) site.function ∧
      Mentions (site.file ++ site.location ++ site.function ++ "\nError in line: " ++ site.call ++
        (n ++ " error code ") ++ toString c ++ ": " ++ r) site.call ∧
      Mentions (site.file ++ site.location ++ site.function ++ "\nError in line: " ++ site.call ++
        (n ++ " error code ") ++ toString c ++ ": " ++ r) (" error code " ++ toString c) := by
    intro n r
    refine ⟨⟨"", site.function ++ "\nError in line: " ++ site.call ++ (n ++ " error code ") ++
        toString c ++ ": " ++ r, ?_⟩,
      ⟨site.file ++ site.location, "\nError in line: " ++ site.call ++ (n ++ " error code ") ++
        toString c ++ ": " ++ r, ?_⟩,
      ⟨site.file ++ site.location ++ site.function ++ "\nError in line: ",
        (n ++ " error code ") ++ toString c ++ ": " ++ r, ?_⟩,
      ⟨site.file ++ site.location ++ site.function ++ "\nError in line: " ++ site.call ++ n,
        ": " ++ r, ?_⟩⟩ <;> simp only [String.append_assoc, String.empty_append]
  have blas : ∀ (n r : String),
      Mentions (site.file ++ site.location ++ "\nError in line: " ++ site.call ++
        (n ++ " error code ") ++ toString c ++ ": " ++ site.function ++ r)
        (site.file ++ site.location) ∧
      Mentions (site.file ++ site.location ++ "\nError in line: " ++ site.call ++
        (n ++ " error code ") ++ toString c ++ ": " ++ site.function ++ r) site.function ∧
      Mentions (site.file ++ site.location ++ "\nError in line: " ++ site.call ++
        (n ++ " error code ") ++ toString c ++ ": " ++ site.function ++ r) site.call ∧
      Mentions (site.file ++ site.location ++ "\nError in line: " ++ site.call ++
        (n ++ " error code ") ++ toString c ++ ": " ++ site.function ++ r)
        (" error code " ++ toString c) := by
    intro n r
    refine ⟨⟨"", "\nError in line: " ++ site.call ++ (n ++ " error code ") ++
        toString c ++ ": " ++ site.function ++ r, ?_⟩,
      ⟨site.file ++ site.location ++ "\nError in line: " ++ site.call ++ (n ++ " error code ") ++
        toString c ++ ": ", r, ?_⟩,
      ⟨site.file ++ site.location ++ "\nError in line: ",
        (n ++ " error code ") ++ toString c ++ ": " ++ site.function ++ r, ?_⟩,
      ⟨site.file ++ site.location ++ "\nError in line: " ++ site.call ++ n,
        ": " ++ site.function ++ r, ?_⟩⟩ <;> simp only [String.append_assoc, String.empty_append]
  cases lib with
  | hip =>
    obtain ⟨r, hr⟩ := hipCatch_message code text c site ts t h
    rw [hr, hH]; exact plain _ r
  | blas =>
    obtain ⟨r, hr⟩ := blasCatch_message code text c site ts t h
    rw [hr, hB]; exact blas _ r
  | solver =>
    obtain ⟨r, hr⟩ := solverCatch_message code c site ts t h
    rw [hr, hS]; exact plain _ r

/-- **C168 (where the function is named) is false for hipBLAS.**  The location ends in
`In function: `, and for HIP and hipSOLVER the function follows; for hipBLAS the call follows, and
the function stands after the number, in front of the description. -/
theorem C168_function_refuted :
    (∀ (code : GpuStatus → Int) (text : Int → String) (c : Int) (site : CallSite) (ts : Bool)
      (t : GpuThrown), hipCatch code text c site ts = some t ∨ solverCatch code c site ts = some t →
      ∃ r, t.message = site.file ++ site.location ++ site.function ++ r) ∧
    ∃ (code : GpuStatus → Int) (text : Int → String) (c : Int) (site : CallSite) (t : GpuThrown),
      blasCatch code text c site false = some t ∧
      ¬ ∃ r, t.message = site.file ++ site.location ++ site.function ++ r := by
  refine ⟨fun code text c site ts t h => ?_, fun _ => 0, fun _ => "", 1, ⟨"", "", "", "f"⟩, _,
    rfl, ?_⟩
  · rcases h with h | h
    · simp only [hipCatch] at h
      split at h
      · split at h
        · cases h; exact ⟨_, by simp only [String.append_assoc]; rfl⟩
        · cases h
      · cases h; exact ⟨_, by simp only [String.append_assoc]; rfl⟩
    · simp only [solverCatch] at h
      split at h
      · split at h
        · cases h; exact ⟨_, by simp only [String.append_assoc]; rfl⟩
        · cases h
      · cases h; exact ⟨_, by simp only [String.append_assoc]; rfl⟩
  · rintro ⟨r, hr⟩
    have h1 := congrArg String.toList hr
    simp at h1

/-- **C168 (the description of a hipSOLVER status).**  The text ends in the description of the status
of the call, from the table of the library. -/
theorem C168_solver_text (e : GpuExc) (he : e.lib = .solver) (code : GpuStatus → Int)
    (hd : DistinctCodes code) (ha : HipAliases code) (site : CallSite) (ts : Bool) (t : GpuThrown)
    (h : solverCatch code (code e.status) site ts = some t) :
    ∃ d r, (e.status, d) ∈ solverTexts ∧ t.message = r ++ d := by
  have hc := (C168_declared_partial e code ha (fun _ => "") site ts t (by rw [he]; exact h)).2
  have hm : ∃ r, t.message = r ++ solverText code t.code := by
    simp only [solverCatch] at h
    split at h
    · split at h
      · cases h; exact ⟨_, rfl⟩
      · cases h
    · cases h; exact ⟨_, rfl⟩
  obtain ⟨r, hr⟩ := hm
  have hs : ∀ p ∈ solverTexts, ∃ e' : GpuExc, e'.lib = .solver ∧ e' ∉ secondNames ∧ e'.status = p.1 := by
    intro p hp
    simp only [solverTexts, List.mem_cons, List.not_mem_nil, or_false] at hp
    rcases hp with rfl | rfl | rfl | rfl | rfl | rfl | rfl | rfl | rfl | rfl | rfl | rfl
    · exact ⟨.solverSuccess, by decide⟩
    · exact ⟨.solverNotInitialized, by decide⟩
    · exact ⟨.solverAllocFailed, by decide⟩
    · exact ⟨.solverInvalidValue, by decide⟩
    · exact ⟨.solverMappingError, by decide⟩
    · exact ⟨.solverExecutionFailed, by decide⟩
    · exact ⟨.solverInternalError, by decide⟩
    · exact ⟨.solverFuncNotSupported, by decide⟩
    · exact ⟨.solverArchMismatch, by decide⟩
    · exact ⟨.solverHandleIsNullptr, by decide⟩
    · exact ⟨.solverInvalidEnum, by decide⟩
    · exact ⟨.solverUnknown, by decide⟩
  have he2 : e ∉ secondNames := by
    intro hx
    simp only [secondNames, List.mem_cons, List.not_mem_nil, or_false] at hx
    rcases hx with rfl | rfl | rfl | rfl <;> exact absurd he (by decide)
  have hin : ∃ d, (e.status, d) ∈ solverTexts := by
    clear hs h hc hr he2 hd ha
    revert he
    cases e <;> intro he <;> first
      | exact absurd he (by decide)
      | exact ⟨_, by simp only [solverTexts, List.mem_cons, GpuExc.status, Prod.mk.injEq, reduceCtorEq, false_and, true_and, false_or]; exact Or.inl rfl⟩
      | exact ⟨_, by simp only [solverTexts, List.mem_cons, GpuExc.status, Prod.mk.injEq, reduceCtorEq, false_and, true_and, false_or, or_false, List.not_mem_nil]⟩
  rw [hr, hc]
  unfold solverText
  cases hf : solverTexts.find? (fun p => code p.1 == code e.status) with
  | none =>
    obtain ⟨d, hd'⟩ := hin
    exact absurd (List.find?_eq_none.1 hf _ hd') (by simp)
  | some p =>
    have hp := List.mem_of_find?_eq_some hf
    obtain ⟨e', h1, h2, h3⟩ := hs p hp
    have h4 := List.find?_some hf
    simp only [beq_iff_eq] at h4
    have h5 := hd e' e (by rw [h1, he]) h2 he2 (by rw [h3, h4])
    refine ⟨p.2, r, ?_, rfl⟩
    rw [← h5, h3]; exact hp

/-- Registering types one after the other: the class of a type is the one it is registered with
first. -/
theorem register_find {α β : Type} [BEq α] [LawfulBEq α] (L : List (α × β)) (T : List (α × β)) (t : α) :
    (L.foldl (init := T) fun table p =>
      if table.any (fun q => q.1 == p.1) then table else table ++ [p]).find? (fun q => q.1 == t) =
    (T ++ L).find? (fun q => q.1 == t) := by
  induction L generalizing T with
  | nil => simp
  | cons p L ih =>
    rw [List.foldl_cons, ih]
    split
    · rename_i h
      simp only [List.find?_append, List.find?_cons]
      cases hT : T.find? (fun q => q.1 == t) with
      | some q => rfl
      | none =>
        have : ¬ p.1 = t := by
          rintro rfl
          obtain ⟨q, hq, hq1⟩ := List.any_eq_true.1 h
          exact absurd hq1 (by simpa using List.find?_eq_none.1 hT q hq)
        have h2 : (p.1 == t) = false := by simpa using this
        rw [h2]
    · rw [List.append_assoc]; rfl

theorem exportGpuExcept_find (code : GpuStatus → Int) (t : GpuLibrary × Int) :
    (exportGpuExcept code).find? (fun q => q.1 == t) =
      ((pyRegistered.map fun p => (p.1.type code, p.2)).find? (fun q => q.1 == t)) := by
  unfold exportGpuExcept
  generalize pyRegistered = L
  rw [← List.nil_append (L.map _), ← register_find, List.foldl_map]

theorem exportGpuExcept_eq (code : GpuStatus → Int) :
    exportGpuExcept code =
      (pyRegistered.map fun p => (p.1.type code, p.2)).foldl (init := []) fun table p =>
        if table.any (fun q => q.1 == p.1) then table else table ++ [p] := by
  unfold exportGpuExcept
  generalize pyRegistered = L
  rw [List.foldl_map]

/-- A class is in the table only if no class was registered for the type before. -/
theorem register_mem {α β : Type} [BEq α] [LawfulBEq α] (L T : List (α × β)) (p : α × β)
    (h : p ∈ L.foldl (init := T) fun table p =>
      if table.any (fun q => q.1 == p.1) then table else table ++ [p]) :
    p ∈ T ∨ ∃ pre post, L = pre ++ p :: post ∧ ∀ q ∈ T ++ pre, q.1 ≠ p.1 := by
  induction L generalizing T with
  | nil => exact Or.inl h
  | cons a L ih =>
    rw [List.foldl_cons] at h
    split at h
    · rename_i ha
      rcases ih T h with h1 | ⟨pre, post, rfl, h1⟩
      · exact Or.inl h1
      · refine Or.inr ⟨a :: pre, post, rfl, fun q hq => ?_⟩
        obtain ⟨b, hb, hba⟩ := List.any_eq_true.1 ha
        rw [List.mem_append, List.mem_cons] at hq
        rcases hq with hq | rfl | hq
        · exact h1 q (List.mem_append_left _ hq)
        · rw [← eq_of_beq hba]; exact h1 b (List.mem_append_left _ hb)
        · exact h1 q (List.mem_append_right _ hq)
    · rename_i ha
      rcases ih _ h with h1 | ⟨pre, post, rfl, h1⟩
      · rw [List.mem_append, List.mem_singleton] at h1
        rcases h1 with h1 | rfl
        · exact Or.inl h1
        · refine Or.inr ⟨[], L, rfl, fun q hq he => ha ?_⟩
          rw [List.append_nil] at hq
          exact List.any_eq_true.2 ⟨q, hq, by rw [he]; exact beq_self_eq_true _⟩
      · refine Or.inr ⟨a :: pre, post, rfl, fun q hq => h1 q ?_⟩
        simpa [List.append_assoc] using hq

theorem registered_same : ∀ p ∈ pyRegistered, p.1 = p.2 := by decide

theorem type_eq_iff (code : GpuStatus → Int) (hd : DistinctCodes code) (ha : HipAliases code)
    (e e' : GpuExc) : e.type code = e'.type code ↔ firstName e = firstName e' := by
  constructor
  · intro h
    simp only [GpuExc.type, Prod.mk.injEq] at h
    exact hd _ _ (by rw [firstName_lib, firstName_lib, h.1]) (firstName_not_second e)
      (firstName_not_second e') (by rw [firstName_code code ha, firstName_code code ha, h.2])
  · intro h
    simp only [GpuExc.type, Prod.mk.injEq]
    rw [← firstName_lib e, ← firstName_lib e', ← firstName_code code ha e,
      ← firstName_code code ha e', h]
    exact ⟨rfl, rfl⟩

set_option maxRecDepth 8000 in
theorem registered_first : ∀ p ∈ pyRegistered, p.1 ∉ secondNames →
    (pyRegistered.find? (fun q => decide (firstName q.1 = p.1))).map (·.2) = some p.1 := by decide

theorem registered_all (e : GpuExc) (he : e ∉ secondNames) : (e, e) ∈ pyRegistered := by
  cases e <;> first | decide | exact absurd he (by decide)

/-- **C168 (Python).**  An exception of the GPU reaches Python as the class with the name of its
status, except that the second names of four statuses are never used. -/
theorem C168_python_partial (e : GpuExc) (he : e ∉ secondNames) (code : GpuStatus → Int)
    (hd : DistinctCodes code) (ha : HipAliases code) (text : Int → String) (site : CallSite)
    (ts : Bool) (t : GpuThrown)
    (h : catchOf e.lib code text (code e.status) site ts = some t) :
    pyClassOf code t = some e := by
  obtain ⟨h1, h2⟩ := C168_declared_partial e code ha text site ts t h
  have h3 := registered_first (e, e) (registered_all e he) he
  unfold pyClassOf
  rw [exportGpuExcept_find, h1, h2, List.find?_map, Option.map_map]
  rw [← h3]
  have : ((fun q : (GpuLibrary × Int) × GpuExc => q.1 == (e.lib, code e.status)) ∘
      fun p : GpuExc × GpuExc => (p.1.type code, p.2)) =
      fun q => decide (firstName q.1 = e) := by
    funext q
    have := type_eq_iff code hd ha q.1 e
    rw [firstName_eq e he] at this
    simp only [Function.comp, GpuExc.type] at this ⊢
    rw [Bool.eq_iff_iff]
    simp [this]
  rw [this]
  rfl

/-- **C168 (every name is there) is false.**  `einsums.gpu_except` has no class `ErrorMemoryAllocation`,
`ErrorInitializationError`, `ErrorMapBufferObjectFailed` or `ErrorInvalidResourceHandle`, although
each of them is registered: their C++ types are registered before under the other name. -/
theorem C168_attribute_refuted (e : GpuExc) (he : e ∈ secondNames) (code : GpuStatus → Int)
    (ha : HipAliases code) :
    (e, e) ∈ pyRegistered ∧ e ∉ (exportGpuExcept code).map (·.2) := by
  refine ⟨?_, fun hm => ?_⟩
  · simp only [secondNames, List.mem_cons, List.not_mem_nil, or_false] at he
    rcases he with rfl | rfl | rfl | rfl <;> decide
  obtain ⟨⟨t, n⟩, hq, hn⟩ := List.mem_map.1 hm
  have hn : n = e := hn
  subst hn
  rw [exportGpuExcept_eq] at hq
  rcases register_mem _ _ _ hq with h | ⟨pre, post, hL, hpre⟩
  · cases h
  rw [List.nil_append] at hpre
  obtain ⟨pre', rest, hL1, rfl, hL2⟩ := List.map_eq_append_iff.1 hL
  obtain ⟨p, post', rfl, hp, -⟩ := List.map_eq_cons_iff.1 hL2
  have hmem : p ∈ pyRegistered := by rw [hL1]; simp
  have hsame := registered_same p hmem
  simp only [Prod.mk.injEq] at hp
  have hp' : p = (n, n) := by
    obtain ⟨a, b⟩ := p
    simp only at hsame hp
    rw [hsame, hp.2]
  have htw : pyRegistered.takeWhile (fun q => decide (q ≠ (n, n))) = pre' := by
    rw [hL1, List.takeWhile_append_of_pos, hp']
    · simp
    · intro q hq
      have := hpre _ (List.mem_map.2 ⟨q, hq, rfl⟩)
      simp only [decide_eq_true_eq]
      rintro rfl
      apply this
      rw [← hp.1, hp']
  have hfirst : (firstName n, firstName n) ∈ pre' := by
    rw [← htw]
    clear htw hp' hmem hL hL2 hpre hq hm hp hL1
    simp only [secondNames, List.mem_cons, List.not_mem_nil, or_false] at he
    rcases he with rfl | rfl | rfl | rfl <;> decide
  refine hpre _ (List.mem_map.2 ⟨_, hfirst, rfl⟩) ?_
  rw [← hp.1, hp']
  simp only [GpuExc.type, firstName_lib, firstName_code code ha]

/-! ### Concrete cases -/

/-- Numbers as in HIP: each name of the list has its position, second names that of the first. -/
def sampleCode (s : GpuStatus) : Int :=
  (pyRegistered.findIdx fun p =>
    decide (p.1.status = s ∨ ∃ q ∈ secondNames, q.status = s ∧ firstName q = p.1) : Nat)

theorem sampleCode_aliases : HipAliases sampleCode := by
  constructor <;> decide

theorem sampleCode_inv (e : GpuExc) (h : e ∉ secondNames) :
    pyRegistered[(sampleCode e.status).toNat]? = some (e, e) := by
  cases e <;> first | decide | exact absurd h (by decide)

theorem sampleCode_distinct : DistinctCodes sampleCode := by
  intro e e' _ h h' he
  have h1 := sampleCode_inv e h
  have h2 := sampleCode_inv e' h'
  rw [he, h2] at h1
  simpa using h1.symm

/-- The hypotheses of the theorems are met: running out of memory. -/
example : ∃ t, catchOf .hip sampleCode (fun _ => "out of memory")
      (sampleCode .hipErrorMemoryAllocation) ⟨"hip_catch(hipMalloc(&p, n));", "a.hip", ":7:\nIn function: ", "f"⟩
      false = some t ∧ t.code = sampleCode .hipErrorOutOfMemory ∧
    pyClassOf sampleCode t = some .ErrorOutOfMemory ∧
    GpuExc.ErrorMemoryAllocation ∉ (exportGpuExcept sampleCode).map (·.2) := by
  have h := C168_returns .hip sampleCode (fun _ => "out of memory")
    (sampleCode .hipErrorMemoryAllocation)
    ⟨"hip_catch(hipMalloc(&p, n));", "a.hip", ":7:\nIn function: ", "f"⟩ false
  obtain ⟨t, ht⟩ := Option.ne_none_iff_exists'.1 (fun hn => absurd (h.1 hn).1 (by decide))
  refine ⟨t, ht, ?_, ?_, ?_⟩
  · exact (C168_declared_partial .ErrorMemoryAllocation sampleCode sampleCode_aliases _ _ _ t ht).2.trans
      sampleCode_aliases.memory
  · exact C168_python_partial .ErrorOutOfMemory (by decide) sampleCode sampleCode_distinct
      sampleCode_aliases _ _ _ t (by rw [← ht, sampleCode_aliases.memory]; rfl)
  · exact (C168_attribute_refuted .ErrorMemoryAllocation (by decide) sampleCode
      sampleCode_aliases).2

/-- A status of hipSOLVER that no exception type is declared for. -/
example : ∀ e : GpuExc, e.lib = .solver → sampleCode e.status ≠ -1 := by
  intro e _ h
  simp [sampleCode] at h

end Einsums.Props
