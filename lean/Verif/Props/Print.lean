import Verif.Spec.Print
import Mathlib.Data.List.TakeWhile
import Mathlib.Data.List.Induction
import Mathlib.Data.List.Infix
import Mathlib.Tactic.Ring
import Mathlib.Algebra.BigOperators.Group.List.Basic
/-
Line output: indentation and lines (C50), several threads (C61).
-/
namespace Einsums.Props
open Spec Model

/-! ### C50: lines -/

theorem takeWhile_nl {l : List UInt8} (h : (10 : UInt8) ∉ l) (r : List UInt8) :
    (l ++ 10 :: r).takeWhile (· ≠ 10) = l ∧ (l ++ 10 :: r).dropWhile (· ≠ 10) = 10 :: r := by
  have h' : ∀ x ∈ l, (decide (x ≠ 10)) = true := by
    intro x hx; simp; rintro rfl; exact h hx
  rw [List.takeWhile_append_of_pos h', List.dropWhile_append_of_pos h']
  simp

theorem getline_line {l : List UInt8} (h : (10 : UInt8) ∉ l) (r : List UInt8) :
    getline (l ++ 10 :: r) = some (l, r) := by
  unfold getline
  rw [if_neg (by simp), (takeWhile_nl h r).1, (takeWhile_nl h r).2]
  rfl

theorem getline_last {l : List UInt8} (h : (10 : UInt8) ∉ l) (hl : l ≠ []) : getline l = some (l, []) := by
  have h' : ∀ x ∈ l, (decide (x ≠ 10)) = true := by
    intro x hx; simp; rintro rfl; exact h hx
  unfold getline
  rw [if_neg hl, List.takeWhile_eq_self_iff.2 h', List.dropWhile_eq_nil_iff.2 h']
  rfl

theorem printLoop_some {sink : Sink} {hd s l r : List UInt8} (h : getline s = some (l, r)) :
    printLoop sink hd s = lineOutput sink hd l ++ printLoop sink hd r := by
  rw [printLoop]
  split
  · rename_i h'; rw [h] at h'; cases h'
  · rename_i h'; rw [h] at h'; cases h'; rfl

theorem printLoop_nil (sink : Sink) (hd : List UInt8) : printLoop sink hd [] = [] := by
  rw [printLoop]; rfl

theorem printLoop_lines (sink : Sink) (hd : List UInt8) (ls : List (List UInt8)) : ∀ s, IsLines s ls →
    printLoop sink hd s = ls.flatMap (lineOutput sink hd) := by
  induction ls with
  | nil =>
    intro s h
    obtain ⟨_, h | ⟨h, l, hl, _⟩⟩ := h
    · simp at h; subst h; rw [printLoop_nil]; rfl
    · simp at hl
  | cons l ls ih =>
    intro s h
    obtain ⟨hno, h⟩ := h
    have hl : (10 : UInt8) ∉ l := hno l (by simp)
    have hno' : ∀ l ∈ ls, (10 : UInt8) ∉ l := fun l' h' => hno l' (by simp [h'])
    rcases h with h | ⟨h, m, hm, hme⟩
    · have e : s = l ++ 10 :: ls.flatMap (· ++ [10]) := by rw [h]; simp
      rw [e, printLoop_some (getline_line hl _), ih _ ⟨hno', Or.inl rfl⟩]
      rfl
    · cases ls with
      | nil =>
        simp at h hm
        subst h; subst hm
        rw [printLoop_some (getline_last hl hme), printLoop_nil]
        simp
      | cons l2 ls =>
        obtain ⟨r, hr⟩ : ∃ r, s = l ++ 10 :: r := by
          simp only [List.flatMap_cons, List.append_assoc] at h
          refine ⟨s.drop (l.length + 1), ?_⟩
          have h1 : (s ++ [10]).take (l.length + 1) = l ++ [10] := by
            rw [h, ← List.append_assoc, List.take_left' (by simp)]
          have hlen : l.length + 1 ≤ s.length := by
            have := congrArg List.length h
            simp at this
            omega
          rw [List.take_append_of_le_length hlen] at h1
          calc s = s.take (l.length + 1) ++ s.drop (l.length + 1) := (List.take_append_drop _ _).symm
            _ = _ := by rw [h1]; simp
        have hr' : r ++ [10] = (l2 :: ls).flatMap (· ++ [10]) := by
          rw [hr, List.flatMap_cons] at h
          simpa using h
        rw [hr, printLoop_some (getline_line hl _), ih r ⟨hno', Or.inr ⟨hr', m, by simpa using hm, hme⟩⟩]
        rfl

theorem header_no_nul (st : PrintState) (hst : (0 : UInt8) ∉ st.indentString) (par : Bool) (t : Nat) :
    (0 : UInt8) ∉ lineHeader st par t := by
  have hd : ∀ n, (0 : UInt8) ∉ setw6 (decimal n) := by
    intro n hn
    unfold setw6 decimal at hn
    rw [List.mem_append, List.mem_replicate] at hn
    rcases hn with hn | hn
    · exact absurd hn.2 (by decide)
    · split at hn
      · simp at hn
      · rw [List.mem_reverse, List.mem_map] at hn
        obtain ⟨d, hd, e⟩ := hn
        have hlt := Nat.digits_lt_base (b := 10) (by omega) hd
        have : (UInt8.ofNat (48 + d)).toNat = 48 + d := by
          rw [UInt8.toNat_ofNat']; omega
        rw [e] at this
        simp at this
        omega
  unfold lineHeader
  rw [List.mem_append]
  rintro (h | h)
  · split at h
    · split at h
      · rw [List.mem_append, List.mem_append] at h
        rcases h with (h | h) | h
        · exact absurd h (by decide)
        · exact hd 0 h
        · exact absurd h (by decide)
      · rw [List.mem_append, List.mem_append] at h
        rcases h with (h | h) | h
        · exact absurd h (by decide)
        · exact hd t h
        · exact absurd h (by decide)
    · simp at h
  · exact hst h

theorem cstr_eq {s : List UInt8} (h : (0 : UInt8) ∉ s) : cstr s = s := by
  unfold cstr
  rw [List.takeWhile_eq_self_iff]
  intro x hx
  simp
  rintro rfl
  exact h hx

/-! ### Indentation -/

/-- What is known of the state: the level is `4 * k` and the indentation is as many spaces. -/
structure IndentInv (k : Nat) (s : PrintState) : Prop where
  level : s.indentLevel = 4 * k
  string : s.indentString = List.replicate (4 * k) 32

theorem indentInv_update {k : Nat} {s : PrintState} (h : s.indentLevel = 4 * k) :
    IndentInv k s.updateIndentString := by
  refine ⟨h, ?_⟩
  simp only [PrintState.updateIndentString, h]
  split
  · congr 1
  · have : k = 0 := by omega
    subst this; rfl

theorem runIndent_snoc (ops : List IndentOp) (op : IndentOp) (s : PrintState) :
    runIndent (ops ++ [op]) s = indentStep (runIndent ops s) op := by
  simp [runIndent]

theorem indentInv_run (ops : List IndentOp) : ∀ k s, IndentInv k s → ∃ k', IndentInv k' (runIndent ops s) ∧
    (runIndent ops s).suppress = s.suppress ∧
    (∀ t, t <:+ ops → balance t ≤ k') ∧ balance ops + k ≤ k' ∧
    ((k' : Int) = balance ops + k ∨ ∃ t, t <:+ ops ∧ (k' : Int) = balance t) := by
  induction ops using List.reverseRecOn with
  | nil =>
    intro k s h
    refine ⟨k, h, rfl, ?_, by simp [balance], Or.inl (by simp [balance])⟩
    intro t ht
    rw [List.suffix_nil] at ht
    subst ht
    simp [balance]
  | append_singleton ops op ih =>
    intro k s h
    obtain ⟨k1, h1, hs, h2, h3, h4⟩ := ih k s h
    have hbal : ∀ t, balance (t ++ [op]) = balance t + op.weight := by
      intro t; simp [balance]
    have hsuf : ∀ t, t <:+ ops ++ [op] → t = [] ∨ ∃ t', t' <:+ ops ∧ t = t' ++ [op] := by
      intro t ht
      rw [List.suffix_concat_iff] at ht
      rcases ht with ht | ⟨t', e, ht⟩
      · exact Or.inl ht
      · exact Or.inr ⟨t', ht, e⟩
    have hw : op.weight = 1 ∨ op.weight = -1 ∨ op.weight = 0 := by
      cases op with
      | indent t => cases t <;> simp [IndentOp.weight]
      | deindent t => cases t <;> simp [IndentOp.weight]
    have key : ∃ k2 : Nat, (k2 : Int) = max 0 (k1 + op.weight) ∧ IndentInv k2 (runIndent (ops ++ [op]) s) ∧
        (runIndent (ops ++ [op]) s).suppress = (runIndent ops s).suppress := by
      rw [runIndent_snoc]
      cases op with
      | indent t =>
        cases t with
        | zero =>
          refine ⟨k1 + 1, by simp [IndentOp.weight]; omega, ?_, rfl⟩
          simp only [indentStep, PrintState.indent, if_true]
          apply indentInv_update
          simp [h1.level]; omega
        | succ t =>
          refine ⟨k1, by simp [IndentOp.weight], ?_, rfl⟩
          simpa [indentStep, PrintState.indent] using h1
      | deindent t =>
        cases t with
        | zero =>
          refine ⟨k1 - 1, by simp [IndentOp.weight]; omega, ?_, rfl⟩
          simp only [indentStep, PrintState.deindent, if_true]
          apply indentInv_update
          simp only [h1.level]
          split <;> omega
        | succ t =>
          refine ⟨k1, by simp [IndentOp.weight], ?_, rfl⟩
          simpa [indentStep, PrintState.deindent] using h1
    obtain ⟨k2, e2, h5, h6⟩ := key
    refine ⟨k2, h5, by rw [h6, hs], ?_, ?_, ?_⟩
    · intro t ht
      rcases hsuf t ht with rfl | ⟨t', ht', rfl⟩
      · simp [balance]
      · have := h2 t' ht'
        rw [hbal]; omega
    · rw [hbal]; omega
    · by_cases c : (k1 : Int) + op.weight < 0
      · refine Or.inr ⟨[], List.nil_suffix, ?_⟩
        simp [balance]; omega
      · rcases h4 with h4 | ⟨t, ht, h4⟩
        · left; rw [hbal]; omega
        · refine Or.inr ⟨t ++ [op], ?_, by rw [hbal]; omega⟩
          obtain ⟨u, hu⟩ := ht
          exact ⟨u, by rw [← hu]; simp⟩

theorem indentInv_init : IndentInv 0 PrintState.init := ⟨rfl, rfl⟩

/-- **C50 (lines).** Whatever the indentation calls before, printing a text writes each of its lines once, in order, as
header, four spaces per level, the line and a newline.  `level` is the current level: it is at least the balance of every
trailing part of the history and equals one of them, so it is never negative and depends on the master thread only.
Outside parallel regions there is no header.  Lines of `println` and `fprintln(FILE *)` must not contain a NUL. -/
theorem C50_lines (ops : List IndentOp) (s : List UInt8) (ls : List (List UInt8)) (h : IsLines s ls)
    (sink : Sink) (hnul : sink = .file → (0 : UInt8) ∉ s) (par : Bool) (thread : Nat) :
    ∃ level : Nat, (runIndent ops .init).indentLevel = 4 * level ∧
      (∀ t, t <:+ ops → balance t ≤ level) ∧ (∃ t, t <:+ ops ∧ balance t = level) ∧
      ∃ header, (par = false → header = []) ∧
        println (runIndent ops .init) sink par thread s =
          ls.flatMap fun l => header ++ List.replicate (4 * level) 32 ++ l ++ [10] := by
  obtain ⟨k, h1, hsup, h2, h3, h4⟩ := indentInv_run ops 0 _ indentInv_init
  refine ⟨k, h1.level, h2, ?_, (if par then
    if thread = 0 then
      ascii ['[', ' ', 'm', 'a', 'i', 'n', ' ', '#'] ++ setw6 (decimal 0) ++ ascii [' ', ']', ' ']
    else ascii ['[', ' ', 't', 'i', 'd', ' ', ' ', '#'] ++ setw6 (decimal thread) ++ ascii [' ', ']', ' ']
    else []), by rintro rfl; rfl, ?_⟩
  · rcases h4 with h4 | ⟨t, ht, h4⟩
    · exact ⟨ops, List.suffix_rfl, by simp at h4; exact h4.symm⟩
    · exact ⟨t, ht, h4.symm⟩
  · unfold println
    rw [if_neg (by rw [hsup]; simp [PrintState.init]), printLoop_lines _ _ _ _ h]
    have hh := header_no_nul (runIndent ops .init) (by rw [h1.string]; simp [List.mem_replicate]) par thread
    have hl : sink = .file → ∀ l ∈ ls, (0 : UInt8) ∉ l := by
      intro hs l hl hz
      have hm : (0 : UInt8) ∈ ls.flatMap (· ++ [10]) := by
        rw [List.mem_flatMap]; exact ⟨l, hl, by simp [hz]⟩
      rcases h.2 with e | ⟨e, _⟩
      · rw [← e] at hm; exact hnul hs hm
      · rw [← e] at hm; simp at hm; exact hnul hs hm
    rw [List.flatMap_def, List.flatMap_def]
    congr 1
    apply List.map_congr_left
    intro l hl'
    unfold lineOutput
    cases sink with
    | file =>
      simp only
      rw [cstr_eq hh, cstr_eq (hl rfl l hl')]
      simp [lineHeader, h1.string]
    | stream => simp [lineHeader, h1.string]

/-- Every text has lines, so the theorem applies to every text. -/
theorem C50_lines_exist (s : List UInt8) : ∃ ls, IsLines s ls := by
  suffices h : ∀ n, ∀ s : List UInt8, s.length = n → ∃ ls, IsLines s ls from h _ s rfl
  intro n
  induction n using Nat.strong_induction_on with
  | _ n ih =>
    intro s hn
    by_cases hs : s = []
    · exact ⟨[], by simp, Or.inl (by simp [hs])⟩
    · have hmem : (10 : UInt8) ∉ s.takeWhile (· ≠ 10) := by
        intro h
        have := List.mem_takeWhile_imp h
        simp at this
      cases hd : s.dropWhile (· ≠ 10) with
      | nil =>
        have e : s.takeWhile (· ≠ 10) = s := by
          rw [List.takeWhile_eq_self_iff]; exact List.dropWhile_eq_nil_iff.1 hd
        rw [e] at hmem
        exact ⟨[s], by simpa using hmem, Or.inr ⟨by simp, s, by simp, hs⟩⟩
      | cons c r =>
        have hc : c = 10 := by
          have := List.head?_dropWhile_not (· ≠ (10 : UInt8)) s
          rw [hd] at this
          simpa using this
        subst hc
        have e : s = s.takeWhile (· ≠ 10) ++ 10 :: r := by
          rw [← hd, List.takeWhile_append_dropWhile]
        have hlen : r.length < n := by
          have := congrArg List.length e
          simp at this; omega
        obtain ⟨ls, h1, h2⟩ := ih _ hlen r rfl
        refine ⟨s.takeWhile (· ≠ 10) :: ls, ?_, ?_⟩
        · intro l hl
          rw [List.mem_cons] at hl
          rcases hl with rfl | hl
          · exact hmem
          · exact h1 l hl
        · rcases h2 with h2 | ⟨h2, m, hm, hme⟩
          · left
            rw [List.flatMap_cons, ← h2]
            conv_lhs => rw [e]
            simp
          · right
            refine ⟨?_, m, ?_, hme⟩
            · rw [List.flatMap_cons, ← h2]
              conv_lhs => rw [e]
              simp
            · cases ls with
              | nil => simp at hm
              | cons a ls => simpa using hm

/-- **C50 (nesting).** Calls that stay balanced — every deindentation matched by an earlier indentation of the same part,
and all matched at the end — leave the state as it was. -/
theorem C50_balanced (before ops : List IndentOp) (hpre : ∀ t, t <+: ops → 0 ≤ balance t) (h0 : balance ops = 0) :
    runIndent (before ++ ops) .init = runIndent before .init := by
  have hap : ∀ a b s, runIndent (a ++ b) s = runIndent b (runIndent a s) := by
    intro a b s; simp [runIndent]
  obtain ⟨k, h1, _⟩ := indentInv_run before 0 _ indentInv_init
  rw [hap]
  generalize runIndent before .init = s at h1
  have key : ∀ t, t <+: ops → ∃ k' : Nat, (k' : Int) = k + balance t ∧ IndentInv k' (runIndent t s) ∧
      (runIndent t s).suppress = s.suppress ∧ (runIndent t s).printMasterThreadId = s.printMasterThreadId := by
    intro t
    induction t using List.reverseRecOn with
    | nil => intro _; exact ⟨k, by simp [balance], h1, rfl, rfl⟩
    | append_singleton t op ih =>
      intro ht
      obtain ⟨k1, e1, i1, i2, i3⟩ := ih ((List.prefix_append _ _).trans ht)
      have hb : balance (t ++ [op]) = balance t + op.weight := by simp [balance]
      have hnn := hpre _ ht
      rw [runIndent_snoc]
      cases op with
      | indent th =>
        cases th with
        | zero =>
          refine ⟨k1 + 1, by rw [hb]; simp [IndentOp.weight]; omega, ?_, by rw [← i2]; rfl, by rw [← i3]; rfl⟩
          simp only [indentStep, PrintState.indent, if_true]
          apply indentInv_update
          simp [i1.level]; omega
        | succ th =>
          refine ⟨k1, by rw [hb]; simp [IndentOp.weight]; omega, ?_, by rw [← i2]; rfl, by rw [← i3]; rfl⟩
          simpa [indentStep, PrintState.indent] using i1
      | deindent th =>
        cases th with
        | zero =>
          rw [hb] at hnn
          simp only [IndentOp.weight] at hnn
          refine ⟨k1 - 1, by rw [hb]; simp [IndentOp.weight]; omega, ?_, by rw [← i2]; rfl, by rw [← i3]; rfl⟩
          simp only [indentStep, PrintState.deindent, if_true]
          apply indentInv_update
          simp only [i1.level]
          split <;> omega
        | succ th =>
          refine ⟨k1, by rw [hb]; simp [IndentOp.weight]; omega, ?_, by rw [← i2]; rfl, by rw [← i3]; rfl⟩
          simpa [indentStep, PrintState.deindent] using i1
  obtain ⟨k', e, i1, i2, i3⟩ := key ops List.prefix_rfl
  have : k' = k := by omega
  subst this
  generalize runIndent ops s = s' at i1 i2 i3
  cases s; cases s'
  have e1 := i1.level; have e2 := i1.string; have e3 := h1.level; have e4 := h1.string
  simp only at e1 e2 e3 e4 i2 i3
  rw [PrintState.mk.injEq]
  exact ⟨by rw [e1, e3], by rw [e2, e4], i3, i2⟩

/-- **C50 (refuted: a deindentation at level 0 is lost).** It is not made up for by a later indentation. -/
theorem C50_clamp_refuted : (runIndent [.deindent 0, .indent 0] .init).indentLevel = 4 ∧
    balance [.deindent 0, .indent 0] = 0 := by decide

/-- **C50 (suppression).** After `suppress_output(true)` nothing is written. -/
theorem C50_suppress (st : PrintState) (sink : Sink) (par : Bool) (thread : Nat) (s : List UInt8) :
    println (st.suppressOutput true) sink par thread s = [] := rfl

/-- **C50 (refuted: `always_print_thread_id`).** It has no effect on any output. -/
theorem C50_thread_id_refuted (st : PrintState) (onoff : Bool) (sink : Sink) (par : Bool) (thread : Nat) (s : List UInt8) :
    println (st.alwaysPrintThreadId onoff) sink par thread s = println st sink par thread s := rfl

/-- **C50 (refuted: NUL bytes).** `println` drops the rest of a line after a NUL byte, the stream variant does not. -/
theorem C50_nul_refuted : println .init .file false 0 [97, 0, 98] = [97, 10] ∧
    println .init .stream false 0 [97, 0, 98] = [97, 0, 98, 10] := by
  constructor
  · rw [println, if_neg (by decide), printLoop_some (l := [97, 0, 98]) (r := []) (by decide), printLoop_nil]; decide
  · rw [println, if_neg (by decide), printLoop_some (l := [97, 0, 98]) (r := []) (by decide), printLoop_nil]; decide

/-- Two lines, the second without newline, one level of indentation. -/
example : println (runIndent [.indent 0, .indent 3] .init) .file false 0 [97, 10, 98] = [32, 32, 32, 32, 97, 10, 32, 32, 32, 32, 98, 10] ∧
    IsLines [97, 10, 98] [[97], [98]] := by
  constructor
  · rw [println, if_neg (by decide), printLoop_some (l := [97]) (r := [98]) (by decide),
      printLoop_some (l := [98]) (r := []) (by decide), printLoop_nil]; decide
  · exact ⟨by decide, Or.inr ⟨by decide, [98], by decide, by decide⟩⟩

example : (∀ t, t <+: [IndentOp.indent 0, .indent 0, .deindent 0, .deindent 1, .deindent 0] → 0 ≤ balance t) ∧
    balance [IndentOp.indent 0, .indent 0, .deindent 0, .deindent 1, .deindent 0] = 0 := by
  constructor
  · intro t ht
    rw [← List.mem_inits] at ht
    revert t
    decide
  · decide

/-! ### C61: several threads -/

/-- What a thread still has to write. -/
def remaining (p : PrintThread) : List (List UInt8 × List UInt8) :=
  if p.pc = .lineWritten then p.todo.tail else p.todo

/-- The line begun by a thread. -/
def begun (p : PrintThread) : List UInt8 :=
  match p.pc, p.todo with
  | .headerWritten, (h, _) :: _ => cstr h
  | _, _ => []

/-- What a state reached from the start looks like: whole lines so far, and possibly one line begun by the owner. -/
structure PrintInv (s0 s : PrintSystem) (done : List (Nat × List UInt8 × List UInt8)) : Prop where
  owner : ∀ t, (s.threads t).pc ≠ .outside ↔ s.owner = some t
  todo : ∀ t, (done.filter (·.1 = t)).map (·.2) ++ (remaining (s.threads t)).map (fun p => (cstr p.1, cstr p.2)) =
    (s0.threads t).todo.map (fun p => (cstr p.1, cstr p.2))
  out : s.output = (done.flatMap fun p => p.2.1 ++ p.2.2 ++ [10]) ++
    match s.owner with
    | none => []
    | some t => begun (s.threads t)

theorem printInv_step {s0 s s' : PrintSystem} {done : List (Nat × List UInt8 × List UInt8)} (h : PrintInv s0 s done)
    (st : PrintStep s s') : ∃ done', PrintInv s0 s' done' := by
  cases st with
  | lock t hd l rest ht ho =>
    refine ⟨done, ?_, ?_, ?_⟩
    · intro u
      simp only [PrintSystem.move]
      by_cases c : u = t
      · simp [c]
      · have := h.owner u
        rw [ho] at this
        simp only [if_neg c, this]
        simp [Ne.symm c]
    · intro u
      have := h.todo u
      simp only [PrintSystem.move]
      by_cases c : u = t
      · subst c; rw [ht] at this; simpa [remaining] using this
      · simpa [if_neg c] using this
    · have := h.out
      rw [ho] at this
      simpa [PrintSystem.move, begun] using this
  | header t hd l rest ht =>
    have ho : s.owner = some t := (h.owner t).1 (by rw [ht]; simp)
    refine ⟨done, ?_, ?_, ?_⟩
    · intro u
      simp only [PrintSystem.move]
      by_cases c : u = t
      · simp [c, ho]
      · simp only [if_neg c]; exact h.owner u
    · intro u
      have := h.todo u
      simp only [PrintSystem.move]
      by_cases c : u = t
      · subst c; rw [ht] at this; simpa [remaining] using this
      · simpa [if_neg c] using this
    · have := h.out
      rw [ho] at this
      simp only [ht, begun] at this
      simp [PrintSystem.move, begun, ho, this]
  | line t hd l rest ht =>
    have ho : s.owner = some t := (h.owner t).1 (by rw [ht]; simp)
    refine ⟨done ++ [(t, cstr hd, cstr l)], ?_, ?_, ?_⟩
    · intro u
      simp only [PrintSystem.move]
      by_cases c : u = t
      · simp [c, ho]
      · simp only [if_neg c]; exact h.owner u
    · intro u
      have := h.todo u
      simp only [PrintSystem.move]
      by_cases c : u = t
      · subst c; rw [ht] at this; simpa [remaining] using this
      · simpa [if_neg c, Ne.symm c] using this
    · have := h.out
      rw [ho] at this
      simp only [ht, begun] at this
      simp [PrintSystem.move, begun, ho, this]
  | unlock t hd l rest ht =>
    have ho : s.owner = some t := (h.owner t).1 (by rw [ht]; simp)
    refine ⟨done, ?_, ?_, ?_⟩
    · intro u
      simp only [PrintSystem.move]
      by_cases c : u = t
      · simp [c]
      · have := h.owner u
        rw [ho] at this
        simp only [if_neg c, this]
        simp [Ne.symm c]
    · intro u
      have := h.todo u
      simp only [PrintSystem.move]
      by_cases c : u = t
      · subst c; rw [ht] at this; simpa [remaining] using this
      · simpa [if_neg c] using this
    · have := h.out
      rw [ho] at this
      simp only [ht, begun] at this
      simpa [PrintSystem.move, begun] using this

/-- **C61.** Any number of threads print lines under any schedule.  Whenever no thread is inside `print_line`, the output
consists of whole lines, header and text together, and the lines of each thread appear in its order; once a thread has
nothing left to do all its lines are there.  (`printf` stops at a NUL byte: `cstr`.) -/
theorem C61_whole_lines (s0 s : PrintSystem) (h0 : s0.owner = none) (hout : s0.output = [])
    (hpc : ∀ t, (s0.threads t).pc = .outside) (run : PrintRun s0 s) (hfree : s.owner = none) :
    ∃ prints, WholeLines s.output prints ∧
      ∀ t, (prints.filter (·.1 = t)).map (·.2) ++ (s.threads t).todo.map (fun p => (cstr p.1, cstr p.2)) =
        (s0.threads t).todo.map (fun p => (cstr p.1, cstr p.2)) := by
  have key : ∃ done, PrintInv s0 s done := by
    clear hfree
    induction run with
    | refl => exact ⟨[], by intro t; simp [hpc, h0], by intro t; simp [remaining, hpc], by simp [h0, hout]⟩
    | step t u _ st ih =>
      obtain ⟨d, hd⟩ := ih
      exact printInv_step hd st
  obtain ⟨d, hd⟩ := key
  refine ⟨d, ?_, ?_⟩
  · have := hd.out
    rw [hfree] at this
    simpa [WholeLines] using this
  · intro t
    have hp : (s.threads t).pc = .outside := by
      by_contra c
      have := (hd.owner t).1 c
      rw [hfree] at this
      cases this
    have := hd.todo t
    simpa [remaining, hp] using this

/-- **C61 (no deadlock).** As long as a thread has lines to print, some step is possible. -/
theorem C61_progress (s0 s : PrintSystem) (h0 : s0.owner = none)
    (hpc : ∀ t, (s0.threads t).pc = .outside) (run : PrintRun s0 s) (t : Nat) (ht : (s.threads t).todo ≠ []) :
    ∃ s', PrintStep s s' := by
  have key : (∀ t, s.owner = some t → (s.threads t).pc ≠ .outside ∧ (s.threads t).todo ≠ []) ∧
      ∀ t, (s.threads t).pc ≠ .outside → s.owner = some t := by
    clear ht
    induction run with
    | refl => exact ⟨(by intro t h; rw [h0] at h; cases h), (by intro t h; exact absurd (hpc t) h)⟩
    | step a b _ st ih =>
      obtain ⟨i1, i2⟩ := ih
      cases st with
      | lock u hd l rest hu ho =>
        refine ⟨?_, ?_⟩
        · intro v hv
          simp only [PrintSystem.move, Option.some.injEq] at hv ⊢
          subst hv; simp
        · intro v hv
          simp only [PrintSystem.move] at hv ⊢
          by_cases c : v = u
          · rw [c]
          · rw [if_neg c] at hv
            have := i2 v hv
            rw [ho] at this; cases this
      | header u hd l rest hu =>
        have ho := i2 u (by rw [hu]; simp)
        refine ⟨?_, ?_⟩
        · intro v hv
          simp only [PrintSystem.move, ho, Option.some.injEq] at hv ⊢
          subst hv; simp
        · intro v hv
          simp only [PrintSystem.move] at hv ⊢
          by_cases c : v = u
          · rw [c, ho]
          · rw [if_neg c] at hv
            exact i2 v hv
      | line u hd l rest hu =>
        have ho := i2 u (by rw [hu]; simp)
        refine ⟨?_, ?_⟩
        · intro v hv
          simp only [PrintSystem.move, ho, Option.some.injEq] at hv ⊢
          subst hv; simp
        · intro v hv
          simp only [PrintSystem.move] at hv ⊢
          by_cases c : v = u
          · rw [c, ho]
          · rw [if_neg c] at hv
            exact i2 v hv
      | unlock u hd l rest hu =>
        have ho := i2 u (by rw [hu]; simp)
        refine ⟨?_, ?_⟩
        · intro v hv
          simp [PrintSystem.move] at hv
        · intro v hv
          simp only [PrintSystem.move] at hv ⊢
          by_cases c : v = u
          · simp [c] at hv
          · rw [if_neg c] at hv
            have := i2 v hv
            rw [ho] at this
            exact absurd (Option.some.inj this).symm c
  have some_step : ∀ u, (s.threads u).todo ≠ [] → ((s.threads u).pc = .outside → s.owner = none) → ∃ s', PrintStep s s' := by
    intro u hu hp
    cases e : s.threads u with
    | mk todo pc =>
      rw [e] at hu hp
      cases todo with
      | nil => exact absurd rfl hu
      | cons p rest =>
        obtain ⟨hd, l⟩ := p
        cases pc with
        | outside => exact ⟨_, .lock s u hd l rest e (hp rfl)⟩
        | locked => exact ⟨_, .header s u hd l rest e⟩
        | headerWritten => exact ⟨_, .line s u hd l rest e⟩
        | lineWritten => exact ⟨_, .unlock s u hd l rest e⟩
  cases ho : s.owner with
  | none => exact some_step t ht (fun _ => ho)
  | some u => exact some_step u (key.1 u ho).2 (fun hp => absurd hp (key.1 u ho).1)

/-- Two threads, each with one line; thread 1 goes first. -/
example : ∃ s, PrintRun ⟨fun t => ⟨if t < 2 then [([65], [97 + UInt8.ofNat t])] else [], .outside⟩, none, []⟩ s ∧ s.owner = none ∧
    s.output = [65, 98, 10, 65, 97, 10] := by
  refine ⟨_, .step _ _ _ (.step _ _ _ (.step _ _ _ (.step _ _ _ (.step _ _ _ (.step _ _ _ (.step _ _ _ (.step _ _ _ (.refl _)
    (.lock _ 1 [65] [98] [] rfl rfl)) (.header _ 1 [65] [98] [] rfl)) (.line _ 1 [65] [98] [] rfl))
    (.unlock _ 1 [65] [98] [] rfl)) (.lock _ 0 [65] [97] [] rfl rfl)) (.header _ 0 [65] [97] [] rfl))
    (.line _ 0 [65] [97] [] rfl)) (.unlock _ 0 [65] [97] [] rfl), rfl, by decide⟩

end Einsums.Props
