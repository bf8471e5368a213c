import Verif.Spec.OmpScope

/-!
# Scopes without OpenMP threads (C169)
-/

namespace Einsums.Props

open Spec Model

/-- **C169 (the number of threads comes back).**  After a block without threads the number of threads
is what it was before, whatever the block did, also if an exception leaves it. -/
theorem C169_restores (supported : Nat) (p : OmpProg) (s : OmpState) :
    ((OmpProg.noThreads p).exec supported s).1.threads = s.threads := rfl

/-- What a program does to the number of threads when it does not set it. -/
theorem exec_threads (supported : Nat) (p : OmpProg) (h : NoSetThreads p) (t n : Bool) (k : Nat)
    (s : OmpState) (hs : s.threads = if t then 1 else k) :
    (p.exec supported s).1.threads = s.threads ∧
      (p.exec supported s).2.1.map (·.threads) =
        (regions p t n).1.map (fun r => if r.1 then 1 else k) ∧
      (p.exec supported s).2.2 = (regions p t n).2 := by
  induction p generalizing t n s with
  | skip => exact ⟨rfl, rfl, rfl⟩
  | region => exact ⟨rfl, by simp [OmpProg.exec, regions, hs], rfl⟩
  | setThreads m => exact h.elim
  | setLevels m => exact ⟨rfl, rfl, rfl⟩
  | throw => exact ⟨rfl, rfl, rfl⟩
  | seq p q ihp ihq =>
    obtain ⟨h1, h2, h3⟩ := ihp h.1 t n s hs
    simp only [OmpProg.exec, regions]
    rw [h3]
    split
    · exact ⟨h1, h2, h3⟩
    · obtain ⟨h4, h5, h6⟩ := ihq h.2 t n _ (h1.trans hs)
      exact ⟨h4.trans h1, by rw [List.map_append, List.map_append, h2, h5], h6⟩
  | attempt p ih =>
    obtain ⟨h1, h2, -⟩ := ih h t n s hs
    exact ⟨h1, h2, rfl⟩
  | noThreads p ih =>
    obtain ⟨-, h2, h3⟩ := ih h true n (openThreads s).2 rfl
    exact ⟨rfl, h2, h3⟩
  | noNested p ih =>
    have hn : ∀ b s, (OmpState.setNested supported b s).threads = s.threads := by
      intro b s; unfold OmpState.setNested; split <;> split <;> rfl
    obtain ⟨h1, h2, h3⟩ := ih h t true (openNested supported s).2 ((hn _ _).trans hs)
    exact ⟨(hn _ _).trans (h1.trans (hn _ _)), h2, h3⟩

/-- **C169 (one thread inside, all of them outside).**  In a program that does not set the number of
threads itself, every parallel region in a block without threads starts with one thread, and every
other one with the number of threads the program started with; afterwards that number is unchanged. -/
theorem C169_inside (supported : Nat) (p : OmpProg) (h : NoSetThreads p) (s : OmpState) :
    (p.exec supported s).2.1.map (·.threads) =
        (regions p false false).1.map (fun r => if r.1 then 1 else s.threads) ∧
      (p.exec supported s).1.threads = s.threads ∧
      (p.exec supported s).2.2 = (regions p false false).2 := by
  obtain ⟨h1, h2, h3⟩ := exec_threads supported p h false false s.threads s rfl
  exact ⟨h2, h1, h3⟩

/-- **C169 (nesting comes back).**  After a block without nesting, nesting is on exactly if it was
before, whatever the block did, also if an exception leaves it. -/
theorem C169_nested (supported : Nat) (hsup : 1 < supported) (p : OmpProg) (s : OmpState) :
    ((OmpProg.noNested p).exec supported s).1.nested = s.nested := by
  have key : ∀ (b : Bool) (r : OmpState), (OmpState.setNested supported b r).nested = b := by
    intro b r
    cases b <;> simp only [OmpState.setNested, if_true, Bool.false_eq_true, if_false] <;> split <;>
      simp [OmpState.nested] <;> omega
  exact key _ _

/-- The levels a program runs with when it does not set them. -/
theorem exec_levels (supported : Nat) (p : OmpProg) (h : NoSetLevels p)
    (t n : Bool) (k : Nat) (hk : k ≤ 1 ∨ k = supported) (s : OmpState)
    (hs : s.levels = if n then min k 1 else k) :
    (p.exec supported s).1.levels = s.levels ∧
      (p.exec supported s).2.1.map (·.levels) =
        (regions p t n).1.map (fun r => if r.2 then min k 1 else k) ∧
      (p.exec supported s).2.2 = (regions p t n).2 := by
  induction p generalizing t n s with
  | skip => exact ⟨rfl, rfl, rfl⟩
  | region => exact ⟨rfl, by simp [OmpProg.exec, regions, hs], rfl⟩
  | setThreads m => exact ⟨rfl, rfl, rfl⟩
  | setLevels m => exact h.elim
  | throw => exact ⟨rfl, rfl, rfl⟩
  | seq p q ihp ihq =>
    obtain ⟨h1, h2, h3⟩ := ihp h.1 t n s hs
    simp only [OmpProg.exec, regions]
    rw [h3]
    split
    · exact ⟨h1, h2, h3⟩
    · obtain ⟨h4, h5, h6⟩ := ihq h.2 t n _ (h1.trans hs)
      exact ⟨h4.trans h1, by rw [List.map_append, List.map_append, h2, h5], h6⟩
  | attempt p ih =>
    obtain ⟨h1, h2, -⟩ := ih h t n s hs
    exact ⟨h1, h2, rfl⟩
  | noThreads p ih => exact ih h true n (openThreads s).2 hs
  | noNested p ih =>
    have ho : (openNested supported s).2.levels = if true then min k 1 else k := by
      simp only [openNested, OmpState.setNested, Bool.false_eq_true, if_false, if_true]
      split <;> split at hs <;> (try dsimp only) <;> omega
    obtain ⟨h1, h2, h3⟩ := ih h t true (openNested supported s).2 ho
    refine ⟨?_, h2, h3⟩
    simp only [OmpProg.exec, closeNested, OmpState.setNested]
    rw [if_pos rfl] at ho
    have hfst : (openNested supported s).1 = s.nested := rfl
    rw [hfst]
    cases hn : s.nested with
    | true =>
      simp only [if_true]
      simp only [OmpState.nested, decide_eq_true_eq] at hn
      split at hs <;> split <;> (try dsimp only) <;> omega
    | false =>
      simp only [Bool.false_eq_true, if_false]
      simp only [OmpState.nested, decide_eq_false_iff_not] at hn
      split at hs <;> split <;> (try dsimp only) <;> omega

/-- **C169 (levels), partial.**  If nesting is off, or every level the implementation supports is
allowed, the same holds for the number of levels: one in blocks without nesting, and back
afterwards. -/
theorem C169_levels_partial (supported : Nat) (p : OmpProg)
    (h : NoSetLevels p) (s : OmpState) (hs : s.levels ≤ 1 ∨ s.levels = supported) :
    (p.exec supported s).2.1.map (·.levels) =
        (regions p false false).1.map (fun r => if r.2 then min s.levels 1 else s.levels) ∧
      (p.exec supported s).1.levels = s.levels := by
  obtain ⟨h1, h2, -⟩ := exec_levels supported p h false false s.levels hs s rfl
  exact ⟨h2, h1⟩

/-- **C169 (levels) is false in general.**  A program that allowed a number of levels between one and
what the implementation supports has all of them allowed after any block without nesting that does
not set the levels. -/
theorem C169_levels_refuted (supported : Nat) (p : OmpProg)
    (h : NoSetLevels p) (s : OmpState) (hs : 1 < s.levels) (hne : s.levels ≠ supported) :
    ((OmpProg.noNested p).exec supported s).1.levels = supported ∧
      ((OmpProg.noNested p).exec supported s).1.levels ≠ s.levels := by
  have hl : (openNested supported s).2.levels = 1 := by
    simp only [openNested, OmpState.setNested, Bool.false_eq_true, if_false]
    rw [if_pos hs]
  have h1 := (exec_levels supported p h false false 1 (Or.inl (Nat.le_refl 1))
    (openNested supported s).2 hl).1
  have h2 : ((OmpProg.noNested p).exec supported s).1.levels = supported := by
    simp only [OmpProg.exec, closeNested]
    have h3 : (openNested supported s).1 = true := by
      simp only [openNested, OmpState.nested, decide_eq_true_eq]; exact hs
    rw [h3]
    simp only [OmpState.setNested, if_true]
    rw [if_pos (by omega)]
  exact ⟨h2, by rw [h2]; exact fun e => hne e.symm⟩

/-- **C169 (a change inside a block) is false.**  A number of threads that the program sets in a block
without threads is lost at its end. -/
theorem C169_set_refuted (supported n : Nat) (s : OmpState) (h : s.threads ≠ n) :
    ((OmpProg.noThreads (.setThreads n)).exec supported s).1.threads ≠ n := h

/-- **C169 (scopes in another order) is false.**  Two scopes on the heap that are destroyed in the order
they were made leave one thread, for ever. -/
theorem C169_order_refuted (s : OmpState) :
    ∃ r, scopeRun s [.make, .make, .destroy 0, .destroy 1] = .ok r ∧ r.1.threads = 1 ∧
      r.2 = [none, none] := ⟨_, rfl, rfl, rfl⟩

/-- The scopes that are alive, the youngest first, while objects are made and destroyed in the
opposite order: `true` makes one, `false` destroys the youngest. -/
def stackOps : List Bool → List Nat → Nat → List ScopeOp
  | [], _, _ => []
  | true :: bs, alive, next => .make :: stackOps bs (next :: alive) (next + 1)
  | false :: bs, i :: alive, next => .destroy i :: stackOps bs alive next
  | false :: bs, [], next => stackOps bs [] next

/-- The objects alive, the youngest first: the oldest keeps the number of threads of the program, the
others keep one. -/
def ScopeChain (k : Nat) (objs : List (Option Nat)) : List Nat → Prop
  | [] => True
  | i :: rest => objs[i]? = some (some (if rest = [] then k else 1)) ∧ i ∉ rest ∧
      ScopeChain k objs rest

theorem ScopeChain.congr {k : Nat} {objs objs' : List (Option Nat)} {alive : List Nat}
    (h : ScopeChain k objs alive) (he : ∀ i ∈ alive, objs'[i]? = objs[i]?) :
    ScopeChain k objs' alive := by
  induction alive with
  | nil => trivial
  | cons i rest ih =>
    exact ⟨(he i (List.mem_cons_self)).trans h.1, h.2.1,
      ih h.2.2 (fun j hj => he j (List.mem_cons_of_mem _ hj))⟩

theorem ScopeChain.lt {k : Nat} {objs : List (Option Nat)} {alive : List Nat}
    (h : ScopeChain k objs alive) {i : Nat} (hi : i ∈ alive) : i < objs.length := by
  induction alive with
  | nil => cases hi
  | cons j rest ih =>
    rcases List.mem_cons.1 hi with rfl | hi
    · exact (List.getElem?_eq_some_iff.1 h.1).1
    · exact ih h.2.2 hi

/-- How many scopes are alive after a sequence. -/
def scopeDepth : List Bool → Nat → Nat
  | [], d => d
  | true :: bs, d => scopeDepth bs (d + 1)
  | false :: bs, d => scopeDepth bs (d - 1)

theorem scopeDepth_le (bs : List Bool) (d : Nat) : scopeDepth bs d ≤ d + bs.length := by
  induction bs generalizing d with
  | nil => exact Nat.le_refl _
  | cons b bs ih =>
    cases b
    · have := ih (d - 1); simp only [scopeDepth, List.length_cons]; omega
    · have := ih (d + 1); simp only [scopeDepth, List.length_cons]; omega

theorem scopeDepth_append (bs cs : List Bool) (d : Nat) :
    scopeDepth (bs ++ cs) d = scopeDepth cs (scopeDepth bs d) := by
  induction bs generalizing d with
  | nil => rfl
  | cons b bs ih => cases b <;> exact ih _

theorem scopeDepth_false (n d : Nat) : scopeDepth (List.replicate n false) d = d - n := by
  induction n generalizing d with
  | zero => rfl
  | succ n ih => rw [List.replicate_succ, scopeDepth, ih]; omega

theorem stack_run (k : Nat) (bs : List Bool) (alive : List Nat) (σ : OmpState)
    (objs : List (Option Nat)) (hc : ScopeChain k objs alive)
    (hn : ∀ i o, objs[i]? = some o → i ∉ alive → o = none)
    (ht : σ.threads = if alive = [] then k else 1) (hd : scopeDepth bs alive.length = 0) :
    ∃ r, (stackOps bs alive objs.length).foldlM scopeStep (σ, objs) = .ok r ∧
      r.1.threads = k ∧ (∀ o ∈ r.2, o = none) := by
  induction bs generalizing alive σ objs with
  | nil =>
    have : alive = [] := List.length_eq_zero_iff.1 hd
    subst this
    refine ⟨(σ, objs), rfl, by simpa using ht, fun o ho => ?_⟩
    obtain ⟨i, hi⟩ := List.mem_iff_getElem?.1 ho
    exact hn i o hi (by simp)
  | cons b bs ih =>
    cases b with
    | true =>
      have h := ih (objs.length :: alive) (σ.setNumThreads 1) (objs ++ [some σ.threads])
        ⟨by rw [List.getElem?_concat_length, ht], fun hm => Nat.lt_irrefl _ (hc.lt hm),
          hc.congr (fun i hi => List.getElem?_append_left (hc.lt hi))⟩
        (fun i o hi hm => by
          rw [List.mem_cons, not_or] at hm
          have hlt : i < objs.length := by
            have := (List.getElem?_eq_some_iff.1 hi).1
            rw [List.length_append, List.length_singleton] at this
            omega
          rw [List.getElem?_append_left hlt] at hi
          exact hn i o hi hm.2)
        (by simp [OmpState.setNumThreads]) hd
      rw [List.length_append, List.length_singleton] at h
      obtain ⟨r, h1, h2⟩ := h
      refine ⟨r, ?_, h2⟩
      rw [stackOps, List.foldlM_cons]
      exact h1
    | false =>
      cases alive with
      | nil =>
        obtain ⟨r, h1, h2⟩ := ih [] σ objs trivial hn ht hd
        exact ⟨r, by rw [stackOps]; exact h1, h2⟩
      | cons i rest =>
        have h := ih rest (σ.setNumThreads (if rest = [] then k else 1)) (objs.set i none)
          (hc.2.2.congr (fun j hj => by
            rw [List.getElem?_set_ne]
            rintro rfl
            exact hc.2.1 hj))
          (fun j o hj hm => by
            by_cases hij : i = j
            · subst hij
              rw [List.getElem?_set_self (hc.lt (List.mem_cons_self))] at hj
              exact (Option.some.inj hj).symm
            · rw [List.getElem?_set_ne hij] at hj
              exact hn j o hj (by rw [List.mem_cons, not_or]; exact ⟨fun e => hij e.symm, hm⟩))
          rfl (by simpa [scopeDepth] using hd)
        rw [List.length_set] at h
        obtain ⟨r, h1, h2⟩ := h
        refine ⟨r, ?_, h2⟩
        rw [stackOps, List.foldlM_cons]
        have : scopeStep (σ, objs) (.destroy i) =
            .ok (σ.setNumThreads (if rest = [] then k else 1), objs.set i none) := by
          simp only [scopeStep, hc.1, closeThreads]
        rw [this]
        exact h1

/-- **C169 (scopes destroyed in the opposite order), partial.**  If every scope is destroyed while it is
the youngest, and none is left, the number of threads is what it was. -/
theorem C169_order_partial (s : OmpState) (bs : List Bool) :
    ∃ r, scopeRun s (stackOps (bs ++ List.replicate bs.length false) [] 0) = .ok r ∧
      r.1.threads = s.threads ∧ (∀ o ∈ r.2, o = none) := by
  refine stack_run s.threads _ [] s [] trivial (fun i o h => by simp at h) rfl ?_
  rw [scopeDepth_append, scopeDepth_false]
  have := scopeDepth_le bs 0
  simp only [List.length_nil]
  omega

/-! ### Concrete cases -/

/-- A singular value decomposition between two parallel loops, which fails inside another block. -/
example :
    let p : OmpProg := .seq .region (.seq (.attempt (.noNested (.noThreads (.seq .region .throw))))
      .region)
    NoSetThreads p ∧ NoSetLevels p ∧
      p.exec 8 ⟨4, 8⟩ = (⟨4, 8⟩, [⟨4, 8⟩, ⟨1, 1⟩, ⟨4, 8⟩], false) ∧
      p.exec 8 ⟨4, 2⟩ = (⟨4, 8⟩, [⟨4, 2⟩, ⟨1, 1⟩, ⟨4, 8⟩], false) := by
  refine ⟨by simp [NoSetThreads], by simp [NoSetLevels], by decide, by decide⟩

end Einsums.Props
