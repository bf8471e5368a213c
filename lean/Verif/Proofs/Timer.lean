import Verif.Spec.Timer
import Mathlib.Data.List.Basic
import Mathlib.Data.List.Infix
import Mathlib.Data.List.Lookmap
import Mathlib.Tactic.Ring
import Mathlib.Algebra.BigOperators.Group.List.Basic
/-
The timer tree refines the log of completed calls.
-/
namespace Einsums
open Spec Model

/-- The names of the children of `p`, in order of the first push. -/
def childNames (pushed : List TimerPath) (p : TimerPath) : List TimerName :=
  pushed.filterMap fun q => match q with
    | [] => none
    | n :: r => if r = p then some n else none

/-- The timer `nd` has the path `p`. -/
structure NodeRep (l : TimerLog) (p : TimerPath) (nd : TimerDetail) : Prop where
  parentNil : p = [] → nd.parent = none
  parentCons : ∀ n q, p = n :: q → ∃ j, nd.parent = some j ∧ ([] :: l.pushed)[j]? = some q
  children : ∀ n j, nd.children.lookup n = some j ↔ ([] :: l.pushed)[j]? = some (n :: p)
  order : nd.order = childNames l.pushed p
  name : ∀ n q, p = n :: q → nd.name = n
  calls : nd.totalCalls = l.calls p + if p = [] then 1 else 0
  time : nd.totalTime = l.time p

/-- The tree of timers holds what the log says. -/
structure TreeRep (st : TimerState) (l : TimerLog) : Prop where
  root : st.root = some 0
  len : st.nodes.length = l.pushed.length + 1
  nodup : ([] :: l.pushed).Nodup
  closed : ∀ (i : Nat) n p, ([] :: l.pushed)[i]? = some (n :: p) → ∃ j < i, ([] :: l.pushed)[j]? = some p
  known : ∀ c ∈ l.completed, c.1 ∈ [] :: l.pushed
  node : ∀ (i : Nat) p, ([] :: l.pushed)[i]? = some p → ∃ nd, st.nodes[i]? = some nd ∧ NodeRep l p nd

/-- The state holds what the log says. -/
structure TimerRep (st : TimerState) (l : TimerLog) : Prop where
  tree : TreeRep st l
  closedAt : l.openTimers = none → st.current = none
  openAt : ∀ fs, l.openTimers = some fs → ∃ i, st.current = some i ∧ ([] :: l.pushed)[i]? = some (fs.map (·.1))
  starts : ∀ fs, l.openTimers = some fs → ∀ n s r, (n, s) :: r <:+ fs →
    ∃ (i : Nat) (nd : TimerDetail), ([] :: l.pushed)[i]? = some (n :: r.map (·.1)) ∧ st.nodes[i]? = some nd ∧ nd.startTime = s
  rootStart : ∀ nd, st.nodes[0]? = some nd → nd.startTime = 0

theorem index_unique {α : Type} {l : List α} (h : l.Nodup) {i j : Nat} {a : α} (hi : l[i]? = some a) (hj : l[j]? = some a) :
    i = j := by
  rw [List.getElem?_eq_some_iff] at hi hj
  obtain ⟨hi, ei⟩ := hi
  obtain ⟨hj, ej⟩ := hj
  exact (List.getElem_inj h).1 (ei.trans ej.symm)

/-- Changing the starting time of a timer. -/
theorem treeRep_start {st : TimerState} {l : TimerLog} (h : TreeRep st l) {j : Nat} {nd : TimerDetail}
    (hj : st.nodes[j]? = some nd) (now : Int) (c : Option Nat) :
    TreeRep { st with nodes := st.nodes.set j { nd with startTime := now }, current := c } l := by
  refine ⟨h.root, by simp [h.len], h.nodup, h.closed, h.known, ?_⟩
  intro i p hi
  obtain ⟨nd', h1, h2⟩ := h.node i p hi
  by_cases c : i = j
  · subst c
    rw [hj] at h1
    cases h1
    refine ⟨{ nd with startTime := now }, ?_, h2.parentNil, h2.parentCons, h2.children, h2.order, h2.name, h2.calls, h2.time⟩
    have hlt : i < st.nodes.length := (List.getElem?_eq_some_iff.1 hj).1
    simp [hlt]
  · refine ⟨nd', ?_, h2⟩
    rw [← h1]
    exact List.getElem?_set_ne (fun e => c e.symm)

theorem log_calls_pushed (l : TimerLog) (o : Option (List (TimerName × Int))) (ps : List TimerPath) (p : TimerPath) :
    (TimerLog.mk o ps l.completed).calls p = l.calls p ∧ (TimerLog.mk o ps l.completed).time p = l.time p := ⟨rfl, rfl⟩

/-- The log's open timers do not matter for the tree. -/
theorem treeRep_open {st : TimerState} {l : TimerLog} (h : TreeRep st l) (o : Option (List (TimerName × Int)))
    (c : Option Nat) : TreeRep { st with current := c } { l with openTimers := o } := by
  refine ⟨h.root, h.len, h.nodup, h.closed, h.known, ?_⟩
  intro i p hi
  obtain ⟨nd', h1, h2⟩ := h.node i p hi
  exact ⟨nd', h1, h2.parentNil, h2.parentCons, h2.children, h2.order, h2.name, h2.calls, h2.time⟩

theorem lookup_snoc {n m : TimerName} {k : Nat} (cs : List (TimerName × Nat)) :
    (cs ++ [(n, k)]).lookup m = (cs.lookup m).or (if m = n then some k else none) := by
  rw [List.lookup_append]
  congr 1
  simp only [List.lookup]
  by_cases c : m = n
  · simp [c]
  · rw [if_neg c, beq_eq_false_iff_ne.2 c]

/-- Making a child. -/
theorem treeRep_child {st : TimerState} {l : TimerLog} (h : TreeRep st l) {i : Nat} {p : TimerPath} {cur : TimerDetail}
    (hi : ([] :: l.pushed)[i]? = some p) (hcur : st.nodes[i]? = some cur) (n : TimerName) (c : Option Nat)
    (hno : ∀ j : Nat, ([] :: l.pushed)[j]? ≠ some (n :: p)) :
    TreeRep { st with
        nodes := st.nodes.set i { cur with children := cur.children ++ [(n, st.nodes.length)], order := cur.order ++ [n] } ++
          [⟨n, 0, 0, some i, [], [], 0⟩]
        current := c }
      { l with pushed := l.pushed ++ [n :: p] } := by
  have hilt : i < st.nodes.length := (List.getElem?_eq_some_iff.1 hcur).1
  have hnew : n :: p ∉ [] :: l.pushed := by
    intro hm
    obtain ⟨j, hj⟩ := List.mem_iff_getElem?.1 hm
    exact hno j hj
  have hpaths : ∀ (j : Nat) q, ([] :: (l.pushed ++ [n :: p]))[j]? = some q ↔
      ([] :: l.pushed)[j]? = some q ∨ (j = st.nodes.length ∧ q = n :: p) := by
    intro j q
    rw [← List.cons_append, List.getElem?_append, h.len]
    by_cases c : j < ([] :: l.pushed).length
    · rw [if_pos c]
      simp at c
      constructor
      · exact Or.inl
      · rintro (h | ⟨h, _⟩)
        · exact h
        · omega
    · rw [if_neg c]
      have c' : ([] :: l.pushed)[j]? = none := by simpa using c
      rw [c']
      simp at c
      simp only [List.length_cons]
      constructor
      · intro hq
        right
        rw [List.getElem?_singleton] at hq
        split at hq
        · exact ⟨by omega, (Option.some.inj hq).symm⟩
        · cases hq
      · rintro (h | ⟨rfl, rfl⟩)
        · cases h
        · simp
  have hcn : ∀ q, childNames (l.pushed ++ [n :: p]) q = childNames l.pushed q ++ if p = q then [n] else [] := by
    intro q
    unfold childNames
    rw [List.filterMap_append]
    congr 1
    by_cases c : p = q
    · simp [c]
    · simp [c]
  refine ⟨h.root, by simp [h.len], ?_, ?_, ?_, ?_⟩
  · rw [← List.cons_append, List.nodup_append]
    refine ⟨h.nodup, by simp, ?_⟩
    intro a ha b hb
    simp at hb
    subst hb
    rintro rfl
    exact hnew ha
  · intro j m q hj
    rw [hpaths] at hj
    rcases hj with hj | ⟨rfl, hj⟩
    · obtain ⟨k, hk, hk'⟩ := h.closed j m q hj
      exact ⟨k, hk, (hpaths _ _).2 (Or.inl hk')⟩
    · cases hj
      exact ⟨i, hilt, (hpaths _ _).2 (Or.inl hi)⟩
  · intro c hc
    have := h.known c hc
    simp only [List.mem_cons, List.mem_append] at this ⊢
    tauto
  · intro j q hj
    rw [hpaths] at hj
    rcases hj with hj | ⟨rfl, rfl⟩
    · obtain ⟨nd, h1, h2⟩ := h.node j q hj
      have hjlt : j < st.nodes.length := (List.getElem?_eq_some_iff.1 h1).1
      by_cases c : j = i
      · subst c
        rw [hcur] at h1; cases h1
        rw [hi] at hj; cases hj
        refine ⟨{ cur with children := cur.children ++ [(n, st.nodes.length)], order := cur.order ++ [n] },
          by rw [List.getElem?_append_left (by simpa using hjlt), List.getElem?_set_self hjlt], h2.parentNil, ?_, ?_, ?_,
          h2.name, h2.calls, h2.time⟩
        · intro m r hr
          obtain ⟨k, hk, hk'⟩ := h2.parentCons m r hr
          exact ⟨k, hk, (hpaths _ _).2 (Or.inl hk')⟩
        · intro m k
          simp only
          rw [hpaths, lookup_snoc]
          by_cases cm : m = n
          · subst cm
            have : cur.children.lookup m = none := by
              cases hl : cur.children.lookup m with
              | none => rfl
              | some k => exact absurd ((h2.children m k).1 hl) (hno k)
            rw [this]
            simp only [if_true, Option.none_or, Option.some.injEq]
            constructor
            · rintro rfl; exact Or.inr (by simp)
            · rintro (hk | ⟨hk, _⟩)
              · exact absurd hk (hno k)
              · exact hk.symm
          · simp only [cm, if_false, Option.or_none]
            rw [h2.children]
            constructor
            · exact Or.inl
            · rintro (hk | ⟨_, hk⟩)
              · exact hk
              · exact absurd (List.cons.inj hk).1 cm
        · simp only
          rw [hcn, h2.order]; simp
      · refine ⟨nd, by rw [List.getElem?_append_left (by simpa using hjlt), List.getElem?_set_ne (fun e => c e.symm), h1],
          h2.parentNil, ?_, ?_, ?_, h2.name, h2.calls, h2.time⟩
        · intro m r hr
          obtain ⟨k, hk, hk'⟩ := h2.parentCons m r hr
          exact ⟨k, hk, (hpaths _ _).2 (Or.inl hk')⟩
        · intro m k
          rw [hpaths, h2.children]
          constructor
          · exact Or.inl
          · rintro (hk | ⟨_, hk⟩)
            · exact hk
            · cases hk
              exact absurd (index_unique h.nodup hj hi) c
        · simp only
          rw [hcn, h2.order, if_neg, List.append_nil]
          rintro rfl
          exact c (index_unique h.nodup hj hi)
    · have hnone : l.completed.filter (fun c => decide (c.1 = n :: p)) = [] := by
        rw [List.filter_eq_nil_iff]
        intro c hc
        have := h.known c hc
        simp only [decide_eq_true_eq]
        intro e
        rw [e] at this
        exact hnew this
      refine ⟨⟨n, 0, 0, some i, [], [], 0⟩, by simp, by simp, ?_, ?_, ?_, ?_, ?_, ?_⟩
      · rintro m r hr
        cases hr
        exact ⟨i, rfl, (hpaths _ _).2 (Or.inl hi)⟩
      · intro m k
        simp only [List.lookup_nil]
        constructor
        · intro hx; cases hx
        · intro hk
          rw [hpaths] at hk
          rcases hk with hk | ⟨_, hk⟩
          · obtain ⟨j, _, hj⟩ := h.closed k m _ hk
            exact absurd hj (hno j)
          · exact absurd (congrArg List.length hk) (by simp)
      · simp only
        rw [hcn, if_neg (by intro e; exact absurd (congrArg List.length e) (by simp))]
        have : childNames l.pushed (n :: p) = [] := by
          unfold childNames
          rw [List.filterMap_eq_nil_iff]
          intro q hq
          cases q with
          | nil => rfl
          | cons m r =>
            simp only
            rw [if_neg]
            rintro rfl
            obtain ⟨k, hk⟩ := List.mem_iff_getElem?.1 hq
            obtain ⟨j, _, hj⟩ := h.closed (k + 1) m (n :: p) (by simpa using hk)
            exact hno j hj
        rw [this]; rfl
      · intro m r hr; cases hr; rfl
      · simp only [TimerLog.calls, hnone]; simp
      · simp only [TimerLog.time, hnone]; simp

theorem log_complete_calls (l : TimerLog) (o : Option (List (TimerName × Int))) (p q : TimerPath) (d : Int) :
    (TimerLog.mk o l.pushed (l.completed ++ [(p, d)])).calls q = l.calls q + (if p = q then 1 else 0) ∧
    (TimerLog.mk o l.pushed (l.completed ++ [(p, d)])).time q = l.time q + (if p = q then d else 0) := by
  unfold TimerLog.calls TimerLog.time
  simp only [List.filter_append]
  by_cases c : p = q <;> simp [c]

/-- Accounting for a timer. -/
theorem treeRep_leave {st : TimerState} {l : TimerLog} (h : TreeRep st l) {i : Nat} {p : TimerPath} {nd : TimerDetail}
    (hi : ([] :: l.pushed)[i]? = some p) (hnd : st.nodes[i]? = some nd) (d : Int) (o : Option (List (TimerName × Int))) :
    TreeRep (st.leave i nd d) ⟨o, l.pushed, l.completed ++ [(p, d)]⟩ := by
  have hilt : i < st.nodes.length := (List.getElem?_eq_some_iff.1 hnd).1
  refine ⟨h.root, by simp [TimerState.leave, h.len], h.nodup, h.closed, ?_, ?_⟩
  · intro c hc
    simp only [List.mem_append, List.mem_singleton] at hc
    rcases hc with hc | rfl
    · exact h.known c hc
    · exact List.mem_of_getElem? hi
  · intro j q hj
    obtain ⟨nd', h1, h2⟩ := h.node j q hj
    obtain ⟨e1, e2⟩ := log_complete_calls l o p q d
    by_cases c : j = i
    · subst c
      rw [hnd] at h1; cases h1
      have hpq : p = q := by
        have := hi.symm.trans hj
        exact Option.some.inj this
      refine ⟨{ nd with totalTime := nd.totalTime + d, totalCalls := nd.totalCalls + 1 }, ?_, h2.parentNil, h2.parentCons,
        h2.children, h2.order, h2.name, ?_, ?_⟩
      · simp [TimerState.leave, hilt]
      · rw [e1, if_pos hpq]; simp only [h2.calls]; omega
      · rw [e2, if_pos hpq]; simp only [h2.time]
    · have hpq : p ≠ q := by
        rintro rfl
        exact c (index_unique h.nodup hj hi)
      refine ⟨nd', ?_, h2.parentNil, h2.parentCons,
        h2.children, h2.order, h2.name, ?_, ?_⟩
      · rw [← h1]
        exact List.getElem?_set_ne (fun e => c e.symm)
      · rw [e1, if_neg hpq, h2.calls]; rfl
      · rw [e2, if_neg hpq, h2.time]; simp

theorem deref_ok {st : TimerState} {i : Nat} {nd : TimerDetail} (h : st.nodes[i]? = some nd) : st.deref i = .ok nd := by
  unfold TimerState.deref; rw [h]

theorem timerRep_flags {st st' : TimerState} {l : TimerLog} (h : TimerRep st l) (h1 : st'.nodes = st.nodes)
    (h2 : st'.current = st.current) (h3 : st'.root = st.root) : TimerRep st' l := by
  obtain ⟨⟨t1, t2, t3, t4, t5, t6⟩, a, b, c, d⟩ := h
  exact ⟨⟨by rw [h3, t1], by rw [h1, t2], t3, t4, t5, by rw [h1]; exact t6⟩, by rw [h2]; exact a, by rw [h2]; exact b,
    by rw [h1]; exact c, by rw [h1]; exact d⟩

theorem timerRep_leave {st : TimerState} {l : TimerLog} (h : TimerRep st l) (el : Int → Int)
    {i : Nat} (hc : st.current = some i) :
    ∃ nd, st.nodes[i]? = some nd ∧ TimerRep (st.leave i nd (el nd.startTime)) (l.complete el) := by
  cases ho : l.openTimers with
  | none => rw [h.closedAt ho] at hc; cases hc
  | some fs =>
    obtain ⟨i', hi', hp⟩ := h.openAt fs ho
    rw [hc] at hi'; cases hi'
    obtain ⟨nd, h1, h2⟩ := h.tree.node i _ hp
    refine ⟨nd, h1, ?_⟩
    unfold TimerLog.complete
    rw [ho]
    cases fs with
    | nil =>
      simp only [List.map_nil] at hp
      have h0 : i = 0 := index_unique h.tree.nodup hp (by simp)
      subst h0
      have hs := h.rootStart nd h1
      simp only
      rw [hs]
      refine ⟨treeRep_leave h.tree hp h1 _ _, ?_, by simp, by simp, ?_⟩
      · intro _; simp only [TimerState.leave]; exact h2.parentNil rfl
      · intro nd' hnd'
        have hilt : 0 < st.nodes.length := (List.getElem?_eq_some_iff.1 h1).1
        simp only [TimerState.leave, List.getElem?_set_self hilt, Option.some.injEq] at hnd'
        rw [← hnd']; exact hs
    | cons f fs =>
      obtain ⟨n, s⟩ := f
      obtain ⟨i', nd', e1, e2, e3⟩ := h.starts _ ho n s fs List.suffix_rfl
      have : i' = i := index_unique h.tree.nodup e1 hp
      subst this
      rw [h1] at e2; cases e2
      simp only
      rw [e3]
      have hp' : ([] :: l.pushed)[i']? = some (n :: fs.map (·.1)) := hp
      refine ⟨treeRep_leave h.tree hp' h1 _ _, by simp, ?_, ?_, ?_⟩
      · intro fs' hfs'
        simp only [Option.some.injEq] at hfs'
        subst hfs'
        obtain ⟨j, hj, hj'⟩ := h2.parentCons n (fs.map (·.1)) rfl
        exact ⟨j, hj, hj'⟩
      · intro fs' hfs' m s' r hr
        simp only [Option.some.injEq] at hfs'
        subst hfs'
        obtain ⟨k, ndk, k1, k2, k3⟩ := h.starts _ ho m s' r (hr.trans (List.suffix_cons _ _))
        have hne : i' ≠ k := by
          rintro rfl
          rw [hp'] at k1
          have := congrArg List.length (Option.some.inj k1)
          have hl := hr.length_le
          simp at this hl
          omega
        exact ⟨k, ndk, k1, by simp only [TimerState.leave]; rw [List.getElem?_set_ne hne, k2], k3⟩
      · intro nd0 h0
        have hne : i' ≠ 0 := by
          rintro rfl
          simp at hp'
        simp only [TimerState.leave] at h0
        rw [List.getElem?_set_ne hne] at h0
        exact h.rootStart nd0 h0

theorem complete_none {l : TimerLog} (h : l.openTimers = none) (el : Int → Int) : l.complete el = l := by
  unfold TimerLog.complete; rw [h]

theorem current_none {st : TimerState} {l : TimerLog} (h : TimerRep st l) : st.current = none ↔ l.openTimers = none := by
  constructor
  · intro hc
    cases ho : l.openTimers with
    | none => rfl
    | some fs =>
      obtain ⟨i, hi, _⟩ := h.openAt fs ho
      rw [hc] at hi; cases hi
  · exact h.closedAt

/-- Setting the starting time of the timer just entered. -/
theorem timerRep_enter {st : TimerState} {l : TimerLog} {fs : List (TimerName × Int)} (h : TimerRep st l)
    (st1 : TimerState) (l1 : TimerLog) (n : TimerName) (now : Int) (j : Nat) (ndj : TimerDetail)
    (ho : l.openTimers = some fs) (ht : TreeRep st1 l1)
    (hext : ∀ (k : Nat) q, ([] :: l.pushed)[k]? = some q → ([] :: l1.pushed)[k]? = some q)
    (hstart : ∀ (k : Nat) nd, st.nodes[k]? = some nd → ∃ nd', st1.nodes[k]? = some nd' ∧ nd'.startTime = nd.startTime)
    (hj : ([] :: l1.pushed)[j]? = some (n :: fs.map (·.1))) (hnj : st1.nodes[j]? = some ndj) :
    TimerRep { st1 with nodes := st1.nodes.set j { ndj with startTime := now }, current := some j }
      { l1 with openTimers := some ((n, now) :: fs) } := by
  have hjlt : j < st1.nodes.length := (List.getElem?_eq_some_iff.1 hnj).1
  have hne0 : j ≠ 0 := by rintro rfl; simp at hj
  refine ⟨?_, by simp, ?_, ?_, ?_⟩
  · exact treeRep_open (treeRep_start ht hnj now (some j)) _ _
  · intro fs' hfs'
    simp only [Option.some.injEq] at hfs'
    subst hfs'
    exact ⟨j, rfl, hj⟩
  · intro fs' hfs' m s r hr
    simp only [Option.some.injEq] at hfs'
    subst hfs'
    rw [List.suffix_cons_iff] at hr
    rcases hr with hr | hr
    · cases hr
      exact ⟨j, { ndj with startTime := now }, hj, by simp [hjlt], rfl⟩
    · obtain ⟨k, ndk, k1, k2, k3⟩ := h.starts _ ho m s r hr
      obtain ⟨nd', e1, e2⟩ := hstart k ndk k2
      have hne : j ≠ k := by
        rintro rfl
        rw [hext _ _ k1] at hj
        have := congrArg List.length (Option.some.inj hj)
        have hl := hr.length_le
        simp at this hl
        omega
      exact ⟨k, nd', hext _ _ k1, by simp only; rw [List.getElem?_set_ne hne, e1], by rw [e2, k3]⟩
  · intro nd0 h0
    simp only at h0
    rw [List.getElem?_set_ne hne0] at h0
    obtain ⟨nd, e, _⟩ := h.tree.node 0 [] (by simp)
    obtain ⟨nd', e1, e2⟩ := hstart 0 nd e
    rw [e1] at h0; cases h0
    rw [e2]; exact h.rootStart nd e

theorem timerRep_step {st : TimerState} {l : TimerLog} (h : TimerRep st l) (op : TimerOp) :
    ∃ st', st.step op = .ok st' ∧ TimerRep st' (l.step op) := by
  cases op with
  | push thread par name now =>
    simp only [TimerState.step, TimerState.push, TimerLog.step]
    by_cases ht : thread = 0
    · rw [if_pos ht, if_pos ht]
      cases hc : st.current with
      | none =>
        simp only [(current_none h).1 hc]
        split
        · exact ⟨_, rfl, h⟩
        · exact ⟨_, rfl, timerRep_flags h rfl hc.symm rfl⟩
      | some i =>
        obtain ⟨fs, ho⟩ : ∃ fs, l.openTimers = some fs := by
          cases ho : l.openTimers with
          | none => rw [h.closedAt ho] at hc; cases hc
          | some fs => exact ⟨fs, rfl⟩
        simp only [ho]
        generalize (if par = true then name ++ TimerState.masterSuffix else name) = n
        obtain ⟨i', hi', hp⟩ := h.openAt fs ho
        rw [hc] at hi'; cases hi'
        obtain ⟨cur, h1, h2⟩ := h.tree.node i _ hp
        have hilt : i < st.nodes.length := (List.getElem?_eq_some_iff.1 h1).1
        rw [deref_ok h1, Outcome.ok_bind]
        unfold TimerState.child
        cases hl : cur.children.lookup n with
        | some j =>
          have hj := (h2.children n j).1 hl
          obtain ⟨ndj, hnj, _⟩ := h.tree.node j _ hj
          have hmem : n :: fs.map (·.1) ∈ l.pushed := by
            have := List.mem_of_getElem? hj
            simpa using this
          simp only
          rw [if_pos hmem, deref_ok (by exact hnj), Outcome.ok_bind]
          exact ⟨_, rfl, timerRep_enter h st l n now j ndj ho h.tree (fun _ _ hk => hk) (fun _ nd hk => ⟨nd, hk, rfl⟩) hj hnj⟩
        | none =>
          have hno : ∀ j : Nat, ([] :: l.pushed)[j]? ≠ some (n :: fs.map (·.1)) := by
            intro j hj
            have := (h2.children n j).2 hj
            rw [hl] at this; cases this
          have hmem : n :: fs.map (·.1) ∉ l.pushed := by
            intro hm
            obtain ⟨k, hk⟩ := List.mem_iff_getElem?.1 hm
            exact hno (k + 1) (by simpa using hk)
          have ht := treeRep_child h.tree hp h1 n (some st.nodes.length) hno
          simp only
          rw [if_neg hmem, deref_ok (nd := ⟨n, 0, 0, some i, [], [], 0⟩) (by simp), Outcome.ok_bind]
          refine ⟨_, rfl, timerRep_enter h _ _ n now st.nodes.length ⟨n, 0, 0, some i, [], [], 0⟩ ho ht ?_ ?_ ?_ (by simp)⟩
          · intro k q hk
            simp only
            rw [← List.cons_append, List.getElem?_append_left (List.getElem?_eq_some_iff.1 hk).1, hk]
          · intro k nd hk
            have hklt := (List.getElem?_eq_some_iff.1 hk).1
            simp only
            rw [List.getElem?_append_left (by simpa using hklt)]
            by_cases c : i = k
            · subst c
              rw [List.getElem?_set_self hilt]
              rw [h1] at hk; cases hk
              exact ⟨_, rfl, rfl⟩
            · rw [List.getElem?_set_ne c, hk]
              exact ⟨nd, rfl, rfl⟩
          · simp only
            rw [h.tree.len]
            simp
    · rw [if_neg ht, if_neg ht]; exact ⟨_, rfl, h⟩
  | pop thread now =>
    simp only [TimerState.step, TimerState.pop, TimerLog.step]
    by_cases ht : thread = 0
    · rw [if_pos ht, if_pos ht]
      cases hc : st.current with
      | none =>
        rw [complete_none ((current_none h).1 hc)]
        simp only
        split
        · exact ⟨_, rfl, h⟩
        · exact ⟨_, rfl, timerRep_flags h rfl hc.symm rfl⟩
      | some i =>
        obtain ⟨nd, h1, h2⟩ := timerRep_leave h (fun s => now - s) hc
        simp only
        rw [deref_ok h1, Outcome.ok_bind]
        exact ⟨_, rfl, h2⟩
    · rw [if_neg ht, if_neg ht]; exact ⟨_, rfl, h⟩
  | popElapsed thread el =>
    simp only [TimerState.step, TimerState.popElapsed, TimerLog.step]
    by_cases ht : thread = 0
    · rw [if_pos ht, if_pos ht]
      cases hc : st.current with
      | none =>
        rw [complete_none ((current_none h).1 hc)]
        simp only
        split
        · exact ⟨_, rfl, h⟩
        · exact ⟨_, rfl, timerRep_flags h rfl hc.symm rfl⟩
      | some i =>
        obtain ⟨nd, h1, h2⟩ := timerRep_leave h (fun _ => el) hc
        simp only
        rw [deref_ok h1, Outcome.ok_bind]
        exact ⟨_, rfl, h2⟩
    · rw [if_neg ht, if_neg ht]; exact ⟨_, rfl, h⟩

theorem timerRep_run (ops : List TimerOp) : ∀ {st : TimerState} {l : TimerLog}, TimerRep st l →
    ∃ st', st.run ops = .ok st' ∧ TimerRep st' (l.run ops) := by
  induction ops with
  | nil => intro st l h; exact ⟨st, rfl, h⟩
  | cons op ops ih =>
    intro st l h
    obtain ⟨st1, e1, h1⟩ := timerRep_step h op
    obtain ⟨st2, e2, h2⟩ := ih h1
    exact ⟨st2, by unfold TimerState.run at *; rw [List.foldlM_cons, e1, Outcome.ok_bind, e2], h2⟩

theorem timerRep_start (st : TimerState) :
    TimerRep { st with nodes := [⟨TimerState.rootName, 0, 1, none, [], [], 0⟩], current := some 0, root := some 0 } .start := by
  have hp : ∀ (i : Nat) q, (([] : TimerPath) :: TimerLog.start.pushed)[i]? = some q ↔ i = 0 ∧ q = [] := by
    intro i q
    simp only [TimerLog.start]
    rw [List.getElem?_singleton]
    constructor
    · intro h; split at h
      · exact ⟨by assumption, (Option.some.inj h).symm⟩
      · cases h
    · rintro ⟨rfl, rfl⟩; rfl
  refine ⟨⟨rfl, rfl, by simp [TimerLog.start], ?_, by simp [TimerLog.start], ?_⟩, by simp [TimerLog.start], ?_, ?_, ?_⟩
  · intro i n p h
    rw [hp] at h
    cases h.2
  · intro i p h
    rw [hp] at h
    obtain ⟨rfl, rfl⟩ := h
    refine ⟨_, rfl, fun _ => rfl, by simp, ?_, rfl, by simp, rfl, rfl⟩
    intro n j
    rw [hp]
    simp
  · intro fs h
    simp only [TimerLog.start, Option.some.injEq] at h
    subst h
    exact ⟨0, rfl, rfl⟩
  · intro fs h n s r hr
    simp only [TimerLog.start, Option.some.injEq] at h
    subst h
    simp at hr
  · intro nd h
    simp at h
    rw [← h]

/-- The calls of the loop of `initialize`. -/
def overheadOps (thread : Nat) (par : Bool) (clk : Nat → Int) (n : Nat) : List TimerOp :=
  (List.range n).flatMap fun k => [.push thread par TimerState.overheadName (clk (2 * k)), .pop thread (clk (2 * k + 1))]

theorem run_append (st : TimerState) (a b : List TimerOp) : st.run (a ++ b) = st.run a >>= fun st => st.run b := by
  unfold TimerState.run; rw [List.foldlM_append]

theorem overhead_eq (thread : Nat) (par : Bool) (clk : Nat → Int) (n : Nat) (st : TimerState) :
    TimerState.overhead thread par clk n st = st.run (overheadOps thread par clk n) := by
  induction n with
  | zero => rfl
  | succ n ih =>
    unfold overheadOps at *
    rw [List.range_succ, List.flatMap_append, run_append, ← ih, TimerState.overhead]
    congr 1
    funext st
    simp only [List.flatMap_cons, List.flatMap_nil, List.append_nil, TimerState.run, List.foldlM_cons, List.foldlM_nil,
      TimerState.step]
    congr 1
    funext st
    cases st.pop thread (clk (2 * n + 1)) <;> rfl

/-- A timer is found under its path and under no other. -/
theorem find_iff {st : TimerState} {l : TimerLog} (h : TreeRep st l) (p : TimerPath) (i : Nat) :
    st.find p = some i ↔ ([] :: l.pushed)[i]? = some p := by
  induction p generalizing i with
  | nil =>
    rw [TimerState.find, h.root]
    constructor
    · rintro h; cases h; rfl
    · intro hi
      rw [index_unique h.nodup hi (by simp : ([] :: l.pushed)[0]? = some [])]
  | cons n p ih =>
    rw [TimerState.find]
    constructor
    · intro hf
      rw [Option.bind_eq_some_iff] at hf
      obtain ⟨j, hj, hf⟩ := hf
      rw [Option.bind_eq_some_iff] at hf
      obtain ⟨nd, hnd, hf⟩ := hf
      obtain ⟨nd', e, r⟩ := h.node j p ((ih j).1 hj)
      rw [hnd] at e; cases e
      exact (r.children n i).1 hf
    · intro hi
      obtain ⟨j, _, hj⟩ := h.closed i n p hi
      obtain ⟨nd, e, r⟩ := h.node j p hj
      rw [(ih j).2 hj, Option.bind_some, e, Option.bind_some]
      exact (r.children n i).2 hi

theorem callsOf_eq {st : TimerState} {l : TimerLog} (h : TreeRep st l) (p : TimerPath) (hp : p ≠ []) :
    st.callsOf p = l.calls p ∧ st.timeOf p = l.time p := by
  unfold TimerState.callsOf TimerState.timeOf
  cases hf : st.find p with
  | some i =>
    obtain ⟨nd, e, r⟩ := h.node i p ((find_iff h p i).1 hf)
    simp only [Option.bind_some, e, Option.elim_some]
    rw [r.calls, r.time, if_neg hp]
    exact ⟨rfl, rfl⟩
  | none =>
    have hno : ∀ c ∈ l.completed, ¬ c.1 = p := by
      rintro c hc rfl
      obtain ⟨i, hi⟩ := List.mem_iff_getElem?.1 (h.known c hc)
      rw [(find_iff h c.1 i).2 hi] at hf
      cases hf
    have : l.completed.filter (fun c => decide (c.1 = p)) = [] := by
      rw [List.filter_eq_nil_iff]
      intro c hc
      simpa using hno c hc
    simp [TimerLog.calls, TimerLog.time, this]

/-! ### The report -/

/-- The paths below `p`, each before those below it, siblings in order of the first push. -/
def below (pushed : List TimerPath) : Nat → TimerPath → List TimerPath
  | 0, _ => []
  | d + 1, p => (childNames pushed p).flatMap fun n => (n :: p) :: below pushed d (n :: p)

theorem mem_childNames {pushed : List TimerPath} {p : TimerPath} {n : TimerName} :
    n ∈ childNames pushed p ↔ n :: p ∈ pushed := by
  unfold childNames
  rw [List.mem_filterMap]
  constructor
  · rintro ⟨q, hq, e⟩
    cases q with
    | nil => simp at e
    | cons m r =>
      simp only at e
      split at e
      · cases e; rename_i h; rw [← h]; exact hq
      · cases e
  · intro h
    exact ⟨_, h, by simp⟩

theorem mem_below {pushed : List TimerPath} (d : Nat) : ∀ {p q : TimerPath}, q ∈ below pushed d p → p <:+ q ∧ p ≠ q ∧ q ∈ pushed := by
  induction d with
  | zero => intro p q h; simp [below] at h
  | succ d ih =>
    intro p q h
    rw [below, List.mem_flatMap] at h
    obtain ⟨n, hn, h⟩ := h
    rw [mem_childNames] at hn
    rw [List.mem_cons] at h
    rcases h with rfl | h
    · exact ⟨List.suffix_cons _ _, (fun e => absurd (congrArg List.length e) (by simp)), hn⟩
    · obtain ⟨h1, h2, h3⟩ := ih h
      refine ⟨(List.suffix_cons _ _).trans h1, ?_, h3⟩
      rintro rfl
      have := h1.length_le
      simp at this

theorem below_complete {pushed : List TimerPath}
    (closed : ∀ n p, n :: p ∈ pushed → p = [] ∨ p ∈ pushed) (q : TimerPath) : ∀ (d : Nat) (p : TimerPath),
    p <:+ q → p ≠ q → q ∈ pushed → q.length ≤ p.length + d → q ∈ below pushed d p := by
  have up : ∀ (k : Nat) (r : TimerPath), r <:+ q → r.length + k = q.length → q ∈ pushed → r = [] ∨ r ∈ pushed := by
    intro k
    induction k with
    | zero =>
      intro r hr hk hq
      have : r = q := hr.eq_of_length (by omega)
      subst this; exact Or.inr hq
    | succ k ih =>
      intro r hr hk hq
      obtain ⟨t, rfl⟩ := hr
      have ht : t ≠ [] := by rintro rfl; simp at hk
      have e : t = t.dropLast ++ [t.getLast ht] := (List.dropLast_append_getLast ht).symm
      have hr' : t.getLast ht :: r <:+ t ++ r := ⟨t.dropLast, by
        conv_rhs => rw [e]
        simp⟩
      rcases ih _ hr' (by simp at hk ⊢; omega) hq with h | h
      · cases h
      · exact closed _ _ h
  intro d
  induction d with
  | zero =>
    intro p h1 h2 _ h4
    exact absurd (h1.eq_of_length (by have := h1.length_le; omega)) h2
  | succ d ih =>
    intro p h1 h2 h3 h4
    obtain ⟨t, ht⟩ := h1
    have htne : t ≠ [] := by rintro rfl; exact h2 (by simpa using ht)
    have e : t = t.dropLast ++ [t.getLast htne] := (List.dropLast_append_getLast htne).symm
    have hr' : t.getLast htne :: p <:+ q := ⟨t.dropLast, by
      rw [← ht]
      conv_rhs => rw [e]
      simp⟩
    have hm : t.getLast htne :: p ∈ pushed := by
      have hle := hr'.length_le
      rcases up (q.length - (t.getLast htne :: p).length) _ hr' (by omega) h3 with h | h
      · cases h
      · exact h
    rw [below, List.mem_flatMap]
    refine ⟨t.getLast htne, mem_childNames.2 hm, ?_⟩
    rw [List.mem_cons]
    by_cases c : q = t.getLast htne :: p
    · exact Or.inl c
    · exact Or.inr (ih _ hr' (fun e => c e.symm) h3 (by simp; omega))

theorem childNames_pairwise {pushed : List TimerPath} (hn : pushed.Nodup) (p : TimerPath) :
    (childNames pushed p).Pairwise fun m n => m ≠ n ∧ ∃ i j : Nat, i < j ∧ pushed[i]? = some (m :: p) ∧ pushed[j]? = some (n :: p) := by
  induction pushed with
  | nil => simp [childNames]
  | cons q ps ih =>
    rw [List.nodup_cons] at hn
    have ih' := ih hn.2
    have lift : (childNames ps p).Pairwise fun m n => m ≠ n ∧ ∃ i j : Nat, i < j ∧ (q :: ps)[i]? = some (m :: p) ∧ (q :: ps)[j]? = some (n :: p) := by
      refine ih'.imp ?_
      rintro m n ⟨hne, i, j, hij, h1, h2⟩
      exact ⟨hne, i + 1, j + 1, by omega, by simpa using h1, by simpa using h2⟩
    cases q with
    | nil => simpa [childNames] using lift
    | cons m r =>
      by_cases c : r = p
      · have : childNames ((m :: r) :: ps) p = m :: childNames ps p := by simp [childNames, c]
        rw [this, List.pairwise_cons]
        refine ⟨?_, lift⟩
        intro n hn'
        have hm := mem_childNames.1 hn'
        obtain ⟨j, hj⟩ := List.mem_iff_getElem?.1 hm
        refine ⟨?_, 0, j + 1, by omega, by simp [c], by simpa using hj⟩
        rintro rfl
        rw [c] at hn
        exact hn.1 hm
      · have : childNames ((m :: r) :: ps) p = childNames ps p := by simp [childNames, c]
        rw [this]; exact lift

theorem below_pairwise {pushed : List TimerPath} (hn : pushed.Nodup) (d : Nat) : ∀ p,
    (below pushed d p).Pairwise (ReportedBefore pushed) := by
  induction d with
  | zero => intro p; simp [below]
  | succ d ih =>
    intro p
    rw [below, List.flatMap_def, List.pairwise_flatten]
    refine ⟨?_, ?_⟩
    · intro l hl
      rw [List.mem_map] at hl
      obtain ⟨n, _, rfl⟩ := hl
      rw [List.pairwise_cons]
      exact ⟨fun q hq => Or.inl ⟨(mem_below d hq).1, (mem_below d hq).2.1⟩, ih _⟩
    · rw [List.pairwise_map]
      refine (childNames_pairwise hn p).imp ?_
      rintro m n ⟨hne, i, j, hij, h1, h2⟩ x hx y hy
      refine Or.inr ⟨p, m, n, ?_, ?_, hne, i, j, hij, h1, h2⟩
      · rw [List.mem_cons] at hx
        rcases hx with rfl | hx
        · exact List.suffix_rfl
        · exact (mem_below d hx).1
      · rw [List.mem_cons] at hy
        rcases hy with rfl | hy
        · exact List.suffix_rfl
        · exact (mem_below d hy).1

/-- `ReportedBefore` is not reflexive, so the report names each timer once. -/
theorem reportedBefore_irrefl {pushed : List TimerPath} (p : TimerPath) : ¬ ReportedBefore pushed p p := by
  rintro (⟨_, h⟩ | ⟨a, m, n, h1, h2, hne, _⟩)
  · exact h rfl
  · have : m :: a = n :: a := by
      obtain ⟨t1, e1⟩ := h1
      obtain ⟨t2, e2⟩ := h2
      have hl : t1.length = t2.length := by
        have := congrArg List.length (e1.trans e2.symm)
        simp at this; exact this
      exact (List.append_inj (e1.trans e2.symm) hl).2
    exact hne (List.cons.inj this).1

theorem path_length {st : TimerState} {l : TimerLog} (h : TreeRep st l) : ∀ (p : TimerPath) (i : Nat),
    ([] :: l.pushed)[i]? = some p → p.length ≤ i := by
  intro p
  induction p with
  | nil => intro i _; simp
  | cons n p ih =>
    intro i hi
    obtain ⟨j, hj, hj'⟩ := h.closed i n p hi
    have := ih j hj'
    simp; omega

end Einsums
