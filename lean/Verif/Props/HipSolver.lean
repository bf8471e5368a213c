import Mathlib.Tactic.IntervalCases
import Mathlib.Tactic.NormNum
import Verif.Proofs.HipSolver
import Verif.Spec.HipResources
/-
C146, C147: the solvers of the GPU backend (hipsolver.hip) and the resources of its functions.

The hipSOLVER routines are arbitrary functions; each theorem assumes of them what LAPACK documents (`IsSyev`, `IsGesv`), for the
matrices that they are given.
-/
namespace Einsums.Props
open Spec Model Matrix

/-! ### C146: syev, gesv -/

/-- **C146 (partial, syev).** If the allocation of A contains its n columns to their ends, `syev` with eigenvectors leaves in w, in
ascending order, the eigenvalues of the symmetric matrix whose upper triangle (column-major) is in A, and orthonormal eigenvectors in
the columns of A, and changes nothing else.  Missing: the last rows of a larger matrix (refuted below). -/
theorem C146_syev_partial {R : Type} [CommRing R] [LinearOrder R] (syev : SyevFn R) (junk : Nat → R) (n : Nat) (a : List R)
    (aoff lda : Nat) (w : List R) (woff : Nat) (f : Nat → Nat → R) (hn : 0 < n) (hl : n ≤ lda) (oa : n * lda < 2 ^ 31)
    (sa : aoff + n * lda ≤ a.length) (sw : woff + n ≤ w.length) (ha : HostMat a aoff lda n n f)
    (solver : IsSyev n (crop n n f) (syev true n (crop n n f))) :
    ∃ a' w' V e, backendSyev syev junk true n a aoff lda w woff = .ok (a', w') ∧ HostMat a' aoff lda n n V ∧ HostVec w' woff 1 n e ∧
      (mat n n V)ᵀ * mat n n V = 1 ∧
      mat n n (fromUpper f) * mat n n V = mat n n V * diagonal (fun i : Fin n => e i) ∧
      (∀ i j, i ≤ j → j < n → e i ≤ e j) ∧ SameOutsideMat a a' aoff lda n n ∧ SameOutsideVec w w' woff 1 n := by
  obtain ⟨a', w', e1, e2, e3, e4, e5⟩ := backendSyev_ok (syev := syev) (junk := junk) (vectors := true) hn hl (by simpa using oa) sa sw ha
  refine ⟨a', w', _, _, e1, e2, e3, solver.orthonormal, ?_, solver.ascending, e4, e5⟩
  rw [← solver.eigen]
  congr 1
  funext i j
  simp [mat, fromUpper, crop]

/-- **C146 (refuted for the last rows of a larger matrix, syev, gesv).** Both functions copy n columns of A with the leading dimension, the
last one to its end: if that is beyond the allocation, the behaviour is undefined. -/
theorem C146_overread_refuted {R : Type} [Zero R] (syev : SyevFn R) (gesv : GesvRoutine R) (junk : Nat → R) (vectors : Bool)
    (n k : Nat) (a : List R) (aoff lda : Nat) (w : List R) (woff : Nat) (b : List R) (boff ldb : Nat)
    (short : a.length < aoff + n * lda) :
    (backendSyev syev junk vectors n a aoff lda w woff).isUb = true ∧
      (backendGesv gesv n k a aoff lda b boff ldb).isUb = true := by
  constructor
  · unfold backendSyev
    by_cases o : n * lda < 2147483648
    · rw [intMul_ok o]
      simp only [Outcome.ok_bind]
      unfold hostRead
      rw [if_neg (by omega)]
      rfl
    · unfold intMul
      rw [if_neg o]
      rfl
  · unfold backendGesv
    by_cases o : n * lda < 2147483648
    · rw [intMul_ok o]
      simp only [Outcome.ok_bind]
      by_cases o' : n * ldb < 2147483648
      · rw [intMul_ok o']
        simp only [Outcome.ok_bind]
        unfold hostRead
        rw [if_neg (by omega)]
        rfl
      · unfold intMul
        rw [if_neg o']
        rfl
    · unfold intMul
      rw [if_neg o]
      rfl

/-- **C146 (partial, gesv).** For at most n right-hand sides, if the allocations contain n columns of A and n columns of B, `gesv` returns 0
if and only if A is regular, and then B is replaced by the X with A·X = B (column-major); nothing but A and B changes.  Missing: more
right-hand sides, and B without memory for n columns (refuted below). -/
theorem C146_gesv_partial {R : Type} [Field R] (gesv : GesvRoutine R) (n k : Nat) (a : List R) (aoff lda : Nat) (b : List R)
    (boff ldb : Nat) (f g : Nat → Nat → R) (hn : 0 < n) (hk : k ≤ n) (hl : n ≤ lda) (hl' : n ≤ ldb) (oa : n * lda < 2 ^ 31)
    (ob : n * ldb < 2 ^ 31) (sa : aoff + n * lda ≤ a.length) (sb : boff + n * ldb ≤ b.length) (ha : HostMat a aoff lda n n f)
    (hb : HostMat b boff ldb n k g) (solver : IsGesv n k (crop n n f) (crop n k g) (gesv n k (crop n n f) (crop n k g))) :
    ∃ info a' b' x, backendGesv gesv n k a aoff lda b boff ldb = .ok (info, a', b') ∧ (info = 0 ↔ (mat n n f).det ≠ 0) ∧
      HostMat b' boff ldb n k x ∧ ((mat n n f).det ≠ 0 → mat n n f * mat n k x = mat n k g) ∧
      SameOutsideMat a a' aoff lda n n ∧ SameOutsideMat b b' boff ldb n k := by
  obtain ⟨a', b', e1, e2, e3, e4, e5⟩ := backendGesv_ok (gesv := gesv) hn hk hl hl' (by simpa using oa) (by simpa using ob) sa sb ha hb
  obtain ⟨⟨p, hp⟩, hx⟩ := solver
  have hi := lu_info hp
  rw [mat_crop] at hi
  refine ⟨_, a', b', _, e1, hi, e3, fun hd => ?_, e4, e5⟩
  have := hx (hi.2 hd)
  rwa [mat_crop, mat_crop] at this

/-- **C146 (refuted for more than n right-hand sides).** The device memory of B holds n columns: with more right-hand sides the behaviour is
undefined, for all contents. -/
theorem C146_gesv_many_refuted {R : Type} [Zero R] (gesv : GesvRoutine R) (n k : Nat) (a : List R) (aoff lda : Nat) (b : List R)
    (boff ldb : Nat) (hn : 0 < n) (hk : n < k) (hl : n ≤ lda) (hl' : n ≤ ldb) :
    (backendGesv gesv n k a aoff lda b boff ldb).isUb = true := by
  refine isUb_of ?_ fun r h => ?_
  · unfold backendGesv
    exact noErr_bind intMul_ne fun _ => noErr_bind intMul_ne fun _ => noErr_bind hostRead_ne fun _ => noErr_bind hostRead_ne fun _ =>
      noErr_bind (vendorGesv_ne (by omega) (by omega)) fun _ => noErr_bind hostWrite_ne fun _ => noErr_bind hostWrite_ne fun _ => rfl
  · unfold backendGesv at h
    obtain ⟨sa, e1, h⟩ := ok_of_bind h
    obtain ⟨sb, e2, h⟩ := ok_of_bind h
    obtain ⟨ag, e3, h⟩ := ok_of_bind h
    obtain ⟨bg, e4, h⟩ := ok_of_bind h
    obtain ⟨v, e5, h⟩ := ok_of_bind h
    rw [intMul_inv e2] at e4
    have h1 := (hostRead_inv e4).2
    have h2 := (vendorGesv_inv e5).2.2 0 n hn hk
    omega

/-- **C146 (refuted for fewer than n right-hand sides at the end of an allocation).** `gesv` copies n columns of B whatever the number of
right-hand sides: if B has k < n columns and nothing follows them, the behaviour is undefined. -/
theorem C146_gesv_few_refuted {R : Type} [Zero R] (gesv : GesvRoutine R) (n k : Nat) (a : List R) (aoff lda : Nat) (b : List R)
    (boff ldb : Nat) (hn : 0 < n) (hk : k < n) (hl : n ≤ lda) (hl' : n ≤ ldb) (exact : b.length = boff + k * ldb) :
    (backendGesv gesv n k a aoff lda b boff ldb).isUb = true := by
  refine isUb_of ?_ fun r h => ?_
  · unfold backendGesv
    exact noErr_bind intMul_ne fun _ => noErr_bind intMul_ne fun _ => noErr_bind hostRead_ne fun _ => noErr_bind hostRead_ne fun _ =>
      noErr_bind (vendorGesv_ne (by omega) (by omega)) fun _ => noErr_bind hostWrite_ne fun _ => noErr_bind hostWrite_ne fun _ => rfl
  · unfold backendGesv at h
    obtain ⟨sa, e1, h⟩ := ok_of_bind h
    obtain ⟨sb, e2, h⟩ := ok_of_bind h
    obtain ⟨ag, e3, h⟩ := ok_of_bind h
    obtain ⟨bg, e4, h⟩ := ok_of_bind h
    rw [intMul_inv e2] at e4
    have h1 := (hostRead_inv e4).1
    have h2 : (k + 1) * ldb ≤ n * ldb := Nat.mul_le_mul_right _ hk
    rw [Nat.succ_mul] at h2
    omega

/-! ### C147: resources -/

/-- **C147 (partial).** If a function other than `syev`, `heev` and `getrf` returns normally, it has released all device memory,
registrations and heap memory that it acquired.  Missing: those functions, and exceptions (refuted below). -/
theorem C147_release_partial (c : BackendCall) (h1 : c.isSyev = false) (h2 : c.isGetrf = false) (fails : Nat → Bool) (s : HipState)
    (ok : (runHip fails 0 c.calls s).1 = true) : (runHip fails 0 c.calls s).2 = s := by
  have h := runHip_true ok
  obtain ⟨d, r, p⟩ := s
  cases c with
  | gemm b => cases b <;> simp [BackendCall.calls, gemmCalls, runAll, HipOp.step] at h <;> exact h.symm
  | gemv b => cases b <;> simp [BackendCall.calls, gemvCalls, runAll, HipOp.step] at h <;> exact h.symm
  | scal => simp [BackendCall.calls, scalCalls, runAll, HipOp.step] at h; exact h.symm
  | dot => simp [BackendCall.calls, dotCalls, runAll, HipOp.step] at h; exact h.symm
  | axpy => simp [BackendCall.calls, axpyCalls, runAll, HipOp.step] at h; exact h.symm
  | ger => simp [BackendCall.calls, gerCalls, runAll, HipOp.step] at h; exact h.symm
  | syev i w => simp [BackendCall.isSyev] at h1
  | getrf v q s i => simp [BackendCall.isGetrf] at h2
  | gesv v i =>
    by_cases hi : i ∈ r
    · cases v <;> simp [BackendCall.calls, gesvCalls, runAll, HipOp.step, hi] at h
    · cases v <;> simp [BackendCall.calls, gesvCalls, runAll, HipOp.step, hi] at h <;> exact h.symm

/-- **C147 (refuted for syev, heev).** Every call that returns normally leaves two device blocks allocated. -/
theorem C147_syev_refuted (info : Nat) (work : Option Nat) (fails : Nat → Bool) (s : HipState)
    (ok : (runHip fails 0 (BackendCall.syev info work).calls s).1 = true) :
    (runHip fails 0 (BackendCall.syev info work).calls s).2.device = s.device + 2 := by
  have h := runHip_true ok
  obtain ⟨d, r, p⟩ := s
  cases work with
  | none =>
    by_cases hi : info ∈ r
    · simp [BackendCall.calls, syevCalls, runAll, HipOp.step, hi] at h
    · simp [BackendCall.calls, syevCalls, runAll, HipOp.step, hi] at h
      exact (congrArg HipState.device h).symm
  | some w =>
    by_cases hw : w ∈ r
    · simp [BackendCall.calls, syevCalls, runAll, HipOp.step, hw] at h
    · by_cases hi : info = w ∨ info ∈ r
      · simp [BackendCall.calls, syevCalls, runAll, HipOp.step, hw, hi] at h
      · have h3 : w ∈ info :: w :: r := by simp
        have h4 : info ∈ (info :: w :: r).erase w := by
          rw [List.mem_erase_of_ne (by tauto)]
          simp
        simp [BackendCall.calls, syevCalls, runAll, HipOp.step, hw, hi, h4] at h
        exact (congrArg HipState.device h).symm

/-- **C147 (device memory over a history of calls).** After any sequence of calls that return normally, two device blocks remain allocated
for each call of `syev` or `heev`. -/
theorem C147_history (cs : List BackendCall) (s s' : HipState) (ng : ∀ c ∈ cs, c.isGetrf = false) (h : Program cs s s') :
    s'.device = s.device + 2 * (cs.filter BackendCall.isSyev).length := by
  induction h with
  | nil s => rfl
  | cons c cs fails s s' ok rest ih =>
    have ih := ih fun c hc => ng c (by simp [hc])
    by_cases hc : c.isSyev = true
    · cases c with
      | syev i w =>
        rw [C147_syev_refuted i w fails s ok] at ih
        rw [List.filter_cons_of_pos hc, List.length_cons]
        omega
      | _ => simp [BackendCall.isSyev] at hc
    · rw [C147_release_partial c (by simpa using hc) (ng c (by simp)) fails s ok] at ih
      rw [List.filter_cons_of_neg hc]
      exact ih

/-- **C147 (refuted for exceptions).** Whatever call of `gemm`, `gemv`, `scal`, `dot`, `axpy` or `ger` is the first that fails, except the very
first one, the function ends with an exception and device memory stays allocated. -/
theorem C147_exception_refuted (c : BackendCall) (h1 : c ∈ [.gemm true, .gemm false, .gemv true, .gemv false, .scal, .dot, .axpy, .ger])
    (fails : Nat → Bool) (i : Nat) (hi0 : 0 < i) (hi : i < c.calls.length) (before : ∀ j, j < i → fails j = false)
    (at_i : fails i = true) (s : HipState) :
    (runHip fails 0 c.calls s).1 = false ∧ s.device < (runHip fails 0 c.calls s).2.device := by
  obtain ⟨d, r, p⟩ := s
  have key : (runAll (c.calls.take i) ⟨d, r, p⟩).any (fun s' => decide (d < s'.device)) = true →
      (runHip fails 0 c.calls ⟨d, r, p⟩).1 = false ∧ d < (runHip fails 0 c.calls ⟨d, r, p⟩).2.device := by
    intro h2
    cases h3 : runAll (c.calls.take i) ⟨d, r, p⟩ with
    | none => simp [h3] at h2
    | some s' =>
      rw [runHip_first (i := i) (by simpa using before) (by simpa using at_i) hi h3]
      exact ⟨rfl, by simpa [h3] using h2⟩
  simp only [List.mem_cons, List.not_mem_nil, or_false] at h1
  rcases h1 with rfl | rfl | rfl | rfl | rfl | rfl | rfl | rfl
  all_goals
    refine key ?_
    simp only [BackendCall.calls, gemmCalls, gemvCalls, scalCalls, dotCalls, axpyCalls, gerCalls, if_true, if_false, Bool.false_eq_true,
      List.cons_append, List.nil_append, List.length_cons, List.length_nil, Nat.zero_add, Nat.reduceAdd] at hi ⊢
    interval_cases i <;> simp [runAll, HipOp.step] <;> omega

/-- **C147 (refuted for exceptions of the solvers).** Whatever HIP call of `syev`, `heev` or `gesv` is the first that fails, the function ends
with an exception, and at least the integer on the heap is lost (`new` and `delete` are the first and the last step).  `info` is a new
address, `work` one that is not registered. -/
theorem C147_solver_exception_refuted (c : BackendCall) (info work : Nat) (h1 : c ∈ [.syev info none, .syev info (some work),
      .gesv true info, .gesv false info])
    (fails : Nat → Bool) (i : Nat) (hi0 : 0 < i) (hi : i + 1 < c.calls.length) (before : ∀ j, j < i → fails j = false)
    (at_i : fails i = true) (s : HipState) (f1 : info ∉ s.registered) (f2 : work ∉ s.registered) (f3 : info ≠ work) :
    (runHip fails 0 c.calls s).1 = false ∧ s.heap < (runHip fails 0 c.calls s).2.heap := by
  obtain ⟨d, r, p⟩ := s
  simp only at f1 f2
  have key : (runAll (c.calls.take i) ⟨d, r, p⟩).any (fun s' => decide (p < s'.heap)) = true →
      (runHip fails 0 c.calls ⟨d, r, p⟩).1 = false ∧ p < (runHip fails 0 c.calls ⟨d, r, p⟩).2.heap := by
    intro h2
    cases h3 : runAll (c.calls.take i) ⟨d, r, p⟩ with
    | none => simp [h3] at h2
    | some s' =>
      rw [runHip_first (i := i) (by simpa using before) (by simpa using at_i) (by omega) h3]
      exact ⟨rfl, by simpa [h3] using h2⟩
  simp only [List.mem_cons, List.not_mem_nil, or_false] at h1
  rcases h1 with rfl | rfl | rfl | rfl
  all_goals
    refine key ?_
    simp only [BackendCall.calls, syevCalls, gesvCalls, if_true, if_false, Bool.false_eq_true,
      List.cons_append, List.nil_append, List.length_cons, List.length_nil, Nat.zero_add, Nat.reduceAdd] at hi ⊢
    replace hi := Nat.lt_sub_of_add_lt hi
    simp only [Nat.reduceSub] at hi
    interval_cases i <;> simp [runAll, HipOp.step, f1, f2, f3]

/-- **C147 (refuted for getrf).** `getrf` never returns normally: it registers the address of its local variable `info` and unregisters the
address in that variable, which is not registered (`info` is a new address). -/
theorem C147_getrf_refuted (nvidia ipiv : Bool) (slot info : Nat) (fails : Nat → Bool) (s : HipState) (f1 : info ∉ s.registered)
    (f2 : info ≠ slot) : (runHip fails 0 (BackendCall.getrf nvidia ipiv slot info).calls s).1 = false := by
  by_contra hc
  have h := runHip_true (by simpa using hc)
  obtain ⟨d, r, p⟩ := s
  simp only at f1
  by_cases hs : slot ∈ r
  · cases nvidia <;> cases ipiv <;> simp [BackendCall.calls, getrfCalls, runAll, HipOp.step, hs] at h
  · cases nvidia <;> cases ipiv <;> simp [BackendCall.calls, getrfCalls, runAll, HipOp.step, hs, f1, f2] at h

/-- **C147 (refuted for getrf, afterwards).** If no HIP call is made to fail, `getrf` leaves the address of its local variable registered; a
second call with its variable at the same address fails when it registers that, and leaves its device memory allocated. -/
theorem C147_getrf_again_refuted (nvidia ipiv : Bool) (slot info info' : Nat) (fails : Nat → Bool) (hf : ∀ i, fails i = false)
    (s : HipState) (f0 : slot ∉ s.registered) (f1 : info ∉ s.registered) (f2 : info ≠ slot) :
    ∃ s1 s2, runHip fails 0 (BackendCall.getrf nvidia ipiv slot info).calls s = (false, s1) ∧ slot ∈ s1.registered ∧
      s1.device = s.device ∧
      runHip fails 0 (BackendCall.getrf nvidia ipiv slot info').calls s1 = (false, s2) ∧
      s2.device = s1.device + (if ipiv then 2 else 1) := by
  obtain ⟨d, r, p⟩ := s
  simp only at f0 f1
  refine ⟨⟨d, slot :: r, p + 1⟩, ⟨d + (if ipiv then 2 else 1), slot :: r, p + 2⟩, ?_, by simp, rfl, ?_, rfl⟩
  · cases nvidia <;> cases ipiv <;> simp [BackendCall.calls, getrfCalls, runHip, HipOp.step, hf, f0, f1, f2]
  · cases nvidia <;> cases ipiv <;> simp [BackendCall.calls, getrfCalls, runHip, HipOp.step, hf]

/-! ### The hypotheses are met -/

/-- A program: a product, two diagonalisations, a solution: four blocks stay allocated. -/
example : ∃ s', Program [.gemm true, .syev 7 (some 8), .gesv false 7, .syev 9 none] ⟨0, [], 0⟩ s' ∧ s'.device = 4 ∧ s'.registered = [] :=
  ⟨⟨4, [], 0⟩, .cons _ _ (fun _ => false) _ _ (by decide) (.cons _ _ (fun _ => false) _ _ (by decide)
    (.cons _ _ (fun _ => false) _ _ (by decide) (.cons _ _ (fun _ => false) _ _ (by decide) (.nil _)))), rfl, rfl⟩

/-- The fourth allocation of `gemm` fails. -/
example : runHip (fun i => i == 3) 0 (BackendCall.gemm true).calls ⟨0, [], 0⟩ = (false, ⟨3, [], 0⟩) := by decide

/-- A system of one equation: 2·x = 6, solved by a routine that meets the contract. -/
example : ∃ x : List ℚ, backendGesv (fun _ _ A B => (0, A, fun i j => B i j / A 0 0)) 1 1 [2] 0 1 [6] 0 1 = .ok (0, [2], x) ∧
    x = [3] := by
  refine ⟨_, rfl, ?_⟩
  norm_num [crop]

/-- A diagonal matrix in the upper left corner of storage with leading dimension 3. -/
example : ∃ a w : List Int, backendSyev (fun _ _ A => (fun i => A i i, fun i j => if i = j then 1 else 0)) (fun _ => 99) true 2
    [4, 0, 9, 0, 5, 9] 0 3 [0, 0, 7] 0 = .ok (a, w) ∧ a = [1, 0, 9, 0, 1, 9] ∧ w = [4, 5, 7] := ⟨_, _, rfl, by decide, by decide⟩

end Einsums.Props
