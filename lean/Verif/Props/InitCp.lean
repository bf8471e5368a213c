import Verif.Proofs.InitCp
import Verif.Props.Als
import Verif.Props.WeightedAls
/-
C155 the starting factors of the CP decompositions.
-/
namespace Einsums.Props
open Spec Model Matrix

section
variable {R G : Type} [CommRing R] [LinearOrder R] [BEq R] [LawfulBEq R] [Div R]

/-- LAPACK diagonalises, for every mode, the unfolding times its transpose. -/
def UnfoldingSyevs (syev : SyevFn R) (dims : List Nat) (T : List Nat → R) : Prop :=
  ∀ (m : Nat) d, dims[m]? = some d →
    ∀ g, mat d d g = mat d d (gram (numel (dims.eraseIdx m)) (unfolding dims T m)) → IsSyev d g (syev true d g)

/-- The starting factors: for every mode, columns made of eigenvectors `V m` with eigenvalues `w m`, and random numbers. -/
def StartFactors (sqrt : R → R) (big : R → Bool) (draw : G → R × G) (seed : G) (dims : List Nat) (rank : Nat) (w : Nat → Nat → R)
    (V : Nat → Nat → Nat → R) : Nat → Nat → Nat → R :=
  fun m => startFactor (fun s => if big (sqrt s) then sqrt s else 1) (drawn draw seed) m (dims.getD m 0) rank (w m) (V m)

/-- **C155 (partial).** For every tensor of at least two non-empty modes and every rank, given that LAPACK diagonalises the unfoldings times
their transposes: `initialize_cp` of the unfoldings returns one factor per mode, of dimensions `dims[m]`×`rank`, whatever the order of the
loops and the content of fresh memory.  Its columns are the orthonormal eigenvectors of the `rank` largest eigenvalues, in ascending order,
those of the first mode scaled by the square roots of the eigenvalues, unless these are tiny; or, when the rank is larger than the
dimension, all the eigenvectors and then random numbers.  Missing: more threads than one with a rank larger than a dimension,
`C155_race_refuted`. -/
theorem C155_initialize_cp_partial (syev : SyevFn R) (sqrt : R → R) (big : R → Bool) (draw : G → R × G) (seed : G) (z z' : Nat → R)
    (check useHptt : Bool) (threads : Nat) (t : Strided R) (T : List Nat → R) (hT : t.Represents T) (h2 : 2 ≤ t.dims.length)
    (hp : ∀ d ∈ t.dims, d ≠ 0) (rank : Nat) (ht : threads = 1 ∨ ∀ d ∈ t.dims, rank ≤ d)
    (sched : Nat → List (List Nat × List Nat × Nat))
    (hs : ∀ n, n < t.dims.length → (sched n).Perm (unfoldIterations (unfoldRanges n t).1 (unfoldRanges n t).2))
    (ssched asched : Nat → List (List Nat)) (hss : ∀ (m : Nat) d, t.dims[m]? = some d → (ssched m).Perm (box [d, d]))
    (has : ∀ (m : Nat) d, t.dims[m]? = some d → (asched m).Perm (box [d, d])) (lapack : UnfoldingSyevs syev t.dims T) :
    ∃ us fs w V, unfoldAll z' t sched = .ok us ∧
      initializeCp syev sqrt big draw seed z check useHptt threads ssched asched t.dims.length us rank = .ok fs ∧
      (∀ (m : Nat) d, t.dims[m]? = some d → GramEigen d (numel (t.dims.eraseIdx m)) (unfolding t.dims T m) (w m) (V m)) ∧
      FactorsOk t.dims rank fs (StartFactors sqrt big draw seed t.dims rank w V) := by
  obtain ⟨us, u1, u2⟩ := unfoldAll_ok z' h2 hT hs
  have hU := foldsHold_of_unfolded u2
  have key : ∀ m, m < t.dims.length → ∃ w V x, cpFactor syev sqrt big draw seed z check useHptt threads ssched asched us rank m = .ok x ∧
      ∀ d, t.dims[m]? = some d → GramEigen d (numel (t.dims.eraseIdx m)) (unfolding t.dims T m) w V ∧ x.IsTensor ∧ x.dims = [d, rank] ∧
      x.Represents fun i => startFactor (fun s => if big (sqrt s) then sqrt s else 1) (drawn draw seed) m d rank w V
        (i.getD 0 0) (i.getD 1 0) := by
    intro m hm
    have e := List.getElem?_eq_getElem hm
    obtain ⟨f, f1, f2, f3⟩ := hU m _ e
    obtain ⟨x, w, V, x1, x2, x3, x4, x5⟩ := cpFactor_ok syev sqrt big draw seed z check useHptt threads (rank := rank)
      (hp _ (List.getElem_mem hm)) (numel_ne_zero.2 fun d hd => hp d (List.mem_of_mem_eraseIdx hd)) f1 f2 f3
      (ht.imp_right fun h => h _ (List.getElem_mem hm)) (lapack m _ e) (hss m _ e) (has m _ e)
    refine ⟨w, V, x, x1, ?_⟩
    intro d hd
    rw [e] at hd
    obtain rfl := Option.some.inj hd
    exact ⟨x2, x3, x4, x5⟩
  choose! w V key using key
  obtain ⟨l, l1, l2, l3⟩ := collect_ok _ _ t.dims.length key
  refine ⟨us, l, w, V, u1, l1, ?_, l2, ?_⟩
  · intro m d hd
    obtain ⟨x, _, x2⟩ := l3 m (List.getElem?_eq_some_iff.1 hd).1
    exact (x2 d hd).1
  · intro m f d hf hd
    obtain ⟨x, x1, x2⟩ := l3 m (List.getElem?_eq_some_iff.1 hd).1
    rw [hf] at x1
    obtain rfl := Option.some.inj x1
    simp only [StartFactors, getElem?_getD hd]
    exact (x2 d hd).2

omit [LinearOrder R] [LawfulBEq R] in
/-- **C155 (refuted for several threads).** When the rank is larger than a dimension and the program runs two threads or more, the call never
returns: filling the random columns is a data race. -/
theorem C155_race_refuted (syev : SyevFn R) (sqrt : R → R) (big : R → Bool) (draw : G → R × G) (seed : G) (z : Nat → R)
    (check useHptt : Bool) (threads : Nat) (ht : 2 ≤ threads) (ssched asched : Nat → List (List Nat)) (trank : Nat) (folds : List (Strided R))
    (m : Nat) (hm : m < trank) (f : Strided R) (hf : folds[m]? = some f) (d k : Nat) (hd : f.dims = [d, k]) (h0 : d ≠ 0) (rank : Nat)
    (hr : d < rank) :
    ¬ ∃ fs, initializeCp syev sqrt big draw seed z check useHptt threads ssched asched trank folds rank = .ok fs := by
  rintro ⟨fs, h⟩
  obtain ⟨a, b, h1⟩ := step_of_foldlM h m (List.mem_range.2 hm)
  obtain ⟨x, h2, -⟩ := ok_of_bind h1
  have e0 : f.dim 0 = d := by simp [Strided.dim, hd]
  unfold cpFactor at h2
  simp only [factorAt, hf, Outcome.ok_bind, e0, if_pos hr] at h2
  obtain ⟨U, -, h3⟩ := ok_of_bind h2
  obtain ⟨N, h4, -⟩ := ok_of_bind h3
  have := (C149_race_refuted draw seed z threads ht [d, rank] (by simp) (by simp [numel]; omega)).1
  rw [h4] at this
  simp [Outcome.isUb] at this

end

section
variable {S G : Type} [CommRing S] [LinearOrder S] [IsStrictOrderedRing S] [BEq S] [LawfulBEq S] [Div S]

/-- **C155 (`parafac`, partial).** Under the same conditions, for every LAPACK solver that meets its contract and whatever the convergence
test decides, `parafac` returns factors of the right shapes, and if LAPACK reported success in every solve, their sum of squared differences
from the tensor is at most that of the eigenvectors it starts from. -/
theorem C155_parafac_partial (syev : SyevFn S) (sqrt : S → S) (big : S → Bool) (draw : G → S × G) (seed : G) (solve : GesvFn S)
    (hsolve : GesvContract solve) (z : Nat → S)
    (check useHptt : Bool) (threads : Nat) (t : Strided S) (T : List Nat → S) (hT : t.Represents T) (h2 : 2 ≤ t.dims.length)
    (hp : ∀ d ∈ t.dims, d ≠ 0) (rank : Nat) (hr : rank ≠ 0) (ht : threads = 1 ∨ ∀ d ∈ t.dims, rank ≤ d) (nIterMax : Int)
    (stop : Nat → Bool) (sched : Nat → List (List Nat × List Nat × Nat))
    (hs : ∀ n, n < t.dims.length → (sched n).Perm (unfoldIterations (unfoldRanges n t).1 (unfoldRanges n t).2))
    (ssched asched : Nat → List (List Nat)) (hss : ∀ (m : Nat) d, t.dims[m]? = some d → (ssched m).Perm (box [d, d]))
    (has : ∀ (m : Nat) d, t.dims[m]? = some d → (asched m).Perm (box [d, d])) (lapack : UnfoldingSyevs syev t.dims T) :
    ∃ fs ok F' w V, parafacFromGuess syev sqrt big draw seed solve z check useHptt threads ssched asched t rank nIterMax sched stop
        = .ok (fs, ok) ∧ FactorsOk t.dims rank fs F' ∧
      (∀ (m : Nat) d, t.dims[m]? = some d → GramEigen d (numel (t.dims.eraseIdx m)) (unfolding t.dims T m) (w m) (V m)) ∧
      (ok = true → cpError t.dims rank T F' ≤ cpError t.dims rank T (StartFactors sqrt big draw seed t.dims rank w V)) := by
  obtain ⟨us, fs, w, V, e1, e2, e3, e4⟩ := C155_initialize_cp_partial syev sqrt big draw seed z z check useHptt threads t T hT h2 hp rank ht
    sched hs ssched asched hss has lapack
  obtain ⟨us', u1, u2⟩ := unfoldAll_ok z h2 hT hs
  rw [e1] at u1
  obtain rfl : us = us' := by injection u1
  obtain ⟨st, F', a1, a2, a3⟩ := alsLoop_ok hsolve z check hp hr h2 u2 stop nIterMax.toNat 0 (st := (fs, true)) e4
  refine ⟨st.1, st.2, F', w, V, ?_, a2, e3, fun h => (a3 h).2⟩
  unfold parafacFromGuess
  rw [e1]
  simp only [Outcome.ok_bind, e2]
  exact a1

/-- **C155 (`weighted_parafac`, partial).** Likewise for `weighted_parafac`, which starts from the same factors, with the weighted squared
error. -/
theorem C155_weighted_parafac_partial (syev : SyevFn S) (sqrt : S → S) (big : S → Bool) (draw : G → S × G) (seed : G) (solve : GesvFn S)
    (hsolve : GesvContract solve) (z : Nat → S)
    (check useHptt : Bool) (threads : Nat) (t : Strided S) (T : List Nat → S) (hT : t.Represents T) (h2 : 2 ≤ t.dims.length)
    (hp : ∀ d ∈ t.dims, d ≠ 0) (c : Operand S) (g : Nat → S) (hc : c.t.dims = [t.dims.headD 0])
    (hg : c.t.Represents fun i => g (i.headD 0)) (rank : Nat) (hr : rank ≠ 0) (ht : threads = 1 ∨ ∀ d ∈ t.dims, rank ≤ d) (nIterMax : Int)
    (stop : Nat → Bool) (sched sched' : Nat → List (List Nat × List Nat × Nat))
    (hs : ∀ n, n < t.dims.length → (sched n).Perm (unfoldIterations (unfoldRanges n t).1 (unfoldRanges n t).2))
    (hs' : ∀ n (u : Strided S), u.dims = t.dims → n < t.dims.length →
      (sched' n).Perm (unfoldIterations (unfoldRanges n u).1 (unfoldRanges n u).2))
    (tsched wsched : List (List Nat)) (hts : tsched.Perm (box t.dims)) (hws : wsched.Perm (box [t.dims.headD 0, rank]))
    (ssched asched : Nat → List (List Nat)) (hss : ∀ (m : Nat) d, t.dims[m]? = some d → (ssched m).Perm (box [d, d]))
    (has : ∀ (m : Nat) d, t.dims[m]? = some d → (asched m).Perm (box [d, d])) (lapack : UnfoldingSyevs syev t.dims T) :
    ∃ us start fs ok F' w V, unfoldAll z t sched = .ok us ∧
      initializeCp syev sqrt big draw seed z check useHptt threads ssched asched t.dims.length us rank = .ok start ∧
      weightedParafac solve z check t c rank nIterMax start sched sched' tsched wsched stop = .ok (fs, ok) ∧ FactorsOk t.dims rank fs F' ∧
      (∀ (m : Nat) d, t.dims[m]? = some d → GramEigen d (numel (t.dims.eraseIdx m)) (unfolding t.dims T m) (w m) (V m)) ∧
      (ok = true → weightedError t.dims rank g T F' ≤ weightedError t.dims rank g T (StartFactors sqrt big draw seed t.dims rank w V)) := by
  obtain ⟨us, fs, w, V, e1, e2, e3, e4⟩ := C155_initialize_cp_partial syev sqrt big draw seed z z check useHptt threads t T hT h2 hp rank ht
    sched hs ssched asched hss has lapack
  obtain ⟨r, ok, F', a1, a2, a3⟩ := C152_weighted_parafac_monotone solve hsolve z check t T hT hp h2 c g hc hg rank hr nIterMax fs _ e4
    sched sched' hs hs' tsched wsched hts hws stop
  exact ⟨us, fs, r, ok, F', w, V, e1, e2, a1, a2, e3, a3⟩

end

/-! The matrix diag(1, 2). -/

def initEx : Strided Int := ⟨[1, 0, 0, 2], 0, [2, 2], [2, 1]⟩

def initOut : (Nat → Int) × (Nat → Nat → Int) := (fun k => if k = 0 then 1 else 4, fun i j => if i = j then 1 else 0)

def initSyev : SyevFn Int := fun _ _ _ => initOut

def initSqrt (x : Int) : Int := if x = 4 then 2 else x

def initDraw (k : Nat) : Int × Nat := (k, k + 1)

def initSched (n : Nat) : List (List Nat × List Nat × Nat) := unfoldIterations (unfoldRanges n initEx).1 (unfoldRanges n initEx).2

def initT (i : List Nat) : Int := if i = [0, 0] then 1 else if i = [1, 1] then 2 else 0

theorem initEx_represents : initEx.Represents initT := by
  intro i hi
  have : ∀ i ∈ box [2, 2], initEx.read (toIdx i) = .ok (initT i) := by decide
  exact this i (mem_box.2 hi)

theorem initSyevs : UnfoldingSyevs initSyev [2, 2] initT := by
  have key : ∀ m, m < 2 → ∀ g : Nat → Nat → Int, mat 2 2 g = mat 2 2 (gram (numel ([2, 2].eraseIdx m)) (unfolding [2, 2] initT m)) →
      IsSyev 2 g (initSyev true 2 g) := by
    intro m hm g hg
    have hg' : mat 2 2 g = mat 2 2 (fun i j => if i = j then (if i = 0 then 1 else 4) else 0) := by
      rw [hg]
      have : m = 0 ∨ m = 1 := by omega
      rcases this with rfl | rfl <;> (ext i j; fin_cases i <;> fin_cases j <;> decide)
    have e : ∀ i j : Fin 2, g i j = if i.1 = j.1 then (if i.1 = 0 then 1 else 4) else 0 := fun i j => congrFun (congrFun hg' i) j
    change IsSyev 2 g initOut
    refine ⟨by decide, ?_, ?_⟩
    · have h : mat 2 2 (fromUpper g) = mat 2 2 (fun i j => if i = j then (if i = 0 then 1 else 4) else 0) := by
        ext i j
        have h00 := e 0 0; have h01 := e 0 1; have h11 := e 1 1
        fin_cases i <;> fin_cases j <;> simp_all [mat, fromUpper]
      rw [h]; decide
    · intro i j hij hj
      have : i = j ∨ (i = 0 ∧ j = 1) := by omega
      rcases this with rfl | ⟨rfl, rfl⟩
      · exact Int.le_refl _
      · decide
  intro m d hd
  have hm : m < 2 := (List.getElem?_eq_some_iff.1 hd).1
  obtain rfl : d = 2 := by
    have : m = 0 ∨ m = 1 := by omega
    rcases this with rfl | rfl <;> simpa using hd.symm
  exact key m hm

-- The hypotheses are met with rank 1, which keeps the larger eigenvalue, and with rank 3, which pads.
example (rank : Nat) : ∃ us fs w V, unfoldAll (fun _ => 7) initEx initSched = .ok us ∧
    initializeCp initSyev initSqrt (fun x => x ≠ 0) initDraw 10 (fun _ => 7) true false 1 (fun _ => box [2, 2]) (fun _ => box [2, 2]) 2 us rank
      = .ok fs ∧
    (∀ (m : Nat) d, [2, 2][m]? = some d → GramEigen d (numel ([2, 2].eraseIdx m)) (unfolding [2, 2] initT m) (w m) (V m)) ∧
    FactorsOk [2, 2] rank fs (StartFactors initSqrt (fun x => x ≠ 0) initDraw 10 [2, 2] rank w V) :=
  C155_initialize_cp_partial initSyev initSqrt (fun x => x ≠ 0) initDraw 10 (fun _ => 7) (fun _ => 7) true false 1 initEx initT
    initEx_represents (by decide) (by decide) rank (.inl rfl) initSched (fun _ _ => List.Perm.refl _) _ _
    (by
      intro m d hd
      have hm : m < 2 := (List.getElem?_eq_some_iff.1 hd).1
      obtain rfl : d = 2 := by
        have : m = 0 ∨ m = 1 := by omega
        rcases this with rfl | rfl <;> simpa [initEx] using hd.symm
      exact List.Perm.refl _)
    (by
      intro m d hd
      have hm : m < 2 := (List.getElem?_eq_some_iff.1 hd).1
      obtain rfl : d = 2 := by
        have : m = 0 ∨ m = 1 := by omega
        rcases this with rfl | rfl <;> simpa [initEx] using hd.symm
      exact List.Perm.refl _) initSyevs

example : initializeCp initSyev initSqrt (fun x => x ≠ 0) initDraw 10 (fun _ => 7) true false 4 (fun _ => box [2, 2]) (fun _ => box [2, 2]) 2
    [initEx, initEx] 1 = .ok [⟨[0, 2], 0, [2, 1], [1, 1]⟩, ⟨[0, 1], 0, [2, 1], [1, 1]⟩] := by decide +kernel

example : initializeCp initSyev initSqrt (fun x => x ≠ 0) initDraw 10 (fun _ => 7) true false 1 (fun _ => box [2, 2]) (fun _ => box [2, 2]) 2
    [initEx, initEx] 3 = .ok [⟨[1, 0, 12, 0, 2, 15], 0, [2, 3], [3, 1]⟩, ⟨[1, 0, 12, 0, 1, 15], 0, [2, 3], [3, 1]⟩] := by decide +kernel

end Einsums.Props
