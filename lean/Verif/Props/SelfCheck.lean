import Mathlib.Data.List.TakeWhile
import Verif.Props.Dispatch
import Verif.Props.View
import Verif.Model.SelfCheck
import Verif.Spec.SelfCheck
/-
C159: builds of einsum that test their results report exactly the results that are wrong.
-/
namespace Einsums.Props
open Spec Model

section loop
variable {R : Type} {isNan : R → Bool} {far : R → R → Bool} {complex : Bool}

theorem suspicious_flag (c t : R) :
    ((!complex && (isNan c || isNan t)) || far c t) = decide (Suspicious isNan far complex c t) := by
  rw [Bool.eq_iff_iff, decide_eq_true_eq]
  simp [Suspicious]

theorem selfCheckLoop_flagged {C test : Strided R} {f g : List Nat → R} (hC : C.Represents f) (hT : test.Represents g)
    (hd : test.dims = C.dims) (is : List (List Nat)) (his : ∀ i ∈ is, InBox i C.dims) (rep : List (List Nat)) :
    selfCheckLoop isNan far complex false C test is true rep = .ok (rep ++ is, false) := by
  induction is generalizing rep with
  | nil => simp [selfCheckLoop]
  | cons i is ih =>
    have hi := his i (by simp)
    unfold selfCheckLoop
    rw [hC i hi, hT i (by rw [hd]; exact hi)]
    simp only [Outcome.ok_bind, Bool.true_or, if_true, Bool.false_eq_true, if_false]
    rw [ih (fun j hj => his j (by simp [hj]))]
    simp

theorem selfCheckLoop_eq {C test : Strided R} {f g : List Nat → R} (hC : C.Represents f) (hT : test.Represents g)
    (hd : test.dims = C.dims) (abort : Bool) (is : List (List Nat)) (his : ∀ i ∈ is, InBox i C.dims) :
    selfCheckLoop isNan far complex abort C test is false [] =
      .ok (if abort then
        ((is.dropWhile fun i => !decide (Suspicious isNan far complex (f i) (g i))).take 1,
          is.any fun i => decide (Suspicious isNan far complex (f i) (g i)))
        else (is.dropWhile fun i => !decide (Suspicious isNan far complex (f i) (g i)), false)) := by
  induction is with
  | nil => cases abort <;> simp [selfCheckLoop]
  | cons i is ih =>
    have hi := his i (by simp)
    unfold selfCheckLoop
    rw [hC i hi, hT i (by rw [hd]; exact hi)]
    simp only [Outcome.ok_bind, Bool.false_or, suspicious_flag]
    by_cases h : Suspicious isNan far complex (f i) (g i)
    · cases abort
      · simp only [h, decide_true, if_true, Bool.false_eq_true, if_false]
        rw [selfCheckLoop_flagged hC hT hd is (fun j hj => his j (by simp [hj]))]
        simp [h]
      · simp [h, Pure.pure]
    · simp only [h, decide_false, Bool.false_eq_true, if_false]
      rw [ih (fun j hj => his j (by simp [hj]))]
      simp [h]

/-- **C159 (what is reported).** The elements of `C` and of the reference result are compared in row-major order.  Without
abort, what is reported is every element from the first suspicious one on.  With abort, the first suspicious element is
reported and the program is aborted, if there is one. -/
theorem C159_reports (isNan : R → Bool) (far : R → R → Bool) (complex abort : Bool) (C test : Strided R) (f g : List Nat → R)
    (hC : C.Represents f) (hT : test.Represents g) (hd : test.dims = C.dims) :
    selfCheck isNan far complex abort C test =
      .ok (if abort then
        (((box C.dims).dropWhile fun i => !decide (Suspicious isNan far complex (f i) (g i))).take 1,
          (box C.dims).any fun i => decide (Suspicious isNan far complex (f i) (g i)))
        else ((box C.dims).dropWhile fun i => !decide (Suspicious isNan far complex (f i) (g i)), false)) := by
  unfold selfCheck
  rw [cartesian_eq_box]
  exact selfCheckLoop_eq hC hT hd abort _ fun i hi => mem_box.1 hi

/-- **C159 (silence).** Nothing is reported exactly when no element is suspicious, and the program is aborted exactly when it
was to be and something is reported. -/
theorem C159_silent (isNan : R → Bool) (far : R → R → Bool) (complex abort : Bool) (C test : Strided R) (f g : List Nat → R)
    (hC : C.Represents f) (hT : test.Represents g) (hd : test.dims = C.dims) :
    ∃ (rep : List (List Nat)) (stop : Bool), selfCheck isNan far complex abort C test = .ok (rep, stop) ∧
      (rep = [] ↔ ∀ i, InBox i C.dims → ¬ Suspicious isNan far complex (f i) (g i)) ∧
      (stop = true ↔ abort = true ∧ rep ≠ []) := by
  have key : (box C.dims).dropWhile (fun i => !decide (Suspicious isNan far complex (f i) (g i))) = [] ↔
      ∀ i, InBox i C.dims → ¬ Suspicious isNan far complex (f i) (g i) := by
    rw [List.dropWhile_eq_nil_iff]
    constructor
    · intro h i hi
      simpa using h i (mem_box.2 hi)
    · intro h i hi
      simpa using h i (mem_box.1 hi)
  cases abort
  · refine ⟨_, _, (C159_reports isNan far complex false C test f g hC hT hd).trans (by rw [if_neg (by decide)]), key, ?_⟩
    simp
  · refine ⟨_, _, (C159_reports isNan far complex true C test f g hC hT hd).trans (by rw [if_pos rfl]), ?_, ?_⟩
    · rw [← key]
      cases (box C.dims).dropWhile (fun i => !decide (Suspicious isNan far complex (f i) (g i))) <;> simp
    · simp only [List.any_eq_true, decide_eq_true_eq, true_and]
      have k2 : List.take 1 ((box C.dims).dropWhile fun i => !decide (Suspicious isNan far complex (f i) (g i))) = [] ↔
          ∀ i, InBox i C.dims → ¬ Suspicious isNan far complex (f i) (g i) := by
        rw [← key]
        cases (box C.dims).dropWhile (fun i => !decide (Suspicious isNan far complex (f i) (g i))) <;> simp
      rw [ne_eq, k2]
      constructor
      · rintro ⟨i, hi, h⟩ k
        exact k i (mem_box.1 hi) h
      · intro h
        by_contra k
        exact h fun i hi hs => k ⟨i, mem_box.2 hi, hs⟩

/-- **C159 (refuted: only the wrong elements are reported).** After the first suspicious element every later element is
reported, although it is right. -/
theorem C159_sticky_refuted (isNan : R → Bool) (far : R → R → Bool) (complex : Bool) (C test : Strided R) (f g : List Nat → R)
    (hC : C.Represents f) (hT : test.Represents g) (hd : test.dims = C.dims) (before after : List (List Nat)) (i : List Nat)
    (hb : box C.dims = before ++ i :: after) (hi : Suspicious isNan far complex (f i) (g i))
    (right : ∀ j ∈ before ++ after, ¬ Suspicious isNan far complex (f j) (g j)) :
    selfCheck isNan far complex false C test = .ok (i :: after, false) := by
  rw [C159_reports isNan far complex false C test f g hC hT hd, if_neg (by decide), hb]
  rw [List.dropWhile_append_of_pos (by
    intro j hj
    simpa using right j (by simp [hj]))]
  simp [hi]

/-- **C159 (refuted: complex results that are not numbers).** A comparison with a value that is not a number is false, so
whatever the reference is, a complex result none of whose elements is a number is not reported. -/
theorem C159_complex_nan_refuted (isNan : R → Bool) (far : R → R → Bool) (abort : Bool) (C test : Strided R)
    (f g : List Nat → R) (hC : C.Represents f) (hT : test.Represents g) (hd : test.dims = C.dims)
    (cmp : ∀ c t, isNan c = true → far c t = false) (bad : ∀ i, InBox i C.dims → isNan (f i) = true) :
    selfCheck isNan far true abort C test = .ok ([], false) := by
  obtain ⟨rep, stop, h1, h2, h3⟩ := C159_silent isNan far true abort C test f g hC hT hd
  have : rep = [] := h2.2 fun i hi h => by
    rcases h with h | h
    · exact absurd h.1 (by decide)
    · rw [cmp _ _ (bad i hi)] at h; exact absurd h (by decide)
  subst this
  have : stop = false := by
    rw [Bool.eq_false_iff]; intro h; exact (h3.1 h).2 rfl
  rw [h1, this]

/-- **C159 (refuted: a number that is not a number).** For a result without indices, real or complex, a value that is not a
number is not reported. -/
theorem C159_scalar_nan_refuted (isNan : R → Bool) (far : R → R → Bool) (cmp : ∀ c t, isNan c = true → far c t = false)
    (c t : R) (h : isNan c = true) : selfCheckScalar far c t = false := cmp c t h

/-- The loop of the test for NaN, infinity and large numbers. -/
theorem nanCheck_eq {isNan isInf large : R → Bool} {C : Strided R} {f : List Nat → R} (hC : C.Represents f)
    (is : List (List Nat)) (his : ∀ i ∈ is, InBox i C.dims) :
    nanCheck isNan isInf large false C is =
      match is.find? (fun i => isNan (f i) || isInf (f i) || large (f i)) with
      | none => .ok ()
      | some i => .error (if isNan (f i) then "NAN detected in resulting tensor."
          else if isInf (f i) then "Infinity detected in resulting tensor." else "Large value detected in resulting tensor.") := by
  induction is with
  | nil => rfl
  | cons i is ih =>
    unfold nanCheck
    rw [hC i (his i (by simp))]
    simp only [Outcome.ok_bind, Bool.not_false, Bool.true_and, List.find?_cons]
    cases h1 : isNan (f i)
    · cases h2 : isInf (f i)
      · cases h3 : large (f i)
        · simpa using ih fun j hj => his j (by simp [hj])
        · simp [h1, h2]
      · simp [h1, h2]
    · simp [h1]

/-- **C159 (the test for NaN).** For real numbers the call throws exactly when some element of the result is NaN, infinite or
large, and the message is that of the first such element. -/
theorem C159_nan_throws (isNan isInf large : R → Bool) (C : Strided R) (f : List Nat → R) (hC : C.Represents f) :
    (nanCheck isNan isInf large false C (cartesian C.dims) = .ok () ↔
      ∀ i, InBox i C.dims → isNan (f i) = false ∧ isInf (f i) = false ∧ large (f i) = false) ∧
    ∀ (before after : List (List Nat)) (i : List Nat), box C.dims = before ++ i :: after →
      (∀ j ∈ before, isNan (f j) = false ∧ isInf (f j) = false ∧ large (f j) = false) →
      (isNan (f i) = true → nanCheck isNan isInf large false C (cartesian C.dims)
        = .error "NAN detected in resulting tensor.") ∧
      (isNan (f i) = false → isInf (f i) = true → nanCheck isNan isInf large false C (cartesian C.dims)
        = .error "Infinity detected in resulting tensor.") ∧
      (isNan (f i) = false → isInf (f i) = false → large (f i) = true →
        nanCheck isNan isInf large false C (cartesian C.dims) = .error "Large value detected in resulting tensor.") := by
  rw [cartesian_eq_box, nanCheck_eq hC _ fun i hi => mem_box.1 hi]
  constructor
  · constructor
    · intro h
      cases hf : (box C.dims).find? (fun i => isNan (f i) || isInf (f i) || large (f i)) with
      | none =>
        intro i hi
        have := List.find?_eq_none.1 hf i (mem_box.2 hi)
        simpa [and_assoc] using this
      | some i => rw [hf] at h; exact absurd h (by simp)
    · intro h
      rw [List.find?_eq_none.2]
      intro i hi
      obtain ⟨h1, h2, h3⟩ := h i (mem_box.1 hi)
      simp [h1, h2, h3]
  · intro before after i hb hbef
    have nb : before.find? (fun i => isNan (f i) || isInf (f i) || large (f i)) = none := by
      rw [List.find?_eq_none]
      intro j hj
      obtain ⟨h1, h2, h3⟩ := hbef j hj
      simp [h1, h2, h3]
    rw [hb, List.find?_append, nb, Option.none_or, List.find?_cons]
    refine ⟨fun h1 => by simp [h1], fun h1 h2 => by simp [h1, h2], fun h1 h2 h3 => by simp [h1, h2, h3]⟩

/-- **C159 (refuted: the test for NaN of complex results).** It never throws. -/
theorem C159_nan_complex_refuted (isNan isInf large : R → Bool) (C : Strided R) (f : List Nat → R) (hC : C.Represents f) :
    nanCheck isNan isInf large true C (cartesian C.dims) = .ok () := by
  rw [cartesian_eq_box]
  have : ∀ is : List (List Nat), (∀ i ∈ is, InBox i C.dims) → nanCheck isNan isInf large true C is = .ok () := by
    intro is
    induction is with
    | nil => intro _; rfl
    | cons i is ih =>
      intro his
      unfold nanCheck
      rw [hC i (his i (by simp))]
      simpa using ih fun j hj => his j (by simp [hj])
  exact this _ fun i hi => mem_box.1 hi

end loop

section whole
variable {L : Type} [DecidableEq L] {R : Type} [CommSemiring R] [BEq R] [LawfulBEq R] [Div R]

omit [CommSemiring R] [BEq R] [LawfulBEq R] [Div R] in
/-- The copy of `C` the reference result is computed in. -/
theorem referenceTarget_ok (z : Nat → R) {C : Operand R} {fC : List Nat → R} (vC : C.Valid) (hC : C.t.Represents fC)
    (h0 : C.t.dims ≠ []) : ∃ T, referenceTarget z C = .ok T ∧ T.Valid ∧ T.isView = false ∧ T.t.dims = C.t.dims ∧
      T.t.Represents fC := by
  unfold referenceTarget
  cases hv : C.isView
  · rw [if_neg (by decide)]
    exact ⟨C, rfl, vC, hv, rfl, hC⟩
  · obtain ⟨t, h1, h2, h3, h4⟩ := C11_of_view z C.t fC hC h0
    rw [if_pos rfl, h1]
    exact ⟨⟨t, false, true⟩, rfl, ⟨h2.wf, fun _ => h2.rowMajor, fun _ => ⟨rfl, h2⟩⟩, rfl, h3, h4⟩

/-- Every element of a tensor whose labels do not repeat is named by an assignment of the labels. -/
theorem exists_assignment {δ : L → Nat} {Cl : List L} (hn : Cl.Nodup) {i : List Nat} (hi : InBox i (Cl.map δ)) :
    ∃ ρ, InRange δ Cl ρ ∧ i = Cl.map ρ := by
  induction Cl generalizing i with
  | nil =>
    have : i = [] := by simpa [InBox_nil_right] using hi
    exact ⟨fun _ => 0, fun l hl => (nomatch hl), this⟩
  | cons a Cl ih =>
    rw [List.map_cons, InBox_cons_right] at hi
    obtain ⟨x, xs, rfl, hx, hxs⟩ := hi
    obtain ⟨ρ, h1, rfl⟩ := ih (List.nodup_cons.1 hn).2 hxs
    refine ⟨fun l => if l = a then x else ρ l, ?_, ?_⟩
    · intro l hl
      by_cases h : l = a
      · subst h; simpa using hx
      · simpa [h] using h1 l (by simpa [h] using hl)
    · rw [List.map_cons, if_pos rfl]
      congr 1
      apply List.map_congr_left
      intro l hl
      have : l ≠ a := fun h => (List.nodup_cons.1 hn).1 (h ▸ hl)
      simp [this]

theorem choosePath_true_ne_gemm (Al Bl Cl : List L) : choosePath true Al Bl Cl ≠ .gemm := by
  unfold choosePath
  simp only [if_true]
  split_ifs <;> simp

theorem choosePath_true_eq {Al Bl Cl : List L}
    (h : choosePath false Al Bl Cl = .outer ∨ choosePath false Al Bl Cl = .elementWise) :
    choosePath true Al Bl Cl = choosePath false Al Bl Cl := by
  unfold choosePath at h ⊢
  simp only [if_true, Bool.false_eq_true, if_false] at h ⊢
  split_ifs at h ⊢ <;> simp_all

/-- **C159 (partial: the reference is the sum).** Whenever the generic algorithm computes the reference: for every result `C'`
the selected algorithm returns, right or wrong, the element `ρ` of `C'` is compared with
`C_prefactor·C[ρ] + AB_prefactor·Σ A·B`, and nothing is reported exactly when no element is suspicious.  `C` may be a view.
Missing: the patterns for which the reference is computed by the algorithm that is tested (`C159_same_algorithm_refuted`), and
what is reported beyond the wrong elements (`C159_sticky_refuted`). -/
theorem C159_detects_partial (isNan : R → Bool) (far : R → R → Bool) (complex abort check : Bool) (z : Nat → R)
    (δ : L → Nat) (Al Bl Cl ls : List L) (A B C : Operand R) (fA fB fC g : List Nat → R) (cp ab : R) (C' : Strided R)
    (path : choosePath true Al Bl Cl = .generic) (hC0 : Cl ≠ []) (hCn : Cl.Nodup)
    (dA : A.t.dims = Al.map δ) (dB : B.t.dims = Bl.map δ) (dC : C.t.dims = Cl.map δ) (vC : C.Valid)
    (hA : A.t.Represents fA) (hB : B.t.Represents fB) (hC : C.t.Represents fC)
    (coverA : ∀ l ∈ Al, l ∈ Cl ∨ l ∈ Bl) (coverB : ∀ l ∈ Bl, l ∈ Cl ∨ l ∈ Al)
    (once : ∀ l ∈ ls, Al.count l = 1) (hls : Contracted Al Bl Cl ls)
    (run : einsum false check cp Cl C ab Al A Bl B = .ok C') (dC' : C'.dims = C.t.dims) (hC' : C'.Represents g) :
    ∃ (rep : List (List Nat)) (stop : Bool),
      einsumTested isNan far complex abort check z cp Cl C ab Al A Bl B = .ok (C', rep, stop) ∧
      (rep = [] ↔ ∀ ρ, InRange δ Cl ρ → ¬ Suspicious isNan far complex (g (Cl.map ρ))
        (cp * fC (Cl.map ρ) + ab * contraction δ ls Al Bl fA fB ρ)) ∧
      (stop = true ↔ abort = true ∧ rep ≠ []) := by
  obtain ⟨T, t1, vT, tT, dT, hT⟩ := referenceTarget_ok z vC hC (by rw [dC]; simpa using hC0)
  obtain ⟨X, x1, x2, x3, _⟩ := C15_contraction δ Al Bl Cl ls A.t B.t T.t fA fB fC cp ab dA dB (dT.trans dC) hA hB hT
    vT.wf coverA coverB once hls
  have e : einsum true check cp Cl T ab Al A Bl B = .ok X := by
    rw [einsum_eq_path true check cp ab dA dB (dT.trans dC) coverA coverB, path]
    exact x1
  have hX : ∃ v, X.Represents v := by
    refine ⟨fun i => match X.read (toIdx i) with | .ok x => x | _ => fC i, ?_⟩
    intro i hi
    rw [x2.dims, dT, dC] at hi
    obtain ⟨ρ, hρ, rfl⟩ := exists_assignment hCn hi
    beta_reduce
    rw [x3 ρ hρ]
  obtain ⟨v, hv⟩ := hX
  have val : ∀ ρ, InRange δ Cl ρ → v (Cl.map ρ) = cp * fC (Cl.map ρ) + ab * contraction δ ls Al Bl fA fB ρ := by
    intro ρ hρ
    have h1 := hv (Cl.map ρ) (by rw [x2.dims, dT, dC]; exact inBox_map hρ)
    rw [x3 ρ hρ] at h1
    exact (Outcome.ok.inj h1).symm
  obtain ⟨rep, stop, r1, r2, r3⟩ := C159_silent isNan far complex abort C' X g v hC' hv (by rw [x2.dims, dT, dC'])
  refine ⟨rep, stop, ?_, ?_, r3⟩
  · unfold einsumTested
    rw [t1]; simp only [Outcome.ok_bind]
    rw [e]; simp only [Outcome.ok_bind]
    rw [run]; simp only [Outcome.ok_bind]
    rw [r1]; rfl
  · rw [r2]
    constructor
    · intro h ρ hρ
      rw [← val ρ hρ]
      exact h _ (by rw [dC', dC]; exact inBox_map hρ)
    · intro h i hi
      rw [dC', dC] at hi
      obtain ⟨ρ, hρ, rfl⟩ := exists_assignment hCn hi
      rw [val ρ hρ]
      exact h ρ hρ

/-- **C159 (no false alarm).** For the calls of `C15_einsum`, where every algorithm computes the sum, a testing build returns
the same result as any other build and reports nothing, if no element of the result is NaN and a value is not far from
itself. -/
theorem C159_no_false_alarm (isNan : R → Bool) (far : R → R → Bool) (complex abort check : Bool) (z : Nat → R)
    (δ : L → Nat) (Al Bl Cl ls : List L) (A B C : Operand R) (fA fB fC : List Nat → R) (cp ab : R)
    (hAn : Al.Nodup) (hCn : Cl.Nodup) (hA0 : Al ≠ []) (hB0 : Bl ≠ []) (hC0 : Cl ≠ [])
    (dA : A.t.dims = Al.map δ) (dB : B.t.dims = Bl.map δ) (dC : C.t.dims = Cl.map δ)
    (vA : A.Valid) (vB : B.Valid) (vC : C.Valid) (tC : C.isView = false)
    (hA : A.t.Represents fA) (hB : B.t.Represents fB) (hC : C.t.Represents fC)
    (coverA : ∀ l ∈ Al, l ∈ Cl ∨ l ∈ Bl) (coverB : ∀ l ∈ Bl, l ∈ Cl ∨ l ∈ Al)
    (coverC : ∀ l ∈ Cl, l ∈ Al ∨ l ∈ Bl)
    (noTriple : choosePath false Al Bl Cl = .gemm → ∀ l ∈ Cl, ¬(l ∈ Al ∧ l ∈ Bl))
    (order : ∀ og, choosePath og Al Bl Cl = .outer → Cl = Al ++ Bl ∨ Cl = Bl ++ Al)
    (hls : Contracted Al Bl Cl ls) (hk : (∀ l ∈ ls, δ l ≠ 0) ∨ ∃ l ∈ Cl, δ l = 0)
    (self : ∀ x, far x x = false)
    (num : ∀ ρ, InRange δ Cl ρ → isNan (cp * fC (Cl.map ρ) + ab * contraction δ ls Al Bl fA fB ρ) = false) :
    ∃ C', einsum false check cp Cl C ab Al A Bl B = .ok C' ∧
      einsumTested isNan far complex abort check z cp Cl C ab Al A Bl B = .ok (C', [], false) := by
  obtain ⟨C', a1, a2, a3⟩ := C15_einsum δ Al Bl Cl ls false check A B C fA fB fC cp ab hAn hA0 hB0 hC0 dA dB dC vA vB vC tC
    hA hB hC coverA coverB coverC noTriple (order false) hls hk
  obtain ⟨X, b1, b2, b3⟩ := C15_einsum δ Al Bl Cl ls true check A B C fA fB fC cp ab hAn hA0 hB0 hC0 dA dB dC vA vB vC tC
    hA hB hC coverA coverB coverC (fun h => absurd h (choosePath_true_ne_gemm Al Bl Cl)) (order true) hls hk
  have rep : ∀ {Y : Strided R}, C.t.Frame Y → (∀ ρ, InRange δ Cl ρ → Y.read (toIdx (Cl.map ρ))
        = .ok (cp * fC (Cl.map ρ) + ab * contraction δ ls Al Bl fA fB ρ)) →
      Y.Represents (fun i => match C'.read (toIdx i) with | .ok x => x | _ => fC i) := by
    intro Y hY hr i hi
    rw [hY.dims, dC] at hi
    obtain ⟨ρ, hρ, rfl⟩ := exists_assignment hCn hi
    beta_reduce
    rw [hr ρ hρ, a3 ρ hρ]
  obtain ⟨r, stop, r1, r2, r3⟩ := C159_silent isNan far complex abort C' X _ _ (rep a2 a3) (rep b2 b3)
    (by rw [b2.dims, a2.dims])
  have hr : r = [] := by
    rw [r2]
    intro i hi h
    rw [a2.dims, dC] at hi
    obtain ⟨ρ, hρ, rfl⟩ := exists_assignment hCn hi
    simp only [a3 ρ hρ] at h
    rcases h with ⟨_, h | h⟩ | h
    · rw [num ρ hρ] at h; exact absurd h (by decide)
    · rw [num ρ hρ] at h; exact absurd h (by decide)
    · rw [self] at h; exact absurd h (by decide)
  subst hr
  have hs : stop = false := by
    rw [Bool.eq_false_iff]; intro h; exact (r3.1 h).2 rfl
  subst hs
  refine ⟨C', a1, ?_⟩
  unfold einsumTested referenceTarget
  rw [if_neg (by rw [tC]; decide)]; simp only [Outcome.ok_bind]
  rw [b1]; simp only [Outcome.ok_bind]
  rw [a1]; simp only [Outcome.ok_bind]
  rw [r1]; rfl

omit [LawfulBEq R] in
/-- **C159 (refuted: the reference of outer and element-wise products).** Calls with these label patterns compute the reference
result by the algorithm that is tested: whatever a call with a `Tensor` `C` returns, right or wrong, nothing is reported. -/
theorem C159_same_algorithm_refuted (isNan : R → Bool) (far : R → R → Bool) (complex abort check : Bool) (z : Nat → R)
    (Al Bl Cl : List L) (A B C : Operand R) (cp ab : R) (C' : Strided R) (g : List Nat → R)
    (path : choosePath false Al Bl Cl = .outer ∨ choosePath false Al Bl Cl = .elementWise) (tC : C.isView = false)
    (run : einsum false check cp Cl C ab Al A Bl B = .ok C') (hC' : C'.Represents g)
    (self : ∀ x, far x x = false) (num : ∀ i, InBox i C'.dims → isNan (g i) = false) :
    einsumTested isNan far complex abort check z cp Cl C ab Al A Bl B = .ok (C', [], false) := by
  have same : choosePath true Al Bl Cl = choosePath false Al Bl Cl := choosePath_true_eq path
  have run' : einsum true check cp Cl C ab Al A Bl B = .ok C' := by
    unfold einsum
    rw [same]
    exact run
  obtain ⟨r, stop, r1, r2, r3⟩ := C159_silent isNan far complex abort C' C' g g hC' hC' rfl
  have hr : r = [] := by
    rw [r2]
    intro i hi h
    rcases h with ⟨_, h | h⟩ | h
    · rw [num i hi] at h; exact absurd h (by decide)
    · rw [num i hi] at h; exact absurd h (by decide)
    · rw [self] at h; exact absurd h (by decide)
  subst hr
  have hs : stop = false := by
    rw [Bool.eq_false_iff]; intro h; exact (r3.1 h).2 rfl
  subst hs
  unfold einsumTested referenceTarget
  rw [if_neg (by rw [tC]; decide)]; simp only [Outcome.ok_bind]
  rw [run']; simp only [Outcome.ok_bind]
  rw [run]; simp only [Outcome.ok_bind]
  rw [r1]; rfl

omit [LawfulBEq R] [Div R] in
/-- **C159 (refuted: results without indices).** For such a result both calls compute the same, the dot product or the generic
algorithm: whatever the call returns, right or wrong, a number or not, nothing is reported. -/
theorem C159_scalar_refuted (far : R → R → Bool) (abort check : Bool) (cp c ab : R) (Al : List L) (A : Operand R) (Bl : List L)
    (B : Operand R) (r : R) (run : einsumScalar check cp c ab Al A Bl B = .ok r) (self : ∀ x, far x x = false) :
    einsumTestedScalar far abort check cp c ab Al A Bl B = .ok (r, false, false) := by
  unfold einsumTestedScalar selfCheckScalar
  rw [run]; simp only [Outcome.ok_bind, self]
  rfl

end whole

/-- The wrong number of `C16_refuted_einsum` is not reported. -/
example : einsumTestedScalar (R := Int) (fun x y => decide (x ≠ y)) true true 0 0 1 ["i", "i"] (tensorOp [1, 2, 3, 4] [2, 2])
    ["i"] (tensorOp [1, 1] [2]) = .ok (10, false, false) :=
  C159_scalar_refuted _ _ _ _ _ _ _ _ _ _ _ C16_refuted_einsum (by simp)

/-! ### Concrete cases -/

/-- The outer product with interleaved labels, which `C21_refuted_interleaved` shows to be wrong, is not reported. -/
example : einsumTested (R := Int) (fun _ => false) (fun x y => decide (x ≠ y)) false true true (fun _ => 0) 0 ["i", "k", "j"]
    (tensorOp (List.replicate 8 0) [2, 2, 2]) 1 ["i", "j"] (tensorOp [1, 2, 3, 4] [2, 2]) ["k"] (tensorOp [1, 10] [2])
      = .ok (⟨[1, 10, 2, 20, 3, 30, 4, 40], 0, [2, 2, 2], [4, 2, 1]⟩, [], false) := by decide

/-- The wrong result of the gemv path of `C20_refuted_uncovered` is reported: element `(0, 1)` is wrong, `(1, 0)` is right, and
both are reported. -/
example : einsumTested (R := Int) (fun _ => false) (fun x y => decide (x ≠ y)) false false true (fun _ => 0) 0 ["i", "j"]
    (tensorOp [9, 9, 9, 9] [2, 2]) 1 ["i", "k"] (tensorOp [1, 2, 3, 4] [2, 2]) ["k"] (tensorOp [1, 1] [2])
      = .ok (⟨[3, 9, 7, 9], 0, [2, 2], [2, 1]⟩, [[0, 1], [1, 0], [1, 1]], false) := by decide

/-- `C159_detects_partial` on that call. -/
example : ∃ (rep : List (List Nat)) (stop : Bool),
    einsumTested (R := Int) (fun _ => false) (fun x y => decide (x ≠ y)) false true true (fun _ => 0) 0 ["i", "j"]
      (tensorOp [9, 9, 9, 9] [2, 2]) 1 ["i", "k"] (tensorOp [1, 2, 3, 4] [2, 2]) ["k"] (tensorOp [1, 1] [2])
      = .ok (⟨[3, 9, 7, 9], 0, [2, 2], [2, 1]⟩, rep, stop) ∧ rep ≠ [] ∧ stop = true := by
  have rC : (⟨[3, 9, 7, 9], 0, [2, 2], [2, 1]⟩ : Strided Int).IsTensor := ⟨rfl, rfl, rfl⟩
  obtain ⟨rep, stop, h1, h2, h3⟩ := C159_detects_partial (R := Int) (fun _ => false) (fun x y => decide (x ≠ y)) false true
    true (fun _ => 0) (fun _ => 2) ["i", "k"] ["k"] ["i", "j"] ["k"]
    (tensorOp [1, 2, 3, 4] [2, 2]) (tensorOp [1, 1] [2]) (tensorOp [9, 9, 9, 9] [2, 2])
    (fun i => [1, 2, 3, 4].getD (rowMajor i [2, 2]) 0) (fun i => [1, 1].getD (rowMajor i [2]) 0)
    (fun i => [9, 9, 9, 9].getD (rowMajor i [2, 2]) 0) (fun i => [3, 9, 7, 9].getD (rowMajor i [2, 2]) 0) 0 1
    ⟨[3, 9, 7, 9], 0, [2, 2], [2, 1]⟩ (by decide) (by decide) (by decide) rfl rfl rfl (tensorOp_valid rfl)
    ((tensorOp_valid rfl).tensor rfl |>.2.represents_iff.2 (by decide))
    ((tensorOp_valid rfl).tensor rfl |>.2.represents_iff.2 (by decide))
    ((tensorOp_valid rfl).tensor rfl |>.2.represents_iff.2 (by decide))
    (by decide) (by decide) (by decide) ⟨by decide, by intro l; simp; aesop⟩ (by decide) rfl
    (rC.represents_iff.2 (by decide))
  have hr : rep ≠ [] := fun h => by
    have := h2.1 h (fun l => if l = "j" then 1 else 0) (by unfold InRange; decide)
    exact this (by decide)
  exact ⟨rep, stop, h1, hr, h3.2 ⟨rfl, hr⟩⟩

/-- `C159_no_false_alarm` on a product of matrices. -/
example : ∃ C', einsumTested (R := Int) (fun _ => false) (fun x y => decide (x ≠ y)) false true true (fun _ => 0) 2
    ["j", "i"] (tensorOp [1, 1, 1, 1] [2, 2]) 3 ["k", "i"] (tensorOp [1, 2, 3, 4] [2, 2]) ["j", "k"]
    (tensorOp [1, 0, 0, 1] [2, 2]) = .ok (C', [], false) := by
  obtain ⟨C', _, h⟩ := C159_no_false_alarm (R := Int) (fun _ => false) (fun x y => decide (x ≠ y)) false true true (fun _ => 0)
    (fun _ => 2) ["k", "i"] ["j", "k"] ["j", "i"] ["k"]
    (tensorOp [1, 2, 3, 4] [2, 2]) (tensorOp [1, 0, 0, 1] [2, 2]) (tensorOp [1, 1, 1, 1] [2, 2])
    (fun i => [1, 2, 3, 4].getD (rowMajor i [2, 2]) 0) (fun i => [1, 0, 0, 1].getD (rowMajor i [2, 2]) 0)
    (fun i => [1, 1, 1, 1].getD (rowMajor i [2, 2]) 0) 2 3 (by decide) (by decide) (by decide) (by decide) (by decide)
    rfl rfl rfl (tensorOp_valid rfl) (tensorOp_valid rfl) (tensorOp_valid rfl) rfl
    ((tensorOp_valid rfl).tensor rfl |>.2.represents_iff.2 (by decide))
    ((tensorOp_valid rfl).tensor rfl |>.2.represents_iff.2 (by decide))
    ((tensorOp_valid rfl).tensor rfl |>.2.represents_iff.2 (by decide))
    (by decide) (by decide) (by decide) (by decide) (by decide) ⟨by decide, by intro l; simp; aesop⟩ (by decide)
    (by simp) (by simp)
  exact ⟨C', h⟩

/-- The test for NaN: an infinite element before a NaN. -/
example : nanCheck (R := Nat) (· == 7) (· == 8) (· > 100) false ⟨[1, 8, 7], 0, [3], [1]⟩ (cartesian [3])
    = .error "Infinity detected in resulting tensor." := by decide

end Einsums.Props
