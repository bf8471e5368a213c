import Verif.Spec.BlasFront
/-
C172: a call of the typed BLAS/LAPACK front end is a call of the backend routine of that element type with
the same arguments.
-/
namespace Einsums.Props
open Spec Model

/-- Passing the parameters on in their order passes the values on in theirs. -/
theorem blasArgValues_params {α : Type} : ∀ (ps pre : List BlasArg) (vs pv : List α),
    pv.length = pre.length → vs.length = ps.length → (pre ++ ps).Nodup →
    blasArgValues (pre ++ ps) (pv ++ vs) ps = .ok vs := by
  have hval : ∀ (pre : List BlasArg) (pv : List α) (p : BlasArg) (ps : List BlasArg) (v : α)
      (vs : List α), pv.length = pre.length → p ∉ pre →
      blasArgValue p (pre ++ p :: ps) (pv ++ v :: vs) = .ok v := by
    intro pre
    induction pre with
    | nil =>
      intro pv p ps v vs hl _
      cases pv with
      | nil => simp [blasArgValue]
      | cons w ws => simp at hl
    | cons q qs ih =>
      intro pv p ps v vs hl hn
      cases pv with
      | nil => simp at hl
      | cons w ws =>
        have hq : p ≠ q := fun h => hn (h ▸ List.mem_cons_self ..)
        simp only [List.cons_append, blasArgValue, if_neg hq]
        exact ih ws p ps v vs (by simpa using hl) (fun h => hn (List.mem_cons_of_mem _ h))
  intro ps
  induction ps with
  | nil =>
    intro pre vs pv _ hv _
    cases vs with
    | nil => rfl
    | cons v vs => simp at hv
  | cons p ps ih =>
    intro pre vs pv hl hv hn
    cases vs with
    | nil => simp at hv
    | cons v vs =>
      have hp : p ∉ pre := by
        intro h
        exact (List.nodup_append.mp hn).2.2 p h p (List.mem_cons_self ..) rfl
      simp only [blasArgValues]
      rw [hval pre pv p ps v vs hl hp]
      have := ih (pre ++ [p]) vs (pv ++ [v]) (by simp [hl]) (by simpa using hv) (by simpa using hn)
      simp only [List.append_assoc, List.singleton_append] at this
      show (blasArgValues (pre ++ p :: ps) (pv ++ v :: vs) ps >>= fun vs' => Outcome.ok (v :: vs')) = _
      rw [this]
      rfl

/-- A function that passes its parameters on and returns what it must is the function it calls. -/
theorem blasBind_self {α β : Type} (ps : List BlasArg) (nv ret : Bool) (callee : List α → Outcome β)
    (vals : List α) (hn : ps.Nodup) (hr : (nv && !ret) = false) (hl : vals.length = ps.length) :
    blasBind ps nv ret ps callee vals = callee vals := by
  unfold blasBind
  rw [if_neg (by simpa using hl)]
  have h := blasArgValues_params ps [] vals [] rfl hl (by simpa using hn)
  simp only [List.nil_append] at h
  rw [h]
  show (callee vals >>= fun r => if (nv && !ret) = true then Outcome.ub "no return" else Outcome.ok r) = _
  rw [hr]
  cases callee vals <;> rfl

/-- The operations and element types whose specialisation does not reach the backend. -/
def unreachable (fn : BlasFn) (ty : BlasTy) : Bool :=
  match fn, ty with
  | .gees, .f32 => true
  | .trsyl, .c32 | .trsyl, .c64 => true
  | _, _ => false

/-- What the tables have to say about an operation that reaches the backend. -/
def routed (fn : BlasFn) (ty : BlasTy) (rf : Bool) : Bool :=
  match blasSpecialisations.find? (fun e => decide (e.fn = fn ∧ e.ty = ty ∧ e.realFactor = rf)) with
  | none => false
  | some e =>
    decide (e.args = e.params) && decide e.params.Nodup && !(e.nonVoid && !e.returns) &&
    decide (e.params.length = arityOf fn) &&
    match blasDefinitions.find? (fun d => decide (d.name = e.target)) with
    | none => false
    | some d =>
      decide d.params.Nodup && decide (d.params.length = arityOf fn) &&
      match d.body with
      | .throws => false
      | .forward ret target args =>
        decide (args = d.params) && !(d.nonVoid && !ret) && decide (target = routineOf fn ty rf)

set_option maxRecDepth 8000 in
theorem routed_all (fn : BlasFn) (ty : BlasTy) (rf : Bool) (h : offered fn ty rf = true)
    (hu : unreachable fn ty = false) : routed fn ty rf = true := by
  cases fn <;> cases ty <;> cases rf <;>
    first
    | exact absurd h (by decide)
    | exact absurd hu (by decide)
    | decide

/-- **C172 (partial)**: for every backend, every operation of the front end, every element type it is offered
for (with the overloads of `scal` by a real factor), other than `gees<float>` and the complex `trsyl`, and every
argument list of the right length, the call is exactly the call of the backend routine BLAS names for this operation
and type, with the same arguments in the same order, and its result is that routine's result.  Missing: the
three operations of `C172_gees_refuted` and `C172_trsyl_refuted`. -/
theorem C172_dispatch_partial {α β : Type} (backend : BlasRoutine → List α → Outcome β) (fn : BlasFn)
    (ty : BlasTy) (realFactor : Bool) (vals : List α) (hoff : offered fn ty realFactor = true)
    (hun : (fn = .gees → ty ≠ .f32) ∧ (fn = .trsyl → ty ≠ .c32 ∧ ty ≠ .c64))
    (hlen : vals.length = arityOf fn) :
    blasCall backend fn ty realFactor vals = backend (routineOf fn ty realFactor) vals := by
  have hu : unreachable fn ty = false := by
    cases fn <;> cases ty <;> simp_all [unreachable]
  have hr := routed_all fn ty realFactor hoff hu
  unfold routed at hr
  unfold blasCall
  generalize blasSpecialisations.find?
    (fun e => decide (e.fn = fn ∧ e.ty = ty ∧ e.realFactor = realFactor)) = o at hr ⊢
  cases o with
  | none => exact absurd hr (by simp)
  | some e =>
    simp only [Bool.and_eq_true, decide_eq_true_eq] at hr
    obtain ⟨⟨⟨⟨ha, hn⟩, hv⟩, hl⟩, hd⟩ := hr
    dsimp only
    rw [ha, blasBind_self _ _ _ _ _ hn ((Bool.not_eq_true' _).mp hv) (by omega)]
    unfold blasDetail
    generalize blasDefinitions.find? (fun d => decide (d.name = e.target)) = o' at hd ⊢
    cases o' with
    | none => exact absurd hd (by simp)
    | some d =>
      obtain ⟨dn, dp, dv, db⟩ := d
      cases db with
      | throws => exact absurd hd (by simp)
      | forward ret target args =>
        simp only [Bool.and_eq_true, decide_eq_true_eq] at hd
        obtain ⟨⟨hdn, hdl⟩, ⟨hda, hdv⟩, hdt⟩ := hd
        dsimp only
        rw [hda, blasBind_self _ _ _ _ _ hdn ((Bool.not_eq_true' _).mp hdv) (by omega), hdt]

/-- No two operations or element types share a routine name. -/
theorem routineOf_inj (fn fn' : BlasFn) (ty ty' : BlasTy) (rf rf' : Bool) (h : offered fn ty rf = true)
    (h' : offered fn' ty' rf' = true) (he : routineOf fn ty rf = routineOf fn' ty' rf') :
    fn = fn' ∧ ty = ty' ∧ rf = rf' := by
  have hf : fn = fn' := by
    have : (routineOf fn ty rf).fn = fn := by cases fn <;> cases ty <;> cases rf <;> rfl
    have h2 : (routineOf fn' ty' rf').fn = fn' := by cases fn' <;> cases ty' <;> cases rf' <;> rfl
    rw [← this, ← h2, he]
  subst hf
  cases fn <;> cases ty <;> cases rf <;> cases ty' <;> cases rf' <;>
    first
    | exact ⟨rfl, rfl, rfl⟩
    | exact absurd h (by decide)
    | exact absurd h' (by decide)
    | exact absurd he (by decide)

/-- **C172, distinct calls**: what arrives at the backend (the routine and its arguments) determines the operation,
the element type, the overload and the arguments of the call: no two different calls are confused. -/
theorem C172_distinct {α : Type} (fn fn' : BlasFn) (ty ty' : BlasTy) (rf rf' : Bool)
    (vals vals' : List α) (h : offered fn ty rf = true) (h' : offered fn' ty' rf' = true)
    (hun : (fn = .gees → ty ≠ .f32) ∧ (fn = .trsyl → ty ≠ .c32 ∧ ty ≠ .c64))
    (hun' : (fn' = .gees → ty' ≠ .f32) ∧ (fn' = .trsyl → ty' ≠ .c32 ∧ ty' ≠ .c64))
    (hl : vals.length = arityOf fn) (hl' : vals'.length = arityOf fn')
    (he : blasCall (fun r vs => Outcome.ok (r, vs)) fn ty rf vals =
      blasCall (fun r vs => Outcome.ok (r, vs)) fn' ty' rf' vals') :
    fn = fn' ∧ ty = ty' ∧ rf = rf' ∧ vals = vals' := by
  rw [C172_dispatch_partial _ fn ty rf vals h hun hl,
    C172_dispatch_partial _ fn' ty' rf' vals' h' hun' hl'] at he
  have e := Prod.mk.inj (Outcome.ok.inj he)
  obtain ⟨h1, h2, h3⟩ := routineOf_inj fn fn' ty ty' rf rf' h h' e.1
  exact ⟨h1, h2, h3, e.2⟩

/-- **C172, `gees<float>` refuted**: the Schur decomposition is offered for `float`, and no program that calls
it links: `detail::sgees` is declared and nowhere defined. -/
theorem C172_gees_refuted : offered .gees .f32 false = true ∧
    ∀ {α β : Type} (backend : BlasRoutine → List α → Outcome β) (vals : List α), vals.length = 9 →
      blasCall backend .gees .f32 false vals = .error "undefined reference" := by
  refine ⟨rfl, ?_⟩
  intro α β backend vals hl
  have hf : blasSpecialisations.find?
      (fun e => decide (e.fn = .gees ∧ e.ty = .f32 ∧ e.realFactor = false)) =
      some ⟨.gees, .f32, false, [.jobvs, .n, .a, .lda, .sdim, .wr, .wi, .vs, .ldvs], true, true,
        ⟨.s, .gees⟩, [.jobvs, .n, .a, .lda, .sdim, .wr, .wi, .vs, .ldvs]⟩ := by decide
  unfold blasCall
  rw [hf]
  dsimp only
  rw [blasBind_self _ _ _ _ _ (by decide) rfl (by simpa using hl)]
  unfold blasDetail
  rw [show blasDefinitions.find? (fun d => decide (d.name = ⟨.s, .gees⟩)) = none by decide]

/-- **C172, complex `trsyl` refuted**: the Sylvester equation is offered for complex matrices, and every call
throws, whatever the matrices and whatever the backend can do. -/
theorem C172_trsyl_refuted (ty : BlasTy) (h : ty = .c32 ∨ ty = .c64) :
    offered .trsyl ty false = true ∧
    ∀ {α β : Type} (backend : BlasRoutine → List α → Outcome β) (vals : List α), vals.length = 12 →
      blasCall backend .trsyl ty false vals = .error "not implemented." := by
  refine ⟨by rcases h with h | h <;> subst h <;> rfl, ?_⟩
  intro α β backend vals hl
  have hf : blasSpecialisations.find?
      (fun e => decide (e.fn = .trsyl ∧ e.ty = ty ∧ e.realFactor = false)) =
      some ⟨.trsyl, ty, false, [.trana, .tranb, .isgn, .m, .n, .a, .lda, .b, .ldb, .c, .ldc, .scale],
        true, true, ⟨letterOf ty, .trsyl⟩,
        [.trana, .tranb, .isgn, .m, .n, .a, .lda, .b, .ldb, .c, .ldc, .scale]⟩ := by
    rcases h with h | h <;> subst h <;> decide
  unfold blasCall
  rw [hf]
  dsimp only
  rw [blasBind_self _ _ _ _ _ (by decide) rfl (by simpa using hl)]
  unfold blasDetail
  rw [show blasDefinitions.find? (fun d => decide (d.name = ⟨letterOf ty, .trsyl⟩)) =
      some ⟨⟨letterOf ty, .trsyl⟩,
        [.trana, .tranb, .isgn, .m, .n, .a, .lda, .b, .ldb, .c, .ldc, .scale], true, .throws⟩ by
    rcases h with h | h <;> subst h <;> decide]

/-- A case: the scaling of a complex vector by a real number reaches `csscal`, with the arguments in order. -/
example : blasCall (fun r vs => Outcome.ok (r, vs)) .scal .c32 true [4, 7, 100, 1] =
    .ok (⟨.cs, .scal⟩, [4, 7, 100, 1]) :=
  C172_dispatch_partial _ .scal .c32 true _ rfl (by decide) rfl

/-- A case: nine arguments of `ger`. -/
example : blasCall (fun r vs => Outcome.ok (r, vs)) .ger .f64 false [2, 3, 1, 10, 1, 20, 1, 30, 3] =
    .ok (⟨.d, .ger⟩, [2, 3, 1, 10, 1, 20, 1, 30, 3]) :=
  C172_dispatch_partial _ .ger .f64 false _ rfl (by decide) rfl

end Einsums.Props
