import Verif.Proofs.ArithmeticTensor
import Mathlib.Data.Int.Basic
/-
C47: lazy element-wise expressions.
-/
namespace Einsums.Props
open Spec Model

section
variable {R : Type} [Add R] [Sub R] [Mul R] [Div R] [Neg R]

/-- **C47 (partial).** After any program that builds, copies and destroys expressions and writes to tensors: reading an
expression at an index gives its formula evaluated on the elements the tensors now have at that index, provided that the
expression and all expressions it was built from still exist. -/
theorem C47_value_partial (ts : List (Strided R)) (p : List (ArithStep R)) (st : ArithState R)
    (h : ArithState.run ⟨ts, []⟩ p = .ok st) (k : Nat) (f : Formula R) (needs : List Nat)
    (hk : (Formulas.run p)[k]? = some (f, needs)) (hl : Alive st k) (hn : ∀ m ∈ needs, Alive st m) (idx : List Int) (X : Nat → R)
    (hX : ∀ t ∈ f.tensors, ∃ T, st.tensors[t]? = some T ∧ T.read idx = .ok (X t)) :
    st.read k idx = .ok (f.value X) := by
  have I := arithInv_run h
  have er : Formulas.ref (Formulas.run p) (.expr k) = (f, k :: needs) := by simp only [Formulas.ref, hk]
  have := compute_value I idx X (k + 1) (.expr k) (Nat.lt_succ_self k) (by
    rw [er]
    intro m hm
    rcases List.mem_cons.1 hm with rfl | hm
    · exact hl
    · exact hn m hm) (by rw [er]; exact hX)
  rw [er] at this
  exact this

omit [Add R] [Sub R] [Mul R] [Div R] [Neg R] in
/-- **C47 (shape).** The shape of an expression is that of the first tensor in it. -/
theorem C47_shape (ts : List (Strided R)) (p : List (ArithStep R)) (st : ArithState R)
    (h : ArithState.run ⟨ts, []⟩ p = .ok st) (k : Nat) (f : Formula R) (needs : List Nat)
    (hk : (Formulas.run p)[k]? = some (f, needs)) (o : ArithObj R) (ho : st.objs[k]? = some (some o)) :
    ∃ t T, f.tensors.head? = some t ∧ st.tensors[t]? = some T ∧ o.dims = T.dims := by
  have I := arithInv_run h
  obtain ⟨t, T, h1, h2, h3⟩ := I.shape k o ho
  have := (I.fits k o ho).2
  rw [hk, Option.some.injEq] at this
  rw [← this] at h1
  exact ⟨t, T, h1, h2, h3⟩

/-- **C47 (dangling).** If one of the expressions it was built from has been destroyed, reading is undefined behaviour, at
every index. -/
theorem C47_dangling (ts : List (Strided R)) (p : List (ArithStep R)) (st : ArithState R)
    (h : ArithState.run ⟨ts, []⟩ p = .ok st) (k : Nat) (f : Formula R) (needs : List Nat)
    (hk : (Formulas.run p)[k]? = some (f, needs)) (m : Nat) (hm : m ∈ needs) (hd : ¬ Alive st m) (idx : List Int) :
    (st.read k idx).isUb = true := by
  have I := arithInv_run h
  have er : Formulas.ref (Formulas.run p) (.expr k) = (f, k :: needs) := by simp only [Formulas.ref, hk]
  exact compute_dangling I idx (k + 1) (.expr k) (by rw [er]; exact ⟨m, by simp [hm], hd⟩)

end

/-- **C47 (refuted).** `auto e = (A + B) * C;` destroys `A + B` at the end of the statement: reading `e` afterwards is
undefined behaviour.  And the shapes of the operands are not compared: with a `B` of another shape `A + B` has the shape of
`A`, and reading it outside `B` is undefined behaviour. -/
theorem C47_refuted (A B C : Strided Int) (idx : List Int) :
    (∃ st, ArithState.run ⟨[A, B, C], []⟩ [.bin .add (.tensor 0) (.tensor 1), .bin .mul (.expr 0) (.tensor 2), .destroy 0] =
      .ok st ∧ Alive st 1 ∧ (st.read 1 idx).isUb = true) ∧
    (∃ st o, ArithState.run ⟨[⟨[1, 2, 3], 0, [3], [1]⟩, ⟨[1, 2], 0, [2], [1]⟩], []⟩ [.bin .add (.tensor 0) (.tensor 1)] =
      .ok st ∧ st.objs[0]? = some (some o) ∧ o.dims = [3] ∧ (st.read 0 [2]).isUb = true ∧ st.read 0 [1] = .ok (4 : Int)) := by
  constructor
  · refine ⟨_, rfl, ⟨_, rfl⟩, ?_⟩
    exact C47_dangling (R := Int) [A, B, C] [.bin .add (.tensor 0) (.tensor 1), .bin .mul (.expr 0) (.tensor 2), .destroy 0] _ rfl 1 _ _ rfl 0
      (by decide) (by rintro ⟨o, ho⟩; cases ho) idx
  · exact ⟨_, _, rfl, rfl, rfl, rfl, rfl⟩

-- -(A + 2 B) where B changes after the expression was built
example : ∃ st, ArithState.run ⟨[⟨[10, 20], 0, [2], [1]⟩, ⟨[1, 2], 0, [2], [1]⟩], []⟩
    [.bin .mul (.scalar 2) (.tensor 1), .bin .add (.tensor 0) (.expr 0), .neg (.expr 1), .copy 2, .write 1 [1] 7, .destroy 2] =
      .ok st ∧ st.read 3 [1] = .ok (-34 : Int) ∧ st.read 3 [0] = .ok (-12) :=
  ⟨_, rfl, rfl, rfl⟩

end Einsums.Props
