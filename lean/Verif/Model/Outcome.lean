/-
How a C++ call ends.
-/
namespace Einsums

/-- Not code of /repo: Result of a call: normal return, a C++ exception, or undefined behaviour.
Undefined behaviour covers out-of-range memory access, division by zero and failed `assert`s. -/
inductive Outcome (α : Type u) where
  | ok (a : α)
  | error (msg : String)
  | ub (why : String)
  deriving Repr, DecidableEq

namespace Outcome

/-- Not code of /repo: Sequencing: the first exception or undefined behaviour ends the computation. -/
def bind {α : Type u} {β : Type v} : Outcome α → (α → Outcome β) → Outcome β
  | .ok a, f => f a
  | .error m, _ => .error m
  | .ub w, _ => .ub w

instance : Monad Outcome where
  pure := .ok
  bind := Outcome.bind

@[simp] theorem pure_eq (a : α) : (pure a : Outcome α) = .ok a := rfl
@[simp] theorem ok_bind (a : α) (f : α → Outcome β) : (Outcome.ok a >>= f) = f a := rfl
@[simp] theorem error_bind (m : String) (f : α → Outcome β) :
    (Outcome.error m >>= f) = .error m := rfl
@[simp] theorem ub_bind (m : String) (f : α → Outcome β) : (Outcome.ub m >>= f) = .ub m := rfl
@[simp] theorem map_ok (a : α) (f : α → β) : (f <$> (Outcome.ok a)) = .ok (f a) := rfl
@[simp] theorem map_error (m : String) (f : α → β) : (f <$> (Outcome.error m)) = .error m := rfl
@[simp] theorem map_ub (m : String) (f : α → β) : (f <$> (Outcome.ub m)) = .ub m := rfl

instance : LawfulMonad Outcome := LawfulMonad.mk'
  (id_map := by intro α x; cases x <;> rfl)
  (pure_bind := by intros; rfl)
  (bind_assoc := by intro α β γ x f g; cases x <;> rfl)

/-- Not code of /repo: The call returned normally. -/
def isOk : Outcome α → Bool
  | .ok _ => true
  | _ => false

/-- Not code of /repo: The call threw. -/
def isError : Outcome α → Bool
  | .error _ => true
  | _ => false

/-- Not code of /repo: The call had undefined behaviour. -/
def isUb : Outcome α → Bool
  | .ub _ => true
  | _ => false

end Outcome
end Einsums
