import Verif.Model.GaussLaguerre
import Verif.Spec.Laguerre
import Verif.Spec.Spectral
import Verif.Spec.Memory
/-
What the run-time environment may choose during a call of `gauss_laguerre`: any contents of new memory, any numbers of threads
and any interleavings of their updates.
-/
namespace Einsums.Spec
open Model

/-- The choices for `n` nodes. -/
structure GaussAllowed {K : Type} (n : Nat) (g : GaussRun K) : Prop where
  comp0 : ∃ m, 0 < m ∧ Schedule (compoundThreads (n - 1) m) (g.comp 0)
  comp1 : ∃ m, 0 < m ∧ Schedule (compoundThreads n m) (g.comp 1)
  comp2 : ∃ m, 0 < m ∧ Schedule (compoundThreads n m) (g.comp 2)
  value : ∀ k i j, ∃ m, 0 < m ∧ Schedule (compoundThreads n m) (g.value k i j)
  der : ∃ m, 0 < m ∧ Schedule (compoundThreads (n + 1) m) (g.der 0)
  upd : ∀ k, ∃ m, 0 < m ∧ Schedule (compoundThreads n m) (g.upd k)
  maxTeam : ∀ k, 0 < g.maxTeam k ∧ g.maxTeam k ≤ g.maxThreads ∧ n + g.maxTeam k ≤ 2 ^ 31
  mapTeam : ∀ k, 0 < g.mapTeam k ∧ n + g.mapTeam k ≤ 2 ^ 31
  mapOrder : ∀ k, Schedule ((List.range (g.mapTeam k)).map (countersOf n (g.mapTeam k))) (g.mapOrder k)
  parts : g.parts.flatten.Perm (List.range n)

end Einsums.Spec
