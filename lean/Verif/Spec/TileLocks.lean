import Verif.Model.TileLocks
import Verif.Spec.TiledTensor
/-
Words used in the statements about the parallel loops over tiles.
-/
namespace Einsums
open Spec Model
variable {R σ : Type}

/-- All of the first `n` iterations have ended. -/
def Model.TileState.Finished (st : TileState R σ) (n : Nat) : Prop := ∀ s, s < n → st.pc s = .done

/-- The schedule consists of at least `N` rounds, in each of which every one of the `n` iterations gets a turn (or more than
one), in any order. -/
def FairFor (n N : Nat) (sch : List Nat) : Prop :=
  ∃ rounds : List (List Nat), sch = rounds.flatten ∧ N ≤ rounds.length ∧ ∀ r ∈ rounds, ∀ s, s < n → s ∈ r

/-- Two iterations that work on one tile take the lock of the tile. -/
def Model.TileLoop.Guarded (loop : TileLoop R σ) (n : Nat) : Prop :=
  loop.useLock = true ∨ ∀ s s' k, s < n → s' < n → loop.enter s = .ok (some k) → loop.enter s' = .ok (some k) → s = s'

/-- The steps of each iteration, taken together, do `update` to its tile. -/
def Model.TileLoop.Splits (loop : TileLoop R σ) (n : Nat) (sizes : List (List Nat))
    (update : Nat → Strided R → Outcome (Strided R)) : Prop :=
  ∀ s k, s < n → loop.enter s = .ok (some k) → ∀ t : Strided R, t.IsTensor → t.dims = tileDims sizes k →
    ((loop.micro s).foldlM (fun p f => f p) (loop.init, t) >>= fun p => .ok p.2) = update s t

end Einsums
