import Verif.Model.Tiled
import Verif.Spec.Tiled
import Verif.Spec.Tensor
/-
What a tiled tensor object looks like between API calls, and the elements it holds.
-/
namespace Einsums
open Spec Model

/-- A tiled tensor as the constructors make it and the operations keep it: the offsets and dimensions are
those of the partitions, every stored tile sits at a different position of the grid and is a tensor of the
shape of that position. -/
structure Model.Tiled.WF {R : Type} (T : Tiled R) : Prop where
  rank : T.sizes ≠ []
  offsets : T.offsets = T.sizes.map fun s => (List.range s.length).map (tileStart s)
  dims : T.dims = fullDims T.sizes
  nodup : (T.tiles.map (·.1)).Nodup
  tiles : ∀ k t, T.tiles.lookup k = some t →
    InBox k (gridDims T.sizes) ∧ t.IsTensor ∧ t.dims = tileDims T.sizes k

/-- The elements of `T`, read one by one, are given by the function `f` of the multi-index. -/
def Model.Tiled.Represents {R : Type} [Zero R] (T : Tiled R) (f : List Nat → R) : Prop :=
  ∀ j, InBox j (fullDims T.sizes) → T.get (toIdx j) = .ok (f j)

/-- Calls that change a tiled tensor (or may create a tile). -/
inductive TiledOp (R : Type) where
  /-- `T(i, j, ...) = v` -/
  | set (idx : List Int) (v : R)
  /-- evaluating `T(i, j, ...)` on a non-const tensor -/
  | touch (idx : List Int)
  /-- `T.tile(i, j, ...)` -/
  | tile (idx : List Int)
  /-- `T.zero()` -/
  | zero
  /-- `T.zero_no_clear()` -/
  | zeroNoClear
  /-- `T *= v` -/
  | mul (v : R)

/-- The call in the model. -/
def TiledOp.run {R : Type} [Zero R] [BEq R] [Mul R] (T : Tiled R) : TiledOp R → Outcome (Tiled R)
  | .set idx v => T.set idx v
  | .touch idx => T.getMut idx >>= fun r => .ok r.1
  | .tile idx => T.tile idx >>= fun r => .ok r.1
  | .zero => .ok T.zero
  | .zeroNoClear => .ok (T.mapTiles fun _ => 0)
  | .mul v => .ok (T.mulScalar v)

/-- A history of calls; the caller catches exceptions and goes on with the tensor as it was. -/
def runTiled {R : Type} [Zero R] [BEq R] [Mul R] : List (TiledOp R) → Tiled R → Outcome (Tiled R)
  | [], T => .ok T
  | op :: ops, T =>
      match op.run T with
      | .ok T' => runTiled ops T'
      | .error _ => runTiled ops T
      | .ub w => .ub w

/-- The same call on an ordinary array of the given shape, seen as a function of the multi-index. -/
def TiledOp.dense {R : Type} [Zero R] [Mul R] (dims : List Nat) (f : List Nat → R) : TiledOp R → List Nat → R
  | .set idx v => match pyIndices dims idx with
      | some j => fun i => if i = j then v else f i
      | none => f
  | .touch _ => f
  | .tile _ => f
  | .zero => fun _ => 0
  | .zeroNoClear => fun _ => 0
  | .mul v => fun i => f i * v

/-- Tile coordinates passed to `tile` must exist (the code asserts it). -/
def TiledOp.Valid {R : Type} (grid : List Nat) : TiledOp R → Prop
  | .tile idx => ∃ k, pyIndices grid idx = some k
  | _ => True

end Einsums
