import Verif.Model.PrintTensor
import Verif.Model.Tiled
import Verif.Model.Block
/-
Printing of block tensors and of tiled tensors: BlockTensor.hpp 1287–1327, TiledTensor.hpp 1191–1311.
Simplifications: the texts have no NUL character, so that writing them with `"%s"` writes them whole; the numbers of blocks and of
positions of the grid fit in an `int` and a `long`.
-/
namespace Einsums.Model

section
variable {R : Type}

/-- TiledTensor.hpp 1191–1311: where the text goes: `println(A)`, `fprintln(FILE *, A)`, `fprintln(std::ostream &, A)`. -/
inductive PrintTarget where
  | stdout
  | file
  | stream
  deriving DecidableEq, Repr

/-- Tensor.hpp 65–68: `TensorPrintOptions` and its defaults. -/
structure PrintOptions where
  width : Int := 5
  full : Bool := true

/-- BlockTensor.hpp 1287–1327: `println(A, options)` of a block tensor; block `b` has the name `names b`. -/
def printBlock (F : NumText R) (st : PrintState) (par : Bool) (thread : Nat) (name dataType : List UInt8)
    (names : Nat → List UInt8) (kind : List UInt8) (o : PrintOptions) (T : Block R) : Outcome (List UInt8) := do
  let head := println st .stream par thread (ascii ['N', 'a', 'm', 'e', ':', ' '] ++ name)
  let st' := st.indent thread
  let info := println st' .stream par thread (ascii ['B', 'l', 'o', 'c', 'k', ' '] ++ ascii ['T', 'e', 'n', 's', 'o', 'r']) ++
    println st' .stream par thread (ascii ['D', 'a', 't', 'a', ' ', 'T', 'y', 'p', 'e', ':', ' '] ++ dataType)
  (List.range T.blocks.length).foldlM (fun s b => do
    let t ← T.at b
    let x ← printTensor F st' par thread (names b) kind dataType o.width o.full t
    return s ++ x) (head ++ info)

/-- TiledTensor.hpp 1226, 1267, 1308: the options handed on to the tiles.  Line 1267 is
`fprintln(fp, A.tile(tile_index)), options;`: the options are the right operand of a comma operator. -/
def PrintTarget.options (d : PrintTarget) (o : PrintOptions) : PrintOptions :=
  match d with
  | .file => {}
  | _ => o

/-- TiledTensor.hpp 1209–1228, 1250–1269, 1291–1310: the loop over the positions of the grid. -/
def printTiles (F : NumText R) (st : PrintState) (par : Bool) (thread : Nat) (dataType : List UInt8)
    (names : List Nat → List UInt8) (kind : List UInt8) (o : PrintOptions) (T : Tiled R) (s : List UInt8) : Outcome (List UInt8) :=
  (List.range T.numTiles).foldlM (fun s i =>
    if T.hasTileContainer (toIdx (gridIndex (T.offsets.map List.length) i)) then do
      let t ← T.tileConst (toIdx (gridIndex (T.offsets.map List.length) i))
      let x ← printTensor F st par thread (names (gridIndex (T.offsets.map List.length) i)) kind dataType o.width o.full t
      return s ++ x
    else return s) s

/-- TiledTensor.hpp 1191–1311: `println(A, options)` of a tiled tensor; the tile at the position `k` has the name `names k`. -/
def printTiled (d : PrintTarget) (F : NumText R) (st : PrintState) (par : Bool) (thread : Nat) (name dataType : List UInt8)
    (names : List Nat → List UInt8) (kind : List UInt8) (o : PrintOptions) (T : Tiled R) : Outcome (List UInt8) :=
  let head := println st .stream par thread (ascii ['N', 'a', 'm', 'e', ':', ' '] ++ name)
  let st' := st.indent thread
  let info := println st' .stream par thread (ascii ['T', 'i', 'l', 'e', 'd', ' '] ++ ascii ['T', 'e', 'n', 's', 'o', 'r']) ++
    println st' .stream par thread (ascii ['D', 'a', 't', 'a', ' ', 'T', 'y', 'p', 'e', ':', ' '] ++ dataType) ++
    (if 0 < T.dims.length then
      println st' .stream par thread (ascii ['D', 'i', 'm', 's', '{'] ++ (numbersText T.dims ++ ascii ['}'])) else [])
  printTiles F st' par thread dataType names kind (d.options o) T (head ++ info)

end
end Einsums.Model
