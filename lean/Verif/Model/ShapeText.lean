import Verif.Model.Stl
import Verif.Model.PrintTensor
/-
Model of the formatters of `Dim`, `Stride`, `Count`, `Offset` and `Range` in src/include/einsums/_Common.hpp (lines 137–272).

Simplification: the global locale is the classic one (no separators of thousands in `oss << dim[i]`).
-/
namespace Einsums.Model

/-- _Common.hpp 119–123: the kinds of lists of numbers that have a formatter (`Chunk` has none). -/
inductive ShapeKind
  | dim | stride | count | offset
  deriving Repr, DecidableEq

/-- _Common.hpp 160, 187, 214, 241: the words before the brace. -/
def ShapeKind.word : ShapeKind → List UInt8
  | .dim => ascii ['D', 'i', 'm']
  | .stride => ascii ['S', 't', 'r', 'i', 'd', 'e']
  | .count => ascii ['C', 'o', 'u', 'n', 't']
  | .offset => ascii ['O', 'f', 'f', 's', 'e', 't']

/-- _Common.hpp 139–149, 166–176, 193–203, 220–230, 247–257: `parse`; `spec` is the rest of the format string from the place
after the colon on. -/
def shapeParse (spec : List UInt8) : Outcome Unit :=
  match spec with
  | [] => .ok ()
  | c :: _ => if c ≠ 125 then .error "invalid format" else .ok ()

/-- _Common.hpp 153–161, 180–188, 207–215, 234–242: `format` of the four kinds. -/
def fmtShape (k : ShapeKind) (ns : List Int) : List UInt8 :=
  k.word ++ [123] ++ rtrim (ns.foldl (fun oss d => oss ++ (decimalInt d ++ [32])) []) ++ [125]

/-- _Common.hpp 261–264: `format` of a `Range`. -/
def fmtRange (a b : Int) : List UInt8 :=
  ascii ['R', 'a', 'n', 'g', 'e', '{'] ++ decimalInt a ++ ascii [',', ' '] ++ decimalInt b ++ ascii ['}']

end Einsums.Model
