import Verif.Model.BufferFormat
/-
What the formats of buffers mean: the table of Python's `struct` module (native sizes on 64-bit Linux) and the additions of
PEP 3118.
-/
namespace Einsums
open Model

/-- The kinds of items: numbers, truth values and characters. -/
inductive PepItem
  | number (ty : ItemType)
  | bool
  | char
  deriving DecidableEq

/-- The meaning of a format of one code. -/
def pepCode : List Char → Option PepItem
  | ['b'] => some (.number (.int 1))
  | ['B'] => some (.number (.uint 1))
  | ['h'] => some (.number (.int 2))
  | ['H'] => some (.number (.uint 2))
  | ['i'] => some (.number (.int 4))
  | ['I'] => some (.number (.uint 4))
  | ['l'] => some (.number (.int 8))
  | ['L'] => some (.number (.uint 8))
  | ['q'] => some (.number (.int 8))
  | ['Q'] => some (.number (.uint 8))
  | ['n'] => some (.number (.int 8))
  | ['N'] => some (.number (.uint 8))
  | ['e'] => some (.number (.real 2))
  | ['f'] => some (.number (.real 4))
  | ['d'] => some (.number (.real 8))
  | ['g'] => some (.number (.real 16))
  | ['Z', 'f'] => some (.number (.complex 4))
  | ['Z', 'd'] => some (.number (.complex 8))
  | ['Z', 'g'] => some (.number (.complex 16))
  | ['?'] => some .bool
  | ['c'] => some .char
  | _ => none

/-- The number codes that have no C++ type in the library. -/
def UnsupportedCode (format : List Char) : Prop := format = ['n'] ∨ format = ['N'] ∨ format = ['e']

end Einsums
