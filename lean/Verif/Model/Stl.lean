import Verif.Model.Outcome
/-
Model of parts of src/include/einsums/STL.hpp (`CircularBuffer`, `AlignedAllocator`, `ndigits`, trimming) and of
src/Memory.cpp.

The mutex of `CircularBuffer` makes each `put` and `reset` one step.
-/
namespace Einsums.Model

/-! ### CircularBuffer -/

/-- STL.hpp 376–383: the members.  A slot that was never written has an indeterminate value (`none`). -/
structure CircularBuffer (α : Type) where
  buffer : List (Option α)
  maxSize : Nat
  head : Nat
  tail : Nat
  full : Bool
  deriving DecidableEq

section
variable {α : Type}

/-- STL.hpp 331: the constructor. -/
def CircularBuffer.mk' (size : Nat) : CircularBuffer α := ⟨List.replicate size none, size, 0, 0, false⟩

/-- STL.hpp 333–345: `put`.  The slot must exist; with capacity zero it does not. -/
def CircularBuffer.put (b : CircularBuffer α) (item : α) : Outcome (CircularBuffer α) :=
  if b.head < b.buffer.length then
    let buffer := b.buffer.set b.head (some item)
    if b.maxSize = 0 then .ub "modulo zero"
    else
      let tail := if b.full then (b.tail + 1) % b.maxSize else b.tail
      let head := (b.head + 1) % b.maxSize
      .ok ⟨buffer, b.maxSize, head, tail, head == tail⟩
  else .ub "access outside the buffer"

/-- STL.hpp 347–351: `reset`. -/
def CircularBuffer.reset (b : CircularBuffer α) : CircularBuffer α := { b with head := b.tail, full := false }

/-- STL.hpp 353: `empty()`. -/
def CircularBuffer.empty (b : CircularBuffer α) : Bool := !b.full && b.head == b.tail

/-- STL.hpp 359–371: `size()`. -/
def CircularBuffer.size (b : CircularBuffer α) : Nat :=
  if !b.full then
    if b.head ≥ b.tail then b.head - b.tail else b.maxSize + b.head - b.tail
  else b.maxSize

/-- STL.hpp 373: `operator[]`: the raw slot. -/
def CircularBuffer.get (b : CircularBuffer α) (element : Int) : Outcome α :=
  if 0 ≤ element then
    match b.buffer[element.toNat]? with
    | some (some v) => .ok v
    | some none => .ub "indeterminate value"
    | none => .ub "access outside the buffer"
  else .ub "access outside the buffer"

end

/-! ### AlignedAllocator -/

/-- Memory.cpp 13–38: Bytes addressable with `size_t`. -/
def sizeMax : Nat := 2 ^ 64

/-- Memory.cpp 13–38: `allocate_aligned_memory`: the size requested from `posix_memalign`, or `none` for the null
pointer.  `avail` says whether the system grants a request.  The asserts require `align` to be a power of two
not below the size of a pointer. -/
def allocateAligned (avail : Nat → Bool) (align size : Nat) : Outcome (Option Nat) :=
  if align < 8 ∨ ¬ (align &&& (align - 1) = 0) then .ub "assert"
  else if size = 0 then .ok none
  else
    let extra := align - size % align
    let size := (size + extra) % sizeMax
    if avail size then .ok (some size) else .ok none

/-- STL.hpp 431: `max_size()` of the allocator for elements of `elem` bytes. -/
def allocatorMaxSize (align elem : Nat) : Nat := (sizeMax - 1 - align) / elem

/-- STL.hpp 437–445: `allocate(n)`. -/
def allocatorAllocate (avail : Nat → Bool) (align elem n : Nat) : Outcome Nat := do
  match ← allocateAligned avail align (n * elem % sizeMax) with
  | none => .error "std::bad_alloc"
  | some s => .ok s

/-! ### ndigits -/

/-- STL.hpp 523–526: the loop; `/=` truncates towards zero. -/
def ndigitsLoop (number : Int) (digits : Nat) : Nat :=
  if number = 0 then digits else ndigitsLoop (number.tdiv 10) (digits + 1)
termination_by number.natAbs
decreasing_by
  rw [Int.natAbs_tdiv]
  exact Nat.div_lt_self (by omega) (by decide)

/-- STL.hpp 519–529: `ndigits`. -/
def ndigits (number : Int) : Nat := ndigitsLoop number (if number < 0 then 1 else 0)

/-! ### Trimming; a string is the list of its bytes -/

/-- STL.hpp 532–539: `std::isspace` in the "C" locale. -/
def isspace (c : UInt8) : Bool := c == 32 || (9 ≤ c && c ≤ 13)

/-- STL.hpp 532–534: `ltrim`: erase up to the first byte that is not white space. -/
def ltrim (s : List UInt8) : List UInt8 :=
  s.drop (s.findIdx fun c => !isspace c)

/-- STL.hpp 537–539: `rtrim`: erase from behind the last byte that is not white space. -/
def rtrim (s : List UInt8) : List UInt8 :=
  s.take (s.length - s.reverse.findIdx fun c => !isspace c)

/-- STL.hpp 542–545, 560–563: `trim`, `trim_copy`. -/
def trim (s : List UInt8) : List UInt8 := ltrim (rtrim s)

end Einsums.Model
