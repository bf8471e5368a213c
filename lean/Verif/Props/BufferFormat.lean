import Verif.Spec.BufferFormat
import Verif.Props.PythonTensor
/-
C158: the items of a buffer are read as what its format says.
-/
namespace Einsums.Props
open Einsums Einsums.Model Einsums.Spec

variable {R α : Type}

/-- C158: every number code of `struct` and PEP 3118 but `n`, `N` and `e` is read as the type it stands for. -/
theorem C158_codes (format : List Char) (ty : ItemType) (h : pepCode format = some (.number ty)) :
    (¬ UnsupportedCode format → formatType format ty.size = .ok ty) ∧
    (UnsupportedCode format → ∀ sz, (formatType format sz).isError = true) := by
  unfold pepCode at h
  split at h <;> first
    | (cases h; refine ⟨fun _ => rfl, fun hu => ?_⟩; rcases hu with hu | hu | hu <;> exact absurd hu (by decide))
    | (cases h; refine ⟨fun hu => absurd ?_ hu, fun _ _ => rfl⟩; simp [UnsupportedCode])
    | (cases h)

/-- C158: the codes of C's `long`, on systems where it has four or eight bytes; other sizes are rejected. -/
theorem C158_long (n : Nat) :
    (n = 4 ∨ n = 8 → formatType ['l'] n = .ok (.int n) ∧ formatType ['L'] n = .ok (.uint n)) ∧
    (¬ (n = 4 ∨ n = 8) → (formatType ['l'] n).isError = true ∧ (formatType ['L'] n).isError = true) := by
  refine ⟨?_, fun h => ?_⟩
  · rintro (rfl | rfl) <;> exact ⟨rfl, rfl⟩
  · obtain ⟨h4, h8⟩ := not_or.1 h
    simp [formatType, h4, h8, Outcome.isError]

/-- C158: what is rejected: formats of three characters or more, those that begin with a sign for the byte order, truth values, characters,
and in general all that do not begin with one of the fourteen letters. -/
theorem C158_rejects (format : List Char) (sz : Nat)
    (h : 2 < format.length ∨ ∀ c, format.head? = some c → c ∉ ['b', 'B', 'h', 'H', 'i', 'I', 'q', 'Q', 'l', 'L', 'f', 'd', 'g', 'Z']) :
    (formatType format sz).isError = true := by
  unfold formatType
  by_cases hl : format.length > 2
  · rw [if_pos hl]; rfl
  · rw [if_neg hl]
    have h := h.resolve_left hl
    cases format with
    | nil => rfl
    | cons c rest =>
        have := h c rfl
        simp only [List.getD_cons_zero]
        split <;> first | rfl | exact absurd (by simp) this

/-- C158: `Z` is rejected unless one of the letters of a floating-point type follows. -/
theorem C158_rejects_complex (rest : List Char) (sz : Nat) (h : rest ≠ ['f'] ∧ rest ≠ ['d'] ∧ rest ≠ ['g']) :
    (formatType ('Z' :: rest) sz).isError = true := by
  obtain ⟨h1, h2, h3⟩ := h
  match rest, h1, h2, h3 with
  | [], _, _, _ => rfl
  | [c], h1, h2, h3 =>
      simp only [ne_eq, List.cons.injEq, and_true] at h1 h2 h3
      unfold formatType
      simp only [List.length_cons, List.length_nil, gt_iff_lt, Nat.lt_irrefl, if_false, List.getD_cons_zero, List.getD_cons_succ]
      rfl
  | a :: b :: cs, _, _, _ => simp [formatType, Outcome.isError]

/-- C158: `t OP= buffer` with a buffer of another shape is rejected, whatever its format. -/
theorem C158_op_throws (op : α → α → α) (conv : R × R → α) (t : Strided α) (format : List Char) (b : PyBuffer (R × R))
    (sch : List Nat) (h : t.dims ≠ b.shape) : (rtOpFormat op conv t format b sch).isError = true := by
  unfold rtOpFormat
  rw [if_pos h]
  split <;> rfl

theorem bufLoopAs_itemsize {β : Type} (op : α → α → α) (conv : β → α) (t : Strided α) (b : PyBuffer β) (sch : List Nat) :
    bufLoopAs op conv b.itemsize t b sch = bufLoop op conv t b sch := rfl

/-- C158: a tensor made of a buffer with a supported number code has the items of the buffer as elements, converted by `conv`
(`castReal` or `castComplex`): a real tensor gets real items rounded to its type, a complex tensor all items.
Missing: complex items for a real tensor, whose imaginary parts are dropped, and formats of several codes (refuted below). -/
theorem C158_values_partial (z : Nat → α) (conv : R × R → α) (format : List Char) (ty : ItemType)
    (hf : pepCode format = some (.number ty)) (hu : ¬ UnsupportedCode format) (b : PyBuffer (R × R)) (hsz : b.itemsize = ty.size)
    (ha : b.Aligned) (g : List Nat → R × R) (hg : b.Represents g) (sch : List Nat) (hs : sch.Perm (List.range (numel b.shape))) :
    ∃ t, rtOfFormat z conv format b sch = .ok t ∧ t.IsTensor ∧ t.dims = b.shape ∧ t.Represents fun i => conv (g i) := by
  obtain ⟨t, e, h⟩ := (C88_construct_partial z b ha g hg sch hs).1 conv
  refine ⟨t, ?_, h⟩
  rw [rtOfFormat, hsz, (C158_codes format ty hf).1 hu, Outcome.ok_bind, ← hsz, bufLoopAs_itemsize]
  exact e

/-- C158: the same for `t OP= buffer`. -/
theorem C158_op_partial (op : α → α → α) (conv : R × R → α) (t : Strided α) (ht : t.IsTensor) (f : List Nat → α)
    (hft : t.Represents f) (format : List Char) (ty : ItemType)
    (hf : pepCode format = some (.number ty)) (hu : ¬ UnsupportedCode format) (b : PyBuffer (R × R)) (hsz : b.itemsize = ty.size)
    (ha : b.Aligned) (g : List Nat → R × R) (hg : b.Represents g) (hd : t.dims = b.shape) (sch : List Nat)
    (hs : sch.Perm (List.range (numel t.dims))) :
    ∃ t', rtOpFormat op conv t format b sch = .ok t' ∧ t'.IsTensor ∧ t'.dims = t.dims ∧
      t'.Represents fun i => op (f i) (conv (g i)) := by
  obtain ⟨t', e, h⟩ := (C88_op_partial op t ht f hft b ha g hg sch hs).1 conv hd
  refine ⟨t', ?_, h⟩
  rw [rtOpFormat, if_neg (by simp [hd]), if_neg (by simpa using hd), hsz, (C158_codes format ty hf).1 hu, Outcome.ok_bind, ← hsz,
    bufLoopAs_itemsize]
  rw [rtOpBuffer, if_neg (by simp [hd]), if_neg (by simpa using hd)] at e
  exact e

/-- C158 is false of complex items for a real tensor: the call succeeds, and every element is the real part alone, whatever the imaginary
part is. -/
theorem C158_complex_refuted [Zero R] (z : Nat → R) (c : Char) (b : PyBuffer (R × R))
    (hsz : some (PepItem.number (.complex (b.itemsize / 2))) = pepCode ['Z', c]) (ha : b.Aligned) (g : List Nat → R × R) (hg : b.Represents g)
    (sch : List Nat) (hs : sch.Perm (List.range (numel b.shape))) (heven : b.itemsize % 2 = 0) (i : List Nat) (hi : (g i).2 ≠ 0) :
    ∃ t, rtOfFormat z (castReal id) ['Z', c] b sch = .ok t ∧ t.dims = b.shape ∧ (t.Represents fun i => (g i).1) ∧
      ((g i).1, 0) ≠ g i := by
  obtain ⟨t, e, _, h1, h2⟩ := C158_values_partial z (castReal id) ['Z', c] _ hsz.symm
    (by rintro (h | h | h) <;> simp at h) b (by simp [ItemType.size]; omega) ha g hg sch hs
  exact ⟨t, e, h1, h2, fun e => hi (congrArg Prod.snd e).symm⟩

/-- C158 is false of formats of two codes such as `dd` (records of two numbers): only the first character is looked at. -/
theorem C158_second_code (c c' : Char) (hc : c ≠ 'Z') (sz : Nat) : formatType [c, c'] sz = formatType [c] sz := by
  unfold formatType
  simp only [List.length_cons, List.length_nil, gt_iff_lt, Nat.lt_irrefl, if_false, List.getD_cons_zero]
  split <;> first | rfl | exact absurd rfl hc

/-- C158 is false of all vectors of such records: the tensor has the numbers that lie one after the other in memory, not the records,
so that its second element comes from the first record. -/
theorem C158_records_refuted (z : Nat → α) (conv : R × R → α) (c c' : Char) (hc : c ≠ 'Z') (s : Nat) (hs0 : 0 < s)
    (ty : ItemType) (hty : formatType [c] s = .ok ty) (hpos : 0 < ty.size) (n : Nat) (items : Int → Option (R × R)) (g : Nat → R × R)
    (hg : ∀ k, k < n → items (ty.size * k) = some (g k)) (sch : List Nat) (hs : sch.Perm (List.range n)) :
    ∃ t, rtOfFormat z conv [c, c'] ⟨items, [n], [s], s⟩ sch = .ok t ∧ t.dims = [n] ∧
      t.Represents fun i => conv (g (i.headD 0)) := by
  have hal : PyBuffer.Aligned ⟨items, [n], [(ty.size : Int)], ty.size⟩ := by
    refine ⟨rfl, hpos, ?_⟩
    intro x hx
    simp only [List.mem_singleton] at hx
    exact ⟨1, by simp [hx]⟩
  have hrep : PyBuffer.Represents ⟨items, [n], [(ty.size : Int)], ty.size⟩ (fun i => g (i.headD 0)) := by
    intro i hi
    match i, hi with
    | [k], hi =>
        have hk : k < n := hi.1
        simpa [byteOffset, Int.mul_comm] using hg k hk
  obtain ⟨t, e, _, h1, h2⟩ := (C88_construct_partial z ⟨items, [n], [(ty.size : Int)], ty.size⟩ hal _ hrep sch
    (by simpa [numel] using hs)).1 conv
  refine ⟨t, ?_, h1, h2⟩
  rw [rtOfFormat, C158_second_code c c' hc, hty, Outcome.ok_bind]
  rw [← e]
  have hv : ∀ m : Nat, 0 < m → bufIsView (rtNew z [n]).strides (⟨items, [n], [(m : Int)], m⟩ : PyBuffer (R × R)) = false := by
    intro m hm
    have hst : (rtNew z [n]).strides = [1] := by simp [rtNew, dimsToStrides]
    unfold bufIsView
    rw [hst]
    have : (m : Int).tdiv m = 1 := Int.tdiv_self (by omega)
    simp [this]
  have hp : ∀ m : Nat, 0 < m → ∀ i, bufPos (rtNew z [n]).strides (⟨items, [n], [(m : Int)], m⟩ : PyBuffer (R × R)) i = .ok (i : Int) := by
    intro m hm i
    unfold bufPos
    rw [hv m hm]
    rfl
  change bufLoopAs (fun _ x => x) conv ty.size (rtNew z [n]) ⟨items, [n], [(s : Int)], s⟩ sch =
    bufLoop (fun _ x => x) conv (rtNew z [n]) ⟨items, [n], [(ty.size : Int)], ty.size⟩ sch
  unfold bufLoopAs bufLoop
  congr 1
  funext t' i
  rw [hp s hs0, hp ty.size hpos]
  rfl

/-- The hypotheses are met: 16-bit integers, and a complex number. -/
example : pepCode ['h'] = some (.number (.int 2)) ∧ ¬ UnsupportedCode ['h'] ∧ formatType ['d'] 16 = .ok (.real 8) ∧
    (formatType ['>', 'd'] 8).isError = true ∧ (formatType ['?'] 1).isError = true ∧ formatType ['Z', 'd'] 16 = .ok (.complex 8) :=
  ⟨rfl, by rintro (h | h | h) <;> simp at h, rfl, rfl, rfl, rfl⟩

/-- Two records `dd` (1, 2) and (3, 4): the tensor is [1, 2]. -/
def recordItems : Int → Option (Int × Int) := fun o =>
  if o = 0 then some (1, 0) else if o = 8 then some (2, 0) else if o = 16 then some (3, 0) else if o = 24 then some (4, 0) else none

example : rtOfFormat (fun _ => 0) (castReal id) ['d', 'd'] ⟨recordItems, [2], [16], 16⟩ [0, 1] =
    .ok { data := [1, 2], off := 0, dims := [2], strides := [1] } := by decide +kernel

/-- 16-bit integers 5 and -3 at a distance of four bytes. -/
example : rtOfFormat (fun _ => 0) (castReal id) ['h']
    ⟨fun o => if o = 0 then some ((5 : Int), 0) else if o = 4 then some (-3, 0) else none, [2], [4], 2⟩ [1, 0] =
    .ok { data := [5, -3], off := 0, dims := [2], strides := [1] } := by decide +kernel

end Einsums.Props
