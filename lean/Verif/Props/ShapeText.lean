import Verif.Spec.ShapeText
import Verif.Props.Stl
import Mathlib.Data.Nat.Digits.Lemmas
/-
C176: the text of dimensions, strides, counts, offsets and ranges.
-/
namespace Einsums.Props
open Spec Model

theorem digitByte {d : Nat} (h : d < 10) : (UInt8.ofNat (48 + d)).toNat = 48 + d := by
  rw [UInt8.toNat_ofNat']; omega

theorem readNat_digits (l : List Nat) (h : ∀ d ∈ l, d < 10) :
    readNat ((l.map fun d => UInt8.ofNat (48 + d)).reverse) = Nat.ofDigits 10 l := by
  unfold readNat
  rw [List.foldl_reverse]
  induction l with
  | nil => rfl
  | cons d l ih =>
    rw [List.map_cons, List.foldr_cons, ih (fun d h' => h d (by simp [h'])), digitByte (h d (by simp)), Nat.ofDigits_cons]
    omega

theorem decimal_numeral (n : Nat) : (∀ c ∈ decimal n, IsDigit c) ∧ decimal n ≠ [] ∧
    ((decimal n).head? = some 48 → decimal n = [48]) ∧ readNat (decimal n) = n := by
  unfold decimal
  split
  · next h => subst h; exact ⟨by simp [IsDigit], by simp, fun _ => rfl, rfl⟩
  · next h =>
    have hlt : ∀ d ∈ Nat.digits 10 n, d < 10 := fun d hd => Nat.digits_lt_base (by omega) hd
    have hne : Nat.digits 10 n ≠ [] := Nat.digits_ne_nil_iff_ne_zero.2 h
    refine ⟨?_, by simpa using hne, ?_, ?_⟩
    · intro c hc
      rw [List.mem_reverse, List.mem_map] at hc
      obtain ⟨d, hd, rfl⟩ := hc
      have := hlt d hd
      unfold IsDigit
      rw [digitByte this]
      omega
    · intro h0
      exfalso
      rw [List.head?_reverse, List.getLast?_map, List.getLast?_eq_some_getLast hne, Option.map_some, Option.some.injEq] at h0
      have h1 := Nat.getLast_digit_ne_zero 10 h
      have h2 := congrArg UInt8.toNat h0
      rw [digitByte (hlt _ (List.getLast_mem hne))] at h2
      have h3 : (48 : UInt8).toNat = 48 := rfl
      rw [h3] at h2
      exact h1 (by omega)
    · rw [readNat_digits _ hlt, Nat.ofDigits_digits]

theorem decimalInt_numeral (n : Int) : IsNumeral (decimalInt n) n := by
  unfold decimalInt
  obtain ⟨h1, h2, h3, h4⟩ := decimal_numeral n.natAbs
  refine ⟨decimal n.natAbs, h1, h2, h3, h4, ?_⟩
  split
  · rfl
  · rw [show n.toNat = n.natAbs by omega]

/-- A text is the numeral of one number at most. -/
theorem numeral_inj {s : List UInt8} {n m : Int} (hn : IsNumeral s n) (hm : IsNumeral s m) : n = m := by
  obtain ⟨d, h1, h2, _, h3, h4⟩ := hn
  obtain ⟨e, k1, k2, _, k3, k4⟩ := hm
  have hd45 : ∀ (x : List UInt8), (∀ c ∈ x, IsDigit c) → ∀ y, x ≠ 45 :: y := by
    intro x hx y e
    have := hx 45 (by rw [e]; simp)
    unfold IsDigit at this
    exact absurd this.1 (by decide)
  rw [h4] at k4
  split at k4 <;> split at k4
  · have := (List.cons.inj k4).2; subst this; omega
  · exact absurd k4.symm (hd45 e k1 d)
  · exact absurd k4 (hd45 d h1 e)
  · subst k4; omega

/-- The bytes of a numeral are digits and minus signs. -/
theorem numeral_bytes {s : List UInt8} {n : Int} (h : IsNumeral s n) : s ≠ [] ∧ ∀ c ∈ s, c = 45 ∨ IsDigit c := by
  obtain ⟨d, h1, h2, _, _, h4⟩ := h
  rw [h4]
  split
  · refine ⟨by simp, ?_⟩
    intro c hc
    rcases List.mem_cons.1 hc with rfl | hc
    · exact .inl rfl
    · exact .inr (h1 c hc)
  · exact ⟨h2, fun c hc => .inr (h1 c hc)⟩

theorem numeral_not_mem {s : List UInt8} {n : Int} (h : IsNumeral s n) {c : UInt8} (hc : c ≠ 45) (hd : ¬ IsDigit c) : c ∉ s :=
  fun hm => ((numeral_bytes h).2 c hm).elim hc hd

theorem not_digit_32 : ¬ IsDigit 32 := by unfold IsDigit; decide
theorem not_digit_44 : ¬ IsDigit 44 := by unfold IsDigit; decide

theorem numeral_not_space {c : UInt8} (h : c = 45 ∨ IsDigit c) : isspace c = false := by
  rcases h with rfl | h
  · decide
  · unfold IsDigit at h
    cases hs : isspace c with
    | false => rfl
    | true =>
      simp [isspace, UInt8.le_iff_toNat_le, ← UInt8.toNat_inj] at hs
      omega

theorem foldl_numbers (ns : List Int) (acc : List UInt8) :
    ns.foldl (fun oss d => oss ++ (decimalInt d ++ [32])) acc = acc ++ ns.flatMap fun d => decimalInt d ++ [32] := by
  induction ns generalizing acc with
  | nil => simp
  | cons n ns ih => rw [List.foldl_cons, ih, List.flatMap_cons, List.append_assoc]

theorem flat_joined (n : Int) (ns : List Int) :
    ((n :: ns).flatMap fun d => decimalInt d ++ [32]) = joined [32] ((n :: ns).map decimalInt) ++ [32] := by
  induction ns generalizing n with
  | nil => simp [joined]
  | cons m ns ih =>
    rw [List.flatMap_cons, ih m]
    simp only [List.map_cons, joined, List.append_assoc]

theorem joined_last (n : Int) (ns : List Int) : ∃ x c, joined [32] ((n :: ns).map decimalInt) = x ++ [c] ∧ (c = 45 ∨ IsDigit c) := by
  induction ns generalizing n with
  | nil =>
    obtain ⟨h1, h2⟩ := numeral_bytes (decimalInt_numeral n)
    refine ⟨(decimalInt n).dropLast, (decimalInt n).getLast h1, ?_, h2 _ (List.getLast_mem h1)⟩
    simp only [List.map_cons, List.map_nil, joined]
    exact (List.dropLast_append_getLast h1).symm
  | cons m ns ih =>
    obtain ⟨x, c, e, h⟩ := ih m
    refine ⟨decimalInt n ++ [32] ++ x, c, ?_, h⟩
    simp only [List.map_cons, joined] at e ⊢
    rw [e]; simp only [List.append_assoc]

theorem rtrim_numbers (ns : List Int) :
    rtrim (ns.flatMap fun d => decimalInt d ++ [32]) = joined [32] (ns.map decimalInt) := by
  cases ns with
  | nil => decide
  | cons n ns =>
    obtain ⟨x, c, e, h⟩ := joined_last n ns
    rw [flat_joined, e, rtrim_eq]
    simp [numeral_not_space h, show isspace 32 = true by decide]

/-- **C176 (text).** `fmt::format("{}", x)` of a `Dim`, `Stride`, `Count` or `Offset` of any rank is its name and in braces its
numbers, with single spaces between them; of a `Range`, its two bounds with a comma and a space.  Every number is written as
its usual decimal numeral. -/
theorem C176_text (k : ShapeKind) (ns : List Int) :
    (∃ ss : List (List UInt8), List.Forall₂ IsNumeral ss ns ∧ fmtShape k ns = braced (shapeName k) (joined [32] ss)) ∧
    ∀ a b : Int, ∃ s t, IsNumeral s a ∧ IsNumeral t b ∧ fmtRange a b = braced "Range".toList (joined [44, 32] [s, t]) := by
  constructor
  · refine ⟨ns.map decimalInt, ?_, ?_⟩
    · induction ns with
      | nil => exact .nil
      | cons n ns ih => exact .cons (decimalInt_numeral n) ih
    · unfold fmtShape braced
      rw [foldl_numbers, List.nil_append, rtrim_numbers]
      cases k <;> rfl
  · intro a b
    refine ⟨_, _, decimalInt_numeral a, decimalInt_numeral b, ?_⟩
    simp [fmtRange, braced, joined, ascii]

/-- A separator that does not occur in what is before it. -/
theorem sep_inj {s : UInt8} {x y r r' : List UInt8} (hx : s ∉ x) (hy : s ∉ y) (h : x ++ s :: r = y ++ s :: r') :
    x = y ∧ r = r' := by
  induction x generalizing y with
  | nil => cases y with
    | nil => exact ⟨rfl, (List.cons.inj h).2⟩
    | cons a y => exact absurd (List.cons.inj h).1 (fun e => hy (by rw [e]; simp))
  | cons a x ih => cases y with
    | nil => exact absurd (List.cons.inj h).1 (fun e => hx (by rw [e]; simp))
    | cons b y =>
      obtain ⟨h1, h2⟩ := List.cons.inj h
      obtain ⟨h3, h4⟩ := ih (fun m => hx (by simp [m])) (fun m => hy (by simp [m])) h2
      exact ⟨by rw [h1, h3], h4⟩

theorem joined_inj : ∀ {ns ms : List Int}, joined [32] (ns.map decimalInt) = joined [32] (ms.map decimalInt) → ns = ms := by
  have hflat : ∀ {ns ms : List Int}, (ns.flatMap fun d => decimalInt d ++ [32]) = (ms.flatMap fun d => decimalInt d ++ [32]) →
      ns = ms := by
    intro ns
    induction ns with
    | nil =>
      intro ms h
      cases ms with
      | nil => rfl
      | cons m ms => simp at h
    | cons n ns ih =>
      intro ms h
      cases ms with
      | nil => simp at h
      | cons m ms =>
        simp only [List.flatMap_cons, List.append_assoc, List.cons_append, List.nil_append] at h
        obtain ⟨h1, h2⟩ := sep_inj (numeral_not_mem (decimalInt_numeral n) (by decide) not_digit_32)
          (numeral_not_mem (decimalInt_numeral m) (by decide) not_digit_32) h
        rw [ih h2, numeral_inj (decimalInt_numeral n) (h1 ▸ decimalInt_numeral m)]
  intro ns ms h
  cases ns with
  | nil => cases ms with
    | nil => rfl
    | cons m ms =>
      obtain ⟨x, c, e, _⟩ := joined_last m ms
      rw [e] at h
      simp [joined] at h
  | cons n ns => cases ms with
    | nil =>
      obtain ⟨x, c, e, _⟩ := joined_last n ns
      rw [e] at h
      simp [joined] at h
    | cons m ms => exact hflat (by rw [flat_joined, flat_joined, h])

/-- **C176 (different texts).** The text tells the kind and the numbers: two lists have the same text only if they are the
same kind of list of the same numbers, two ranges only if they are the same range, and no list has the text of a range. -/
theorem C176_injective (k k' : ShapeKind) (ns ns' : List Int) (a b a' b' : Int) :
    (fmtShape k ns = fmtShape k' ns' ↔ k = k' ∧ ns = ns') ∧
    (fmtRange a b = fmtRange a' b' ↔ a = a' ∧ b = b') ∧ fmtShape k ns ≠ fmtRange a b := by
  have hw : ∀ k : ShapeKind, (123 : UInt8) ∉ k.word := by intro k; cases k <;> decide
  refine ⟨⟨?_, ?_⟩, ⟨?_, ?_⟩, ?_⟩
  · intro h
    unfold fmtShape at h
    rw [foldl_numbers, foldl_numbers, List.nil_append, List.nil_append, rtrim_numbers, rtrim_numbers] at h
    simp only [List.append_assoc, List.cons_append, List.nil_append] at h
    obtain ⟨h1, h2⟩ := sep_inj (hw k) (hw k') h
    refine ⟨?_, joined_inj (List.append_cancel_right h2)⟩
    cases k <;> cases k' <;> first
      | rfl
      | exact absurd h1 (by decide)
  · rintro ⟨rfl, rfl⟩; rfl
  · intro h
    unfold fmtRange at h
    simp only [List.append_assoc] at h
    have h := List.append_cancel_left h
    change decimalInt a ++ 44 :: (32 :: (decimalInt b ++ [125])) = decimalInt a' ++ 44 :: (32 :: (decimalInt b' ++ [125])) at h
    obtain ⟨h1, h2⟩ := sep_inj (numeral_not_mem (decimalInt_numeral a) (by decide) not_digit_44)
      (numeral_not_mem (decimalInt_numeral a') (by decide) not_digit_44) h
    have h3 := List.append_cancel_right (List.cons.inj h2).2
    exact ⟨numeral_inj (decimalInt_numeral a) (h1 ▸ decimalInt_numeral a'),
      numeral_inj (decimalInt_numeral b) (h3 ▸ decimalInt_numeral b')⟩
  · rintro ⟨rfl, rfl⟩; rfl
  · intro h
    unfold fmtShape fmtRange at h
    rw [show ascii ['R', 'a', 'n', 'g', 'e', '{'] = ascii ['R', 'a', 'n', 'g', 'e'] ++ [123] from rfl] at h
    simp only [List.append_assoc, List.cons_append, List.nil_append] at h
    have := (sep_inj (hw k) (by decide) h).1
    cases k <;> exact absurd this (by decide)

/-- **C176 (format specifications).** With anything between the colon and the closing brace the format is refused, without it is
accepted. -/
theorem C176_spec (spec rest : List UInt8) (h : (125 : UInt8) ∉ spec) :
    ((shapeParse (spec ++ 125 :: rest)).isError = true ↔ spec ≠ []) ∧ (spec = [] → shapeParse (spec ++ 125 :: rest) = .ok ()) := by
  cases spec with
  | nil => simp [shapeParse, Outcome.isError]
  | cons c cs =>
    have hc : c ≠ 125 := fun e => h (by rw [e]; simp)
    simp [shapeParse, Outcome.isError, hc]

/-- `Dim{3 -1 20}`, `Stride{}` and `Range{-2, 5}`. -/
example : fmtShape .dim [3, -1, 20] = ascii "Dim{3 -1 20}".toList ∧ fmtShape .stride [] = ascii "Stride{}".toList ∧
    fmtRange (-2) 5 = ascii "Range{-2, 5}".toList ∧ IsNumeral (ascii ['-', '2', '0']) (-20) ∧
    (shapeParse (ascii ['x', '}'])).isError = true :=
  ⟨by decide +kernel, by decide +kernel, by decide +kernel,
    ⟨ascii ['2', '0'], by intro c hc; simp [ascii] at hc; rcases hc with rfl | rfl <;> unfold IsDigit <;> decide, by decide, by decide, by decide, by decide⟩, by decide⟩

end Einsums.Props
