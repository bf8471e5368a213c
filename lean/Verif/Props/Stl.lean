import Verif.Spec.Stl
import Mathlib.Data.List.Basic
import Mathlib.Data.List.TakeWhile
import Mathlib.Data.Nat.Digits.Lemmas
import Mathlib.Data.Nat.Digits.Defs
import Mathlib.Data.Nat.Bitwise
import Mathlib.Tactic.Ring
/-
Utilities: circular buffer (C36), trimming (C38), aligned allocation (C39), ndigits (C59).
-/
namespace Einsums.Props
open Spec Model

variable {α : Type}

/-! ### C36: circular buffer -/

/-- The buffer holds the queue `q` from slot `tail` on. -/
structure HoldsQueue (n : Nat) (b : CircularBuffer α) (q : List α) : Prop where
  len : b.buffer.length = n
  max : b.maxSize = n
  tail : b.tail < n
  qlen : q.length ≤ n
  head : b.head = (b.tail + q.length) % n
  full : b.full = true ↔ q.length = n
  slots : ∀ k (h : k < q.length), b.buffer[(b.tail + k) % n]? = some (some q[k])

theorem mod_wrap {a n : Nat} (h : a < 2 * n) : a % n = if a < n then a else a - n := by
  split
  · exact Nat.mod_eq_of_lt (by assumption)
  · rw [Nat.mod_eq_sub_mod (by omega), Nat.mod_eq_of_lt (by omega)]

theorem put_queue {n : Nat} {b : CircularBuffer α} {q : List α} (h : HoldsQueue n b q) (v : α) :
    ∃ b', b.put v = .ok b' ∧ HoldsQueue n b' (lastN n (q ++ [v])) ∧
      b'.tail = if q.length = n then (b.tail + 1) % n else b.tail := by
  have hn : 0 < n := by have := h.tail; omega
  have ht := h.tail
  have hq := h.qlen
  have hh : b.head < n := by rw [h.head]; exact Nat.mod_lt _ hn
  unfold CircularBuffer.put
  rw [if_pos (by rw [h.len]; exact hh)]
  simp only [h.max]
  rw [if_neg (by omega)]
  refine ⟨_, rfl, ?_, ?_⟩
  · by_cases c : q.length = n
    · have hf : b.full = true := h.full.2 c
      obtain ⟨a, q', rfl⟩ : ∃ a q', q = a :: q' := by
        cases q with
        | nil => simp at c; omega
        | cons a q' => exact ⟨a, q', rfl⟩
      have e : lastN n (a :: q' ++ [v]) = q' ++ [v] := by
        unfold lastN
        have : (a :: q' ++ [v]).length - n = 1 := by simp at c ⊢; omega
        rw [this]; rfl
      have hhead : b.head = b.tail := by
        rw [h.head, c, Nat.add_mod_right, Nat.mod_eq_of_lt ht]
      rw [e]
      simp only [List.length_cons] at c
      refine ⟨by simp [h.len], rfl, by simp only [hf]; exact Nat.mod_lt _ hn, by simp; omega, ?_, ?_, ?_⟩
      · simp only [hf, if_true, List.length_append, List.length_singleton, c]
        rw [Nat.add_mod_right, Nat.mod_mod, hhead]
      · simp [hf, hhead, c]
      · intro k hk
        simp only [List.length_append, List.length_singleton] at hk
        simp only [hf, if_true, hhead]
        rw [Nat.mod_add_mod]
        by_cases ck : k < q'.length
        · have hne : b.tail ≠ (b.tail + 1 + k) % n := by
            rw [mod_wrap (by omega)]; split <;> omega
          rw [List.getElem?_set_ne hne, List.getElem_append_left ck]
          have := h.slots (k + 1) (by simp; omega)
          rw [show b.tail + (k + 1) = b.tail + 1 + k by omega] at this
          exact this
        · have hk' : k = q'.length := by omega
          have e2 : (b.tail + 1 + k) % n = b.tail := by
            rw [show b.tail + 1 + k = b.tail + n by omega, Nat.add_mod_right, Nat.mod_eq_of_lt ht]
          rw [e2, List.getElem?_set_self (by rw [h.len]; exact ht)]
          simp [hk']
    · have hf : b.full = false := by
        cases hb : b.full
        · rfl
        · exact absurd (h.full.1 hb) c
      have e : lastN n (q ++ [v]) = q ++ [v] := by
        unfold lastN
        have : (q ++ [v]).length - n = 0 := by simp; omega
        rw [this]; rfl
      rw [e]
      refine ⟨by simp [h.len], rfl, by simp only [hf]; exact ht, by simp; omega, ?_, ?_, ?_⟩
      · simp only [hf, List.length_append, List.length_singleton, h.head]
        rw [Nat.mod_add_mod]; simp [Nat.add_assoc]
      · simp only [hf, beq_iff_eq, List.length_append, List.length_singleton]
        rw [h.head, Nat.mod_add_mod]
        rw [mod_wrap (by omega)]
        constructor
        · intro hx
          split at hx <;> simp at hx <;> omega
        · intro hx
          split <;> simp <;> omega
      · intro k hk
        simp only [List.length_append, List.length_singleton] at hk
        simp only [hf]
        by_cases ck : k < q.length
        · have hne : b.head ≠ (b.tail + k) % n := by
            rw [h.head, mod_wrap (by omega), mod_wrap (by omega)]
            split <;> split <;> omega
          simp only [Bool.false_eq_true, if_false]
          rw [List.getElem?_set_ne hne, List.getElem_append_left ck]
          exact h.slots k ck
        · have hk' : k = q.length := by omega
          simp only [Bool.false_eq_true, if_false]
          subst hk'
          rw [← h.head, List.getElem?_set_self (by rw [h.len]; exact hh)]
          simp
  · by_cases c : q.length = n
    · simp [h.full.2 c, c]
    · have hf : b.full = false := by
        cases hb : b.full
        · rfl
        · exact absurd (h.full.1 hb) c
      simp [hf, c]

theorem reset_queue {n : Nat} {b : CircularBuffer α} {q : List α} (h : HoldsQueue n b q) :
    HoldsQueue n b.reset [] := by
  have ht := h.tail
  refine ⟨h.len, h.max, h.tail, by simp, ?_, ?_, by simp⟩
  · simp [CircularBuffer.reset, Nat.mod_eq_of_lt ht]
  · simp [CircularBuffer.reset]; omega

theorem size_queue {n : Nat} {b : CircularBuffer α} {q : List α} (h : HoldsQueue n b q) :
    b.size = q.length ∧ (b.empty = true ↔ q = []) := by
  have ht := h.tail
  have hq := h.qlen
  unfold CircularBuffer.size CircularBuffer.empty
  by_cases c : q.length = n
  · have hf := h.full.2 c
    constructor
    · simp [hf, h.max, c]
    · simp only [hf]
      constructor
      · intro hx; simp at hx
      · intro hx; rw [hx] at c; simp at c; omega
  · have hf : b.full = false := by
      cases hb : b.full
      · rfl
      · exact absurd (h.full.1 hb) c
    have hh := h.head
    rw [mod_wrap (by omega)] at hh
    constructor
    · simp only [hf, h.max]
      split at hh
      · rw [if_pos (by rfl), if_pos (by omega)]; omega
      · rw [if_pos (by rfl), if_neg (by omega)]; omega
    · simp only [hf]
      rw [← List.length_eq_zero_iff]
      constructor
      · intro hx
        simp at hx
        split at hh <;> omega
      · intro hx
        simp
        split at hh <;> omega

theorem lastN_snoc (n : Nat) (q : List α) (v : α) : lastN n (lastN n q ++ [v]) = lastN n (q ++ [v]) := by
  unfold lastN
  rw [← List.drop_append_of_le_length (by omega), List.drop_drop]
  congr 1
  simp
  omega

theorem run_queue {n : Nat} (ops : List (BufferOp α)) : ∀ (b : CircularBuffer α) (q0 : List α),
    HoldsQueue n b (lastN n q0) → ∃ b', runBuffer ops b = .ok b' ∧
      HoldsQueue n b' (lastN n (ops.foldl (fun q op => match op with
        | .put v => q ++ [v]
        | .reset => []) q0)) := by
  induction ops with
  | nil => intro b q0 h; exact ⟨b, rfl, h⟩
  | cons op ops ih =>
    intro b q0 h
    cases op with
    | put v =>
      obtain ⟨b', h1, h2, _⟩ := put_queue h v
      rw [lastN_snoc] at h2
      obtain ⟨b'', h3, h4⟩ := ih b' (q0 ++ [v]) h2
      exact ⟨b'', by rw [runBuffer, h1, Outcome.ok_bind, h3], h4⟩
    | reset =>
      obtain ⟨b'', h3, h4⟩ := ih b.reset [] (by simpa [lastN] using reset_queue h)
      exact ⟨b'', h3, h4⟩

theorem queue_new {n : Nat} (hn : 0 < n) : HoldsQueue n (CircularBuffer.mk' n : CircularBuffer α) [] :=
  ⟨by simp [CircularBuffer.mk'], rfl, hn, by simp, by simp [CircularBuffer.mk'],
    by simp [CircularBuffer.mk']; omega, by simp⟩

/-- **C36 (bounded queue).** After any sequence of `put` and `reset` on a buffer of capacity `n ≥ 1`, the buffer
retains the last `n` of the values put since the last reset: `size`, `empty`, `full` and `capacity` are those of this
queue, and its elements are found by `[]` in consecutive slots, in order, modulo the capacity. -/
theorem C36_queue (n : Nat) (hn : 0 < n) (ops : List (BufferOp α)) :
    ∃ b, runBuffer ops (CircularBuffer.mk' n) = .ok b ∧
      b.size = (lastN n (putsSinceReset ops)).length ∧
      (b.empty = true ↔ lastN n (putsSinceReset ops) = []) ∧
      (b.full = true ↔ (lastN n (putsSinceReset ops)).length = n) ∧
      b.maxSize = n ∧
      ∃ start < n, ∀ k (h : k < (lastN n (putsSinceReset ops)).length),
        b.get (((start + k) % n : Nat) : Int) = .ok (lastN n (putsSinceReset ops))[k] := by
  obtain ⟨b, h1, h2⟩ := run_queue ops (CircularBuffer.mk' n) [] (by simpa [lastN] using queue_new hn)
  refine ⟨b, h1, (size_queue h2).1, (size_queue h2).2, h2.full, h2.max, b.tail, h2.tail, ?_⟩
  intro k hk
  unfold CircularBuffer.get
  rw [if_pos (by omega), Int.toNat_natCast, h2.slots k hk]
  rfl

/-- **C36 (where a value is).** Without resets, the `p`-th value put is in slot `p % n` until `n` further values are put;
in particular `size()` is the number of puts, at most `n`. -/
theorem C36_slots (n : Nat) (hn : 0 < n) (xs : List α) :
    ∃ b, runBuffer (xs.map .put) (CircularBuffer.mk' n) = .ok b ∧ b.size = min xs.length n ∧
      ∀ p (h : p < xs.length), xs.length ≤ p + n → b.get ((p % n : Nat) : Int) = .ok xs[p] := by
  have key : ∀ (xs ys : List α) (b : CircularBuffer α), HoldsQueue n b (lastN n ys) →
      b.tail = (ys.length - n) % n →
      ∃ b', runBuffer (xs.map .put) b = .ok b' ∧ HoldsQueue n b' (lastN n (ys ++ xs)) ∧
        b'.tail = ((ys ++ xs).length - n) % n := by
    intro xs
    induction xs with
    | nil => intro ys b h ht; exact ⟨b, rfl, by simpa using h, by simpa using ht⟩
    | cons x xs ih =>
      intro ys b h ht
      obtain ⟨b', h1, h2, h3⟩ := put_queue h x
      rw [lastN_snoc] at h2
      obtain ⟨b'', h4, h5, h6⟩ := ih (ys ++ [x]) b' h2 (by
        have hl : (lastN n ys).length = min ys.length n := by simp [lastN]; omega
        rw [h3, hl, ht]
        by_cases c : n ≤ ys.length
        · rw [if_pos (by omega), Nat.mod_add_mod]
          congr 1
          simp
          omega
        · rw [if_neg (by omega)]
          congr 1
          simp
          omega)
      exact ⟨b'', by simp only [List.map_cons, runBuffer]; rw [h1, Outcome.ok_bind, h4], by simpa using h5,
        by simpa using h6⟩
  obtain ⟨b, h1, h2, h3⟩ := key xs [] (CircularBuffer.mk' n) (by simpa [lastN] using queue_new hn)
    (by simp [CircularBuffer.mk'])
  simp only [List.nil_append] at h2 h3
  have hl : (lastN n xs).length = min xs.length n := by simp [lastN]; omega
  refine ⟨b, h1, by rw [(size_queue h2).1, hl], ?_⟩
  intro p hp hpn
  have := h2.slots (p - (xs.length - n)) (by rw [hl]; omega)
  rw [h3, Nat.mod_add_mod, show xs.length - n + (p - (xs.length - n)) = p by omega] at this
  unfold CircularBuffer.get
  rw [if_pos (by omega), Int.toNat_natCast, this]
  simp only [lastN, List.getElem_drop]
  congr 2
  omega

/-- **C36 (refuted: `[0]` is not the oldest value).** After one put more than the capacity, slot 0 holds the newest. -/
theorem C36_index_refuted : ∃ b : CircularBuffer Nat,
    runBuffer [.put 1, .put 2, .put 3] (CircularBuffer.mk' 2) = .ok b ∧ b.size = 2 ∧ b.get 0 = .ok 3 ∧ b.get 1 = .ok 2 :=
  ⟨_, rfl, by decide, by decide, by decide⟩

example : ∃ b : CircularBuffer Nat, runBuffer [.put 1, .put 2, .reset, .put 3, .put 4, .put 5, .put 6] (CircularBuffer.mk' 3)
    = .ok b ∧ b.size = 3 ∧ b.full = true ∧
    lastN 3 (putsSinceReset [.put 1, .put 2, .reset, .put 3, .put 4, .put 5, .put 6]) = [4, 5, 6] :=
  ⟨_, rfl, by decide, by decide, by decide⟩

/-! ### C38: trimming -/

theorem ltrim_eq (s : List UInt8) : ltrim s = s.dropWhile isspace := by
  unfold ltrim
  induction s with
  | nil => rfl
  | cons c s ih =>
    rw [List.findIdx_cons]
    cases h : isspace c
    · simp [h]
    · simp [h, ih]

theorem rtrim_eq (s : List UInt8) : rtrim s = (s.reverse.dropWhile isspace).reverse := by
  unfold rtrim
  have := ltrim_eq s.reverse
  unfold ltrim at this
  rw [← this, List.reverse_drop, List.reverse_reverse, List.length_reverse]

/-- A decomposition as in `IsTrim` is unique. -/
theorem isTrim_unique {f : UInt8 → Bool} {s t t' : List UInt8} (h : IsTrim f s t) (h' : IsTrim f s t') : t = t' := by
  obtain ⟨a, b, e, ha, hb, h1, h2⟩ := h
  obtain ⟨a', b', e', ha', hb', h1', h2'⟩ := h'
  have key : ∀ a b t : List UInt8, (∀ c ∈ a, f c = true) → (∀ c ∈ b, f c = true) →
      (∀ c, t.head? = some c → f c = false) → (∀ c, t.getLast? = some c → f c = false) →
      (((a ++ t ++ b).dropWhile f).reverse.dropWhile f).reverse = t := by
    intro a b t ha hb h1 h2
    rw [List.append_assoc, List.dropWhile_append_of_pos ha]
    cases t with
    | nil =>
      have : (([] : List UInt8) ++ b).dropWhile f = [] := by
        rw [List.nil_append, List.dropWhile_eq_nil_iff]; exact hb
      rw [this]; rfl
    | cons c t =>
      have hc := h1 c rfl
      rw [List.cons_append, List.dropWhile_cons_of_neg (by simp [hc]), ← List.cons_append, List.reverse_append,
        List.dropWhile_append_of_pos (by intro x hx; exact hb x (by simpa using hx))]
      have : ((c :: t).reverse).dropWhile f = (c :: t).reverse := by
        cases e : (c :: t).reverse with
        | nil => simp at e
        | cons d r =>
          have hd : (c :: t).getLast? = some d := by
            rw [← List.head?_reverse, e]; rfl
          rw [List.dropWhile_cons_of_neg (by simp [h2 d hd])]
      rw [this, List.reverse_reverse]
  rw [← key a b t ha hb h1 h2, ← e, e', key a' b' t' ha' hb' h1' h2']

theorem dropWhile_head {f : UInt8 → Bool} (s : List UInt8) {c : UInt8} (h : (s.dropWhile f).head? = some c) :
    f c = false := by
  have := List.head?_dropWhile_not f s
  rw [h] at this
  simpa using this

/-- **C38.** `trim_copy(s)` is the string without leading and trailing white space, and nothing else is removed. -/
theorem C38_trim (s t : List UInt8) : trim s = t ↔ IsTrim isspace s t := by
  have ok : IsTrim isspace s (trim s) := by
    unfold trim
    rw [ltrim_eq, rtrim_eq]
    set r := (s.reverse.dropWhile isspace).reverse with hr
    refine ⟨r.takeWhile isspace, (s.reverse.takeWhile isspace).reverse, ?_, ?_, ?_, ?_, ?_⟩
    · rw [List.takeWhile_append_dropWhile, hr, ← List.reverse_append, List.takeWhile_append_dropWhile, List.reverse_reverse]
    · intro c hc
      exact List.mem_takeWhile_imp hc
    · intro c hc
      rw [List.mem_reverse] at hc
      exact List.mem_takeWhile_imp hc
    · intro c hc
      exact dropWhile_head r hc
    · intro c hc
      have h1 : r.getLast? = some c := by
        obtain ⟨u, hu⟩ := List.dropWhile_suffix (l := r) isspace
        rw [← hu, List.getLast?_append, hc]
        rfl
      rw [hr, List.getLast?_reverse] at h1
      exact dropWhile_head _ h1
  constructor
  · rintro rfl; exact ok
  · intro h; exact isTrim_unique ok h

/-- **C38 (once is enough).** -/
theorem C38_idempotent (s : List UInt8) : trim (trim s) = trim s := by
  rw [C38_trim]
  obtain ⟨a, b, _, _, _, h1, h2⟩ := (C38_trim s (trim s)).1 rfl
  exact ⟨[], [], by simp, by simp, by simp, h1, h2⟩

/-- **C38 (one side).** `ltrim_copy` and `rtrim_copy` remove exactly the white space at their end. -/
theorem C38_sides (s : List UInt8) :
    (∃ a, s = a ++ ltrim s ∧ (∀ c ∈ a, isspace c = true) ∧ ∀ c, (ltrim s).head? = some c → isspace c = false) ∧
    (∃ b, s = rtrim s ++ b ∧ (∀ c ∈ b, isspace c = true) ∧ ∀ c, (rtrim s).getLast? = some c → isspace c = false) := by
  rw [ltrim_eq, rtrim_eq]
  refine ⟨⟨s.takeWhile isspace, by rw [List.takeWhile_append_dropWhile], fun c hc => List.mem_takeWhile_imp hc,
    fun c hc => dropWhile_head s hc⟩, (s.reverse.takeWhile isspace).reverse, ?_, ?_, ?_⟩
  · rw [← List.reverse_append, List.takeWhile_append_dropWhile, List.reverse_reverse]
  · intro c hc
    rw [List.mem_reverse] at hc
    exact List.mem_takeWhile_imp hc
  · intro c hc
    rw [List.getLast?_reverse] at hc
    exact dropWhile_head _ hc

set_option maxRecDepth 100000 in
/-- **C38 (white space).** The six white-space bytes. -/
theorem C38_space (c : UInt8) : isspace c = true ↔ c ∈ [32, 9, 10, 11, 12, 13] := by
  have h : ∀ i : Fin 256, isspace (UInt8.ofNat i) = true ↔ UInt8.ofNat i ∈ [32, 9, 10, 11, 12, 13] := by decide
  have := h ⟨c.toNat, c.toNat_lt⟩
  simpa using this

example : trim [32, 9, 97, 32, 98, 10] = [97, 32, 98] ∧ trim [32, 32] = [] := by decide

/-! ### C39: aligned allocation -/

/-- **C39.** For every number of elements from 1 up to the allocator's `max_size()`, the block requested from the system
holds all the elements, is a multiple of the alignment, and exceeds the need by at most one alignment; the call returns
it when the system grants it and throws otherwise. -/
theorem C39_request (avail : Nat → Bool) (k elem n : Nat) (hk : 3 ≤ k) (he : 0 < elem) (hn : 0 < n)
    (hm : n ≤ allocatorMaxSize (2 ^ k) elem) :
    ∃ s, n * elem < s ∧ s ≤ n * elem + 2 ^ k ∧ 2 ^ k ∣ s ∧ s < 2 ^ 64 ∧
      allocatorAllocate avail (2 ^ k) elem n = if avail s then .ok s else .error "std::bad_alloc" := by
  have h8 : 8 ≤ 2 ^ k := by
    calc 8 = 2 ^ 3 := rfl
      _ ≤ 2 ^ k := Nat.pow_le_pow_right (by omega) hk
  have hne : n * elem ≤ sizeMax - 1 - 2 ^ k := by
    calc n * elem ≤ allocatorMaxSize (2 ^ k) elem * elem := Nat.mul_le_mul_right _ hm
      _ ≤ sizeMax - 1 - 2 ^ k := Nat.div_mul_le_self _ _
  have hpos : 0 < n * elem := Nat.mul_pos hn he
  have hsm : sizeMax = 2 ^ 64 := rfl
  have hlt := Nat.mod_lt (n * elem) (show 0 < 2 ^ k by omega)
  have hdm := Nat.div_add_mod (n * elem) (2 ^ k)
  have hs : n * elem + (2 ^ k - n * elem % 2 ^ k) = 2 ^ k * (n * elem / 2 ^ k + 1) := by
    rw [Nat.mul_add, Nat.mul_one]; omega
  refine ⟨n * elem + (2 ^ k - n * elem % 2 ^ k), by omega, by omega, ⟨_, hs⟩, by omega, ?_⟩
  unfold allocatorAllocate allocateAligned
  rw [if_neg (by
    rw [Nat.and_two_pow_sub_one_eq_mod, Nat.mod_self]
    omega), Nat.mod_eq_of_lt (a := n * elem) (by omega), if_neg (by omega)]
  simp only
  rw [Nat.mod_eq_of_lt (by omega)]
  split <;> rfl

/-- **C39 (zero elements).** A request for no elements throws. -/
theorem C39_zero (avail : Nat → Bool) (k elem : Nat) (hk : 3 ≤ k) :
    allocatorAllocate avail (2 ^ k) elem 0 = .error "std::bad_alloc" := by
  have h8 : 8 ≤ 2 ^ k := by
    calc 8 = 2 ^ 3 := rfl
      _ ≤ 2 ^ k := Nat.pow_le_pow_right (by omega) hk
  unfold allocatorAllocate allocateAligned
  rw [if_neg (by rw [Nat.and_two_pow_sub_one_eq_mod, Nat.mod_self]; omega)]
  simp

/-- **C39 (refuted: the padding is not minimal).** 64 bytes already aligned to 64 are padded to 128. -/
theorem C39_minimal_refuted : allocatorAllocate (fun _ => true) 64 8 8 = .ok 128 := by decide

/-- **C39 (refuted above `max_size()`).** A direct request above `max_size()` wraps around and is granted a block that is
too small; `std::vector` never makes one. -/
theorem C39_overflow_refuted : allocatorAllocate (fun _ => true) 64 8 (2 ^ 61 + 1) = .ok 64 := by decide

example : (3 : Nat) ≤ 6 ∧ 10 ≤ allocatorMaxSize (2 ^ 6) 8 ∧ allocatorAllocate (fun _ => true) (2 ^ 6) 8 10 = .ok 128 := by
  decide

/-! ### C59: ndigits -/

theorem ndigitsLoop_eq (n : Nat) : ∀ d, ndigitsLoop n d = d + (Nat.digits 10 n).length ∧
    ndigitsLoop (-(n : Int)) d = d + (Nat.digits 10 n).length := by
  induction n using Nat.strong_induction_on with
  | _ n ih =>
    intro d
    by_cases h : n = 0
    · subst h
      constructor <;> (unfold ndigitsLoop; simp)
    · have hd := Nat.digits_def' (b := 10) (by omega) (Nat.pos_of_ne_zero h)
      have := ih (n / 10) (by omega) (d + 1)
      constructor
      · rw [ndigitsLoop, if_neg (by omega), show Int.tdiv (n : Int) 10 = ((n / 10 : Nat) : Int) by rfl, this.1, hd]
        simp; omega
      · rw [ndigitsLoop, if_neg (by omega), Int.neg_tdiv,
          show Int.tdiv (n : Int) 10 = ((n / 10 : Nat) : Int) by rfl, this.2, hd]
        simp; omega

/-- **C59 (partial).** For every number other than zero, `ndigits` is the number of decimal digits, plus one for the sign
of a negative number.  Missing: zero, see `C59_zero_refuted`. -/
theorem C59_ndigits_partial (n : Nat) (h : n ≠ 0) :
    10 ^ (ndigits n - 1) ≤ n ∧ n < 10 ^ ndigits n ∧ ndigits (-(n : Int)) = ndigits n + 1 := by
  have e : ndigits n = (Nat.digits 10 n).length := by
    unfold ndigits
    rw [(ndigitsLoop_eq n _).1, if_neg (by omega)]; simp
  refine ⟨?_, ?_, ?_⟩
  · rw [e]
    have := Nat.base_pow_length_digits_le 10 n (by omega) h
    have hl : (Nat.digits 10 n).length ≠ 0 := by simpa [Nat.digits_ne_nil_iff_ne_zero] using h
    obtain ⟨m, hm⟩ := Nat.exists_eq_succ_of_ne_zero hl
    rw [hm, Nat.pow_succ] at this
    rw [hm]
    simp
    omega
  · rw [e]; exact Nat.lt_base_pow_length_digits (by omega)
  · rw [e]
    unfold ndigits
    rw [(ndigitsLoop_eq n _).2, if_pos (by omega)]; omega

/-- **C59 (refuted: zero).** The digit "0" is not counted. -/
theorem C59_zero_refuted : ndigits 0 = 0 := by
  unfold ndigits ndigitsLoop; simp

example : ndigits 12345 = 5 ∧ ndigits (-10) = 3 := by
  constructor <;> (simp [ndigits, ndigitsLoop])

end Einsums.Props
