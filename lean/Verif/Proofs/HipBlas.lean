import Mathlib.Tactic.FinCases
import Mathlib.Tactic.Ring
import Verif.Model.HipBlas
import Verif.Spec.HipBlas
import Verif.Proofs.Gpu
import Verif.Proofs.PyBlas
/-
Proofs for Props/HipBlas.lean.
-/
namespace Einsums
open Spec Model

section mem
variable {K : Type}

theorem hostRead_ok {mem : List K} {off n : Nat} (h : off + n ≤ mem.length) :
    ∃ xs, hostRead mem off n = .ok xs ∧ xs.length = n ∧ ∀ p, p < n → xs[p]? = mem[off + p]? := by
  refine ⟨(mem.drop off).take n, by rw [hostRead, if_pos h], by simp; omega, fun p hp => ?_⟩
  rw [List.getElem?_take, if_pos hp, List.getElem?_drop]

theorem hostRead_inv {mem xs : List K} {off n : Nat} (h : hostRead mem off n = .ok xs) :
    off + n ≤ mem.length ∧ xs.length = n := by
  unfold hostRead at h
  split at h
  · injection h with h
    subst h
    simp
    omega
  · exact absurd h (by simp)

theorem hostWrite_ok {mem xs : List K} {off : Nat} (h : off + xs.length ≤ mem.length) :
    ∃ mem', hostWrite mem off xs = .ok mem' ∧ mem'.length = mem.length ∧ (∀ p, p < xs.length → mem'[off + p]? = xs[p]?) ∧
      ∀ q, q < off ∨ off + xs.length ≤ q → mem'[q]? = mem[q]? := by
  refine ⟨_, by rw [hostWrite, if_pos h], by simp; omega, fun p hp => ?_, fun q hq => ?_⟩
  · rw [List.append_assoc, List.getElem?_append_right (by simp), List.getElem?_append_left]
    · congr 1
      simp
      omega
    · simp
      omega
  · rcases hq with hq | hq
    · rw [List.append_assoc, List.getElem?_append_left (by simp; omega), List.getElem?_take, if_pos hq]
    · rw [List.getElem?_append_right (by simp; omega), List.getElem?_drop]
      congr 1
      simp
      omega

theorem hostWrite_inv {mem xs mem' : List K} {off : Nat} (h : hostWrite mem off xs = .ok mem') : off + xs.length ≤ mem.length := by
  unfold hostWrite at h
  split at h
  · assumption
  · exact absurd h (by simp)

theorem intMul_ok {a b : Nat} (h : a * b < 2147483648) : intMul a b = .ok (a * b) := if_pos h

theorem intMul_inv {a b s : Nat} (h : intMul a b = .ok s) : s = a * b := by
  unfold intMul at h
  split at h
  · injection h with h
    exact h.symm
  · exact absurd h (by simp)

/-- A character that names an operation is not the null character. -/
theorem charSel_op {t : Char} (h : t ∈ ['N', 'n', 'T', 't', 'C', 'c']) (x y : Nat) : charSel t x y = x := by
  unfold charSel
  rw [if_pos]
  fin_cases h <;> decide

theorem opTrans_iff {t : Char} : opTrans t = true ↔ Transposes t := by
  unfold opTrans opConj Transposes
  simp
  tauto

theorem opMem_length {conj : K → K} {t : Char} {a : List K} : (opMem conj t a).length = a.length := by
  unfold opMem
  split <;> simp

/-- The elements of `op(A)` in device memory. -/
theorem opMem_get {conj : K → K} {t : Char} {a : List K} {f : Nat → Nat → K} {i j p : Nat}
    (h : a[p]? = some (if Transposes t then f j i else f i j)) : (opMem conj t a)[p]? = some (opAt conj t f i j) := by
  unfold opMem opAt opConj
  by_cases hT : t ∈ ['T', 't']
  · rw [if_pos hT]
    rw [if_pos (by unfold Transposes; simp at hT ⊢; tauto)] at h
    rw [if_neg, h]
    rcases (by simpa using hT : t = 'T' ∨ t = 't') with rfl | rfl <;> decide
  · by_cases hC : t ∈ ['C', 'c']
    · rw [if_neg hT, if_pos hC]
      rw [if_pos (by unfold Transposes; simp at hC ⊢; tauto)] at h
      rw [if_pos, List.getElem?_map, h]
      · rfl
      · rcases (by simpa using hC : t = 'C' ∨ t = 'c') with rfl | rfl <;> decide
    · rw [if_neg hT, if_neg hC]
      rw [if_neg (by unfold Transposes; simp at hT hC ⊢; tauto)] at h
      rw [if_neg, h]
      simp at hC ⊢
      tauto

/-- A function that ends neither normally nor with an exception. -/
theorem isUb_of {α : Type} {x : Outcome α} (h1 : x.isError = false) (h2 : ∀ v, x ≠ .ok v) : x.isUb = true := by
  cases x with
  | ok v => exact absurd rfl (h2 v)
  | error e => simp [Outcome.isError] at h1
  | ub e => rfl

theorem noErr_bind {α β : Type} {x : Outcome α} {f : α → Outcome β} (h1 : x.isError = false)
    (h2 : ∀ v, (f v).isError = false) : (x >>= f).isError = false := by
  cases x with
  | ok v => exact h2 v
  | error e => simp [Outcome.isError] at h1
  | ub e => rfl

theorem intMul_ne {a b : Nat} : (intMul a b).isError = false := by
  unfold intMul
  split <;> rfl

theorem hostRead_ne {mem : List K} {off n : Nat} : (hostRead mem off n).isError = false := by
  unfold hostRead
  split <;> rfl

theorem hostWrite_ne {mem xs : List K} {off : Nat} : (hostWrite mem off xs).isError = false := by
  unfold hostWrite
  split <;> rfl

theorem newDevice_length {junk : Nat → K} {n : Nat} : (newDevice junk n).length = n := by simp [newDevice]

theorem newDevice_get {junk : Nat → K} {n p : Nat} (h : p < n) : (newDevice junk n)[p]? = some (junk p) := by
  simp [newDevice, h]

theorem outBuffer_ok {copied : Bool} {junk : Nat → K} {mem : List K} {off n : Nat} (h : off + n ≤ mem.length) :
    ∃ xs, outBuffer copied junk mem off n = .ok xs ∧ xs.length = n ∧
      ∀ p, p < n → xs[p]? = if copied then mem[off + p]? else some (junk p) := by
  unfold outBuffer
  cases copied
  · exact ⟨_, rfl, newDevice_length, fun p hp => newDevice_get hp⟩
  · exact hostRead_ok h

theorem outBuffer_inv {copied : Bool} {junk : Nat → K} {mem xs : List K} {off n : Nat}
    (h : outBuffer copied junk mem off n = .ok xs) : xs.length = n := by
  unfold outBuffer at h
  cases copied
  · injection h with h
    rw [← h, newDevice_length]
  · exact (hostRead_inv h).2

theorem outBuffer_ne {copied : Bool} {junk : Nat → K} {mem : List K} {off n : Nat} :
    (outBuffer copied junk mem off n).isError = false := by
  unfold outBuffer
  cases copied
  · rfl
  · exact hostRead_ne

/-- A loop of updates that ends normally stays inside the storage. -/
theorem memLoop_inv {β : Type} {p : β → Nat} {g : β → K → Outcome K} : ∀ {l : List β} {mem mem' : List K},
    l.foldlM (fun mem b => memUpd mem (p b) (g b)) mem = .ok mem' →
    mem'.length = mem.length ∧ ∀ b ∈ l, p b < mem.length ∧ ∃ old v, g b old = .ok v
  | [], mem, mem', h => by
    simp at h
    subst h
    simp
  | b :: l, mem, mem', h => by
    rw [List.foldlM_cons] at h
    obtain ⟨mem1, h1, h2⟩ := ok_of_bind h
    obtain ⟨e1, e2⟩ := memLoop_inv h2
    have : mem1.length = mem.length ∧ p b < mem.length ∧ ∃ old v, g b old = .ok v := by
      unfold memUpd at h1
      split at h1
      · rename_i old ho
        obtain ⟨v, h3, h4⟩ := ok_of_bind h1
        injection h4 with h4
        subst h4
        exact ⟨by simp, (List.getElem?_eq_some_iff.1 ho).1, old, v, h3⟩
      · exact absurd h1 (by simp)
    refine ⟨e1.trans this.1, fun b' hb => ?_⟩
    rcases List.mem_cons.1 hb with rfl | hb
    · exact this.2
    · rw [← this.1]
      exact e2 b' hb

theorem memLoop_ne {β : Type} {p : β → Nat} {g : β → K → Outcome K} (hg : ∀ b old, (g b old).isError = false) :
    ∀ {l : List β} {mem : List K}, (l.foldlM (fun mem b => memUpd mem (p b) (g b)) mem).isError = false
  | [], mem => rfl
  | b :: l, mem => by
    rw [List.foldlM_cons]
    refine noErr_bind ?_ fun mem' => memLoop_ne hg
    unfold memUpd
    split
    · exact noErr_bind (hg _ _) fun _ => rfl
    · rfl

theorem sumLoop_inv [Add K] {term : Nat → Outcome K} : ∀ {ls : List Nat} {s r : K}, sumLoop term ls s = .ok r →
    ∀ l ∈ ls, ∃ v, term l = .ok v
  | [], _, _, _ => by simp
  | _ :: _, _, _, h => by
    obtain ⟨v, h1, h2⟩ := ok_of_bind h
    intro l' hl
    rcases List.mem_cons.1 hl with rfl | hl
    · exact ⟨v, h1⟩
    · exact sumLoop_inv h2 l' hl

theorem sumLoop_ne [Add K] {term : Nat → Outcome K} (ht : ∀ l, (term l).isError = false) : ∀ {ls : List Nat} {s : K},
    (sumLoop term ls s).isError = false
  | [], _ => rfl
  | l :: _, _ => noErr_bind (ht l) fun _ => sumLoop_ne ht

theorem memGet_ne {mem : List K} {p : Nat} : (memGet mem p).isError = false := by
  unfold memGet
  split <;> rfl

theorem memGet_inv {mem : List K} {p : Nat} {v : K} (h : memGet mem p = .ok v) : p < mem.length := by
  unfold memGet at h
  split at h
  · rename_i ho
    exact (List.getElem?_eq_some_iff.1 ho).1
  · exact absurd h (by simp)

end mem

/-! ### gemm -/

section gemm
variable {K : Type} [Add K] [Mul K] [Zero K] [BEq K]

theorem fortranGemm_ne {ta tb : Bool} {m n k : Nat} {alpha : K} {a : List K} {aoff lda : Nat} {b : List K} {boff ldb : Nat} {beta : K}
    {c : List K} {coff ldc : Nat} (hlda : max 1 (if ta then k else m) ≤ lda) (hldb : max 1 (if tb then n else k) ≤ ldb)
    (hldc : max 1 m ≤ ldc) :
    (fortranGemm ta tb m n k alpha a aoff lda b boff ldb beta c coff ldc).isError = false := by
  unfold fortranGemm
  rw [if_neg (by omega)]
  refine memLoop_ne (p := fun ij : Nat × Nat => coff + ij.1 + ij.2 * ldc) fun ij old => noErr_bind (sumLoop_ne fun l => noErr_bind memGet_ne fun _ => noErr_bind memGet_ne fun _ => rfl)
    fun _ => rfl

/-- What a product that ends normally has accessed. -/
theorem fortranGemm_inv {ta tb : Bool} {m n k : Nat} {alpha : K} {a : List K} {aoff lda : Nat} {b : List K} {boff ldb : Nat} {beta : K}
    {c c' : List K} {coff ldc : Nat}
    (h : fortranGemm ta tb m n k alpha a aoff lda b boff ldb beta c coff ldc = .ok c') :
    c'.length = c.length ∧ ∀ i j, i < m → j < n → coff + i + j * ldc < c.length ∧ ∀ l, l < k →
      aoff + (if ta then l + i * lda else i + l * lda) < a.length ∧ boff + (if tb then j + l * ldb else l + j * ldb) < b.length := by
  unfold fortranGemm at h
  by_cases hl : lda < max 1 (if ta then k else m) ∨ ldb < max 1 (if tb then n else k) ∨ ldc < max 1 m
  · rw [if_pos hl] at h
    exact absurd h (by simp)
  · rw [if_neg hl] at h
    obtain ⟨h1, h2⟩ := memLoop_inv (p := fun ij : Nat × Nat => coff + ij.1 + ij.2 * ldc) (g := fun ij old => do
      let t ← sumLoop (fun l => do
        let x ← colElem a aoff lda ta ij.1 l
        let y ← colElem b boff ldb tb l ij.2
        return x * y) (List.range k) 0
      return if beta == 0 then alpha * t else alpha * t + beta * old) h
    refine ⟨h1, fun i j hi hj => ?_⟩
    obtain ⟨h3, old, v, h4⟩ := h2 (i, j) (mem_colPairs.2 ⟨hi, hj⟩)
    refine ⟨h3, fun l hl => ?_⟩
    obtain ⟨t, h5, _⟩ := ok_of_bind h4
    obtain ⟨u, h6⟩ := sumLoop_inv h5 l (List.mem_range.2 hl)
    obtain ⟨x, h7, h8⟩ := ok_of_bind h6
    obtain ⟨y, h9, _⟩ := ok_of_bind h8
    exact ⟨memGet_inv h7, memGet_inv h9⟩

/-- What a call that ends normally has accessed. -/
theorem backendGemm_inv {conj : K → K} {junk : Nat → K} {ta tb : Char} {m n k : Nat} {alpha : K} {a : List K} {aoff lda : Nat}
    {b : List K} {boff ldb : Nat} {beta : K} {c c' : List K} {coff ldc : Nat} (hta : ta ∈ ['N', 'n', 'T', 't', 'C', 'c'])
    (htb : tb ∈ ['N', 'n', 'T', 't', 'C', 'c'])
    (h : backendGemm conj junk ta tb m n k alpha a aoff lda b boff ldb beta c coff ldc = .ok c') :
    aoff + k * lda ≤ a.length ∧ boff + ldb * n ≤ b.length ∧ coff + m * ldc ≤ c.length ∧
      ∀ i j, i < m → j < n → i + j * ldc < m * ldc ∧ ∀ l, l < k →
        (if Transposes ta then l + i * lda else i + l * lda) < k * lda ∧
        (if Transposes tb then j + l * ldb else l + j * ldb) < ldb * n := by
  unfold backendGemm at h
  rw [charSel_op hta, charSel_op htb] at h
  obtain ⟨sa, e1, h⟩ := ok_of_bind h
  obtain ⟨sb, e2, h⟩ := ok_of_bind h
  obtain ⟨sc, e3, h⟩ := ok_of_bind h
  obtain ⟨ag, e4, h⟩ := ok_of_bind h
  obtain ⟨bg, e5, h⟩ := ok_of_bind h
  obtain ⟨cg, e6, h⟩ := ok_of_bind h
  obtain ⟨cg', e7, h⟩ := ok_of_bind h
  rw [intMul_inv e1] at e4
  rw [intMul_inv e2] at e5
  rw [intMul_inv e3] at e6
  obtain ⟨a1, a2⟩ := hostRead_inv e4
  obtain ⟨b1, b2⟩ := hostRead_inv e5
  have c2 := outBuffer_inv e6
  obtain ⟨g1, g2⟩ := fortranGemm_inv e7
  have w := hostWrite_inv h
  refine ⟨a1, b1, by omega, fun i j hi hj => ?_⟩
  obtain ⟨h1, h2⟩ := g2 i j hi hj
  refine ⟨by omega, fun l hl => ?_⟩
  obtain ⟨h3, h4⟩ := h2 l hl
  rw [opMem_length, a2] at h3
  rw [opMem_length, b2] at h4
  simp only [opTrans_iff, Nat.zero_add] at h3 h4
  exact ⟨h3, h4⟩

theorem backendGemm_ne {conj : K → K} {junk : Nat → K} {ta tb : Char} {m n k : Nat} {alpha : K} {a : List K} {aoff lda : Nat}
    {b : List K} {boff ldb : Nat} {beta : K} {c : List K} {coff ldc : Nat}
    (hlda : max 1 (if Transposes ta then k else m) ≤ lda) (hldb : max 1 (if Transposes tb then n else k) ≤ ldb)
    (hldc : max 1 m ≤ ldc) :
    (backendGemm conj junk ta tb m n k alpha a aoff lda b boff ldb beta c coff ldc).isError = false := by
  unfold backendGemm
  refine noErr_bind intMul_ne fun _ => noErr_bind intMul_ne fun _ => noErr_bind intMul_ne fun _ => noErr_bind hostRead_ne fun _ =>
    noErr_bind hostRead_ne fun _ => noErr_bind outBuffer_ne fun _ => noErr_bind (fortranGemm_ne ?_ ?_ hldc) fun _ => hostWrite_ne
  · simpa only [opTrans_iff] using hlda
  · simpa only [opTrans_iff] using hldb

/-- The call, with the device memory of C at the start (`cg`) and the storage of C afterwards. -/
theorem backendGemm_core {conj : K → K} {junk : Nat → K} {ta tb : Char} {m k : Nat} {alpha : K} {a : List K} {aoff lda : Nat}
    {b : List K} {boff ldb : Nat} {beta : K} {c : List K} {coff ldc : Nat} (f g : Nat → Nat → K)
    (hta : ta ∈ ['N', 'n', 'T', 't', 'C', 'c']) (htb : tb ∈ ['N', 'n', 'T', 't', 'C', 'c'])
    (hm : 0 < m) (hk : 0 < k) (ka : Transposes ta → k = m) (kb : Transposes tb → k = m)
    (hlda : m ≤ lda) (hldb : k ≤ ldb) (hldc : m ≤ ldc)
    (oa : k * lda < 2147483648) (ob : ldb * m < 2147483648) (oc : m * ldc < 2147483648)
    (sa : aoff + k * lda ≤ a.length) (sb : boff + ldb * m ≤ b.length) (sc : coff + m * ldc ≤ c.length)
    (ha : HostMat a aoff lda m k f) (hb : HostMat b boff ldb k m g) :
    ∃ c' cg : List K, backendGemm conj junk ta tb m m k alpha a aoff lda b boff ldb beta c coff ldc = .ok c' ∧ c'.length = c.length ∧
      (∀ p, p < m * ldc → cg[p]? = if !(beta == 0) || ldc != k then c[coff + p]? else some (junk p)) ∧
      (∀ i j, i < m → j < m → c'[coff + i + j * ldc]? =
        (cg[i + j * ldc]?).map (blasValue alpha beta (accum k fun l => opAt conj ta f i l * opAt conj tb g l j))) ∧
      (∀ p, p < m * ldc → (∀ i j, i < m → j < m → p ≠ i + j * ldc) → c'[coff + p]? = cg[p]?) ∧
      (∀ q, q < coff ∨ coff + m * ldc ≤ q → c'[q]? = c[q]?) := by
  obtain ⟨ag, a1, a2, a3⟩ := hostRead_ok sa
  obtain ⟨bg, b1, b2, b3⟩ := hostRead_ok sb
  obtain ⟨cg, c1, c2, c3⟩ := outBuffer_ok (copied := !(beta == 0) || ldc != k) (junk := junk) sc
  have hin : ∀ {i j r s ld : Nat}, i < r → j < s → r ≤ ld → i + j * ld < s * ld := by
    intro i j r s ld hi hj hr
    have : (j + 1) * ld ≤ s * ld := Nat.mul_le_mul_right _ hj
    rw [Nat.succ_mul] at this
    omega
  obtain ⟨cg', d1, d2, d3, d4⟩ := fortranGemm_mem (ta := opTrans tb) (tb := opTrans ta) (m := m) (n := m) (k := k) (alpha := alpha)
    (a := opMem conj tb bg) (aoff := 0) (lda := ldb) (b := opMem conj ta ag) (boff := 0) (ldb := lda) (beta := beta) (c := cg)
    (coff := 0) (ldc := ldc) (fun j l => opAt conj tb g l j) (fun l i => opAt conj ta f i l)
    (by
      simp only [opTrans_iff]
      by_cases hT : Transposes tb
      · have := kb hT
        rw [if_pos hT]
        omega
      · rw [if_neg hT]
        omega)
    (by
      simp only [opTrans_iff]
      by_cases hT : Transposes ta
      · have := ka hT
        rw [if_pos hT]
        omega
      · rw [if_neg hT]
        omega) (by omega)
    (by
      intro j l hj hl
      apply opMem_get
      simp only [opTrans_iff]
      by_cases hT : Transposes tb
      · have := kb hT
        rw [if_pos hT, if_pos hT, Nat.zero_add, b3 _ (by rw [Nat.mul_comm ldb, Nat.add_comm]; exact hin (r := k) (by omega) (by omega) hldb),
          ← hb j l (by omega) (by omega)]
        congr 1
        omega
      · rw [if_neg hT, if_neg hT, Nat.zero_add, b3 _ (by rw [Nat.mul_comm ldb, Nat.add_comm]; exact hin (r := k) (by omega) (by omega) hldb),
          ← hb l j (by omega) (by omega)]
        congr 1
        omega)
    (by
      intro l i hl hi
      apply opMem_get
      simp only [opTrans_iff]
      by_cases hT : Transposes ta
      · have := ka hT
        rw [if_pos hT, if_pos hT, Nat.zero_add, a3 _ (by rw [Nat.add_comm]; exact hin (r := m) (by omega) (by omega) hlda),
          ← ha l i (by omega) (by omega)]
        congr 1
        omega
      · rw [if_neg hT, if_neg hT, Nat.zero_add, a3 _ (by rw [Nat.add_comm]; exact hin (r := m) (by omega) (by omega) hlda),
          ← ha i l (by omega) (by omega)]
        congr 1
        omega)
    (by
      intro j i hj hi
      have := hin (ld := ldc) hi hj hldc
      omega)
  obtain ⟨c', w1, w2, w3, w4⟩ := hostWrite_ok (mem := c) (xs := cg') (off := coff) (by omega)
  have hc' : cg'.length = m * ldc := by omega
  refine ⟨c', cg, ?_, w2, c3, ?_, ?_, ?_⟩
  · unfold backendGemm
    rw [charSel_op hta, charSel_op htb, intMul_ok oa, intMul_ok ob, intMul_ok oc]
    simp only [Outcome.ok_bind, a1, b1]
    rw [c1]
    simp only [Outcome.ok_bind]
    rw [d1]
    simpa using w1
  · intro i j hi hj
    have h1 := hin (ld := ldc) hi hj hldc
    have h2 := d3 j i hj hi
    rw [show 0 + j * ldc + i = i + j * ldc by omega] at h2
    rw [Nat.add_assoc, w3 _ (by omega), h2]
  · intro p hp hq
    rw [w3 _ (by omega)]
    exact d4 p fun j i hj hi he => hq i j hi hj (by omega)
  · intro q hq
    exact w4 q (by omega)

end gemm

/-! ### gemv -/

section gemv
variable {K : Type} [Add K] [Mul K] [Zero K] [BEq K]

theorem fortranGemv_ne {t : Bool} {m n : Nat} {alpha : K} {a : List K} {aoff lda : Nat} {x : List K} {xoff incx : Nat} {beta : K}
    {y : List K} {yoff incy : Nat} (hlda : max 1 m ≤ lda) (hx : 0 < incx) (hy : 0 < incy) :
    (fortranGemv t m n alpha a aoff lda x xoff incx beta y yoff incy).isError = false := by
  unfold fortranGemv
  rw [if_neg (by omega)]
  refine memLoop_ne (p := fun i : Nat => yoff + i * incy) fun i old =>
    noErr_bind (sumLoop_ne fun l => noErr_bind memGet_ne fun _ => noErr_bind memGet_ne fun _ => rfl) fun _ => rfl

theorem fortranGemv_inv {t : Bool} {m n : Nat} {alpha : K} {a : List K} {aoff lda : Nat} {x : List K} {xoff incx : Nat} {beta : K}
    {y y' : List K} {yoff incy : Nat} (h : fortranGemv t m n alpha a aoff lda x xoff incx beta y yoff incy = .ok y') :
    y'.length = y.length ∧ ∀ i, i < (if t then n else m) → yoff + i * incy < y.length ∧ ∀ l, l < (if t then m else n) →
      xoff + l * incx < x.length := by
  unfold fortranGemv at h
  by_cases hl : lda < max 1 m ∨ incx = 0 ∨ incy = 0
  · rw [if_pos hl] at h
    exact absurd h (by simp)
  · rw [if_neg hl] at h
    obtain ⟨h1, h2⟩ := memLoop_inv (p := fun i : Nat => yoff + i * incy) (g := fun i old => do
      let s ← sumLoop (fun l => do
        let u ← colElem a aoff lda t i l
        let v ← memGet x (xoff + l * incx)
        return u * v) (List.range (if t then m else n)) 0
      return if beta == 0 then alpha * s else alpha * s + beta * old) h
    refine ⟨h1, fun i hi => ?_⟩
    obtain ⟨h3, old, v, h4⟩ := h2 i (List.mem_range.2 hi)
    refine ⟨h3, fun l hl => ?_⟩
    obtain ⟨s, h5, _⟩ := ok_of_bind h4
    obtain ⟨u, h6⟩ := sumLoop_inv h5 l (List.mem_range.2 hl)
    obtain ⟨_, _, h8⟩ := ok_of_bind h6
    obtain ⟨_, h9, _⟩ := ok_of_bind h8
    exact memGet_inv h9

theorem backendGemv_inv {conj : K → K} {junk : Nat → K} {t : Char} {m n : Nat} {alpha : K} {a : List K} {aoff lda : Nat}
    {x : List K} {xoff incx : Nat} {beta : K} {y y' : List K} {yoff incy : Nat} (ht : t ∈ ['N', 'n', 'T', 't', 'C', 'c'])
    (h : backendGemv conj junk t m n alpha a aoff lda x xoff incx beta y yoff incy = .ok y') :
    aoff + n * lda ≤ a.length ∧ xoff + m * incx ≤ x.length ∧ yoff + n * incy ≤ y.length ∧
      ∀ i, i < (if Transposes t then n else m) → i * incy < n * incy ∧ ∀ l, l < (if Transposes t then m else n) →
        l * incx < m * incx := by
  unfold backendGemv at h
  rw [charSel_op ht, charSel_op ht] at h
  obtain ⟨sa, e1, h⟩ := ok_of_bind h
  obtain ⟨sx, e2, h⟩ := ok_of_bind h
  obtain ⟨sy, e3, h⟩ := ok_of_bind h
  obtain ⟨ag, e4, h⟩ := ok_of_bind h
  obtain ⟨xg, e5, h⟩ := ok_of_bind h
  obtain ⟨yg, e6, h⟩ := ok_of_bind h
  obtain ⟨yg', e7, h⟩ := ok_of_bind h
  rw [intMul_inv e1] at e4
  rw [intMul_inv e2] at e5
  rw [intMul_inv e3] at e6
  obtain ⟨a1, a2⟩ := hostRead_inv e4
  obtain ⟨b1, b2⟩ := hostRead_inv e5
  have c2 := outBuffer_inv e6
  obtain ⟨g1, g2⟩ := fortranGemv_inv e7
  have w := hostWrite_inv h
  simp only [opTrans_iff, Nat.zero_add, c2, b2] at g2
  exact ⟨a1, b1, by omega, g2⟩

theorem backendGemv_ne {conj : K → K} {junk : Nat → K} {t : Char} {m n : Nat} {alpha : K} {a : List K} {aoff lda : Nat}
    {x : List K} {xoff incx : Nat} {beta : K} {y : List K} {yoff incy : Nat} (hlda : max 1 m ≤ lda) (hx : 0 < incx) (hy : 0 < incy) :
    (backendGemv conj junk t m n alpha a aoff lda x xoff incx beta y yoff incy).isError = false := by
  unfold backendGemv
  exact noErr_bind intMul_ne fun _ => noErr_bind intMul_ne fun _ => noErr_bind intMul_ne fun _ => noErr_bind hostRead_ne fun _ =>
    noErr_bind hostRead_ne fun _ => noErr_bind outBuffer_ne fun _ => noErr_bind (fortranGemv_ne hlda hx hy) fun _ => hostWrite_ne

theorem backendGemv_core {conj : K → K} {junk : Nat → K} {t : Char} {m n : Nat} {alpha : K} {a : List K} {aoff lda : Nat}
    {x : List K} {xoff incx : Nat} {beta : K} {y : List K} {yoff incy : Nat} (f : Nat → Nat → K) (u : Nat → K)
    (ht : t ∈ ['N', 'n', 'T', 't', 'C', 'c']) (hm : 0 < m) (hn : 0 < n) (sq : Transposes t ∨ m = n)
    (hlda : m ≤ lda) (hx : 0 < incx) (hy : 0 < incy)
    (oa : n * lda < 2147483648) (ox : m * incx < 2147483648) (oy : n * incy < 2147483648)
    (sa : aoff + n * lda ≤ a.length) (sx : xoff + m * incx ≤ x.length) (sy : yoff + n * incy ≤ y.length)
    (ha : HostMat a aoff lda m n f) (hu : HostVec x xoff incx m u) :
    ∃ y' yg : List K, backendGemv conj junk t m n alpha a aoff lda x xoff incx beta y yoff incy = .ok y' ∧ y'.length = y.length ∧
      (∀ p, p < n * incy → yg[p]? = if !(beta == 0) || incy != 1 then y[yoff + p]? else some (junk p)) ∧
      (∀ i, i < n → y'[yoff + i * incy]? =
        (yg[i * incy]?).map (blasValue alpha beta (accum m fun l => opAt conj t f i l * u l))) ∧
      (∀ p, p < n * incy → (∀ i, i < n → p ≠ i * incy) → y'[yoff + p]? = yg[p]?) ∧
      (∀ q, q < yoff ∨ yoff + n * incy ≤ q → y'[q]? = y[q]?) := by
  obtain ⟨ag, a1, a2, a3⟩ := hostRead_ok sa
  obtain ⟨xg, b1, b2, b3⟩ := hostRead_ok sx
  obtain ⟨yg, c1, c2, c3⟩ := outBuffer_ok (copied := !(beta == 0) || incy != 1) (junk := junk) sy
  have hin : ∀ {i j r s ld : Nat}, i < r → j < s → r ≤ ld → i + j * ld < s * ld := by
    intro i j r s ld hi hj hr
    have : (j + 1) * ld ≤ s * ld := Nat.mul_le_mul_right _ hj
    rw [Nat.succ_mul] at this
    omega
  have hv : ∀ {i r inc : Nat}, 0 < inc → i < r → i * inc < r * inc := fun h0 hi => Nat.mul_lt_mul_of_pos_right hi h0
  have hrows : (if (!opTrans t) = true then m else n) = n := by
    rcases sq with h | h
    · rw [opTrans_iff.2 h]; rfl
    · rw [h, ite_self]
  have hcols : (if (!opTrans t) = true then n else m) = m := by
    rcases sq with h | h
    · rw [opTrans_iff.2 h]; rfl
    · rw [h, ite_self]
  obtain ⟨yg', d1, d2, d3, d4⟩ := vendorGemv_mem (trans := !opTrans t) (m := n) (n := m) (alpha := alpha) (a := opMem conj t ag)
    (aoff := 0) (lda := lda) (x := xg) (xoff := 0) (incx := incx) (beta := beta) (y := yg) (yoff := 0) (incy := incy)
    (fun i l => opAt conj t f i l) u (by omega) (by omega) hlda (by omega) (by omega)
    (by
      intro i l hi hl
      rw [hrows] at hi
      rw [hcols] at hl
      apply opMem_get
      by_cases hT : Transposes t
      · rw [opTrans_iff.2 hT]
        simp only [Bool.not_true, Bool.false_eq_true, if_false]
        rw [if_pos hT, Nat.zero_add, a3 _ (by rw [Nat.add_comm]; exact hin hl hi hlda), ← ha l i hl hi]
        congr 1
        omega
      · have hT' : opTrans t = false := by
          rw [← Bool.not_eq_true, opTrans_iff]
          exact hT
        have : m = n := by tauto
        subst this
        rw [hT']
        simp only [Bool.not_false, if_true]
        rw [if_neg hT, Nat.zero_add, a3 _ (by rw [Nat.add_comm]; exact hin hi hl hlda), ← ha i l hi hl]
        congr 1
        omega)
    (by
      intro l hl
      rw [hcols] at hl
      rw [Nat.zero_add, b3 _ (hv hx hl)]
      exact hu l hl)
    (by
      intro i hi
      rw [hrows] at hi
      rw [c2, Nat.zero_add]
      exact hv hy hi)
  rw [hcols] at d3
  rw [hrows] at d3 d4
  obtain ⟨y', w1, w2, w3, w4⟩ := hostWrite_ok (mem := y) (xs := yg') (off := yoff) (by omega)
  refine ⟨y', yg, ?_, w2, c3, ?_, ?_, ?_⟩
  · unfold backendGemv
    rw [charSel_op ht, charSel_op ht, intMul_ok oa, intMul_ok ox, intMul_ok oy]
    simp only [Outcome.ok_bind, a1, b1, c1]
    unfold vendorGemv at d1
    rw [if_neg (by omega), Bool.not_not] at d1
    rw [d1]
    simpa using w1
  · intro i hi
    have h1 := hv hy hi
    have h2 := d3 i hi
    rw [Nat.zero_add] at h2
    rw [w3 _ (by omega), h2]
  · intro p hp hq
    rw [w3 _ (by omega)]
    exact d4 p fun i hi he => hq i hi (by omega)
  · intro q hq
    exact w4 q (by omega)

end gemv

/-! ### Vectors -/

section vec
variable {K : Type}

theorem mul_inj {inc i j : Nat} (h0 : 0 < inc) (h : i * inc = j * inc) : i = j := Nat.eq_of_mul_eq_mul_right h0 h

theorem vec_nodup {n inc : Nat} (h0 : 0 < inc) : ((List.range n).map fun i => 0 + i * inc).Nodup := by
  rw [List.nodup_map_iff_inj_on List.nodup_range]
  intro i _ j _ e
  exact mul_inj h0 (by omega)

/-- A vector that is copied to the device, changed there and copied back. -/
theorem vec_roundtrip {y yg yg' : List K} {yoff inc n : Nat} {v : Nat → K} (h0 : 0 < inc) (sy : yoff + n * inc ≤ y.length)
    (c2 : yg.length = n * inc) (c3 : ∀ p, p < n * inc → yg[p]? = y[yoff + p]?) (d2 : yg'.length = yg.length)
    (d3 : ∀ i, i < n → yg'[i * inc]? = some (v i)) (d4 : ∀ q, (∀ i, i < n → q ≠ i * inc) → yg'[q]? = yg[q]?) :
    ∃ y', hostWrite y yoff yg' = .ok y' ∧ HostVec y' yoff inc n v ∧ SameOutsideVec y y' yoff inc n := by
  obtain ⟨y', w1, w2, w3, w4⟩ := hostWrite_ok (mem := y) (xs := yg') (off := yoff) (by omega)
  refine ⟨y', w1, fun i hi => ?_, w2, fun q hq => ?_⟩
  · have : i * inc < n * inc := Nat.mul_lt_mul_of_pos_right hi h0
    rw [w3 _ (by omega), d3 i hi]
  · by_cases hc : yoff ≤ q ∧ q < yoff + n * inc
    · obtain ⟨p, rfl⟩ := Nat.exists_eq_add_of_le hc.1
      rw [w3 p (by omega), d4 p fun i hi he => hq i hi (by omega), c3 p (by omega)]
    · exact w4 q (by omega)

theorem backendScal_ok [Mul K] {n : Nat} {alpha : K} {x : List K} {xoff inc : Nat} {f : Nat → K} (h0 : 0 < inc)
    (ox : n * inc < 2147483648) (sx : xoff + n * inc ≤ x.length) (hx : HostVec x xoff inc n f) :
    ∃ x', backendScal n alpha x xoff inc = .ok x' ∧ HostVec x' xoff inc n (fun i => alpha * f i) ∧
      SameOutsideVec x x' xoff inc n := by
  obtain ⟨xg, b1, b2, b3⟩ := hostRead_ok sx
  have hv : ∀ {i}, i < n → i * inc < n * inc := fun hi => Nat.mul_lt_mul_of_pos_right hi h0
  obtain ⟨xg', d1, d2, d3, d4⟩ := memLoop (R := K) (List.range n) (fun i => 0 + i * inc) (fun _ old => .ok (alpha * old))
    (fun _ old => alpha * old) xg (vec_nodup h0) (fun i hi => by
      have := hv (List.mem_range.1 hi)
      omega) (fun _ _ _ _ => rfl)
  obtain ⟨x', w1, w2, w3⟩ := vec_roundtrip (v := fun i => alpha * f i) h0 sx b2 b3 d2 (fun i hi => by
      have := d3 i (List.mem_range.2 hi)
      rw [Nat.zero_add, b3 _ (hv hi), hx i hi] at this
      simpa using this) (fun q hq => d4 q (by
      intro hm
      obtain ⟨i, hi, rfl⟩ := List.mem_map.1 hm
      exact hq i (List.mem_range.1 hi) (by omega)))
  refine ⟨x', ?_, w2, w3⟩
  unfold backendScal blasScal
  rw [intMul_ok ox]
  simp only [Outcome.ok_bind, b1]
  rw [if_neg (by omega), d1]
  exact w1

theorem backendAxpy_ok [Add K] [Mul K] [Zero K] [BEq K] {n : Nat} {alpha : K} {x : List K} {xoff incx : Nat} {y : List K}
    {yoff incy : Nat} {f g : Nat → K} (ha : (alpha == 0) = false) (hx0 : 0 < incx) (hy0 : 0 < incy) (ox : n * incx < 2147483648)
    (oy : n * incy < 2147483648) (sx : xoff + n * incx ≤ x.length) (sy : yoff + n * incy ≤ y.length)
    (hx : HostVec x xoff incx n f) (hy : HostVec y yoff incy n g) :
    ∃ y', backendAxpy n alpha x xoff incx y yoff incy = .ok y' ∧ HostVec y' yoff incy n (fun i => g i + alpha * f i) ∧
      SameOutsideVec y y' yoff incy n := by
  obtain ⟨xg, b1, b2, b3⟩ := hostRead_ok sx
  obtain ⟨yg, c1, c2, c3⟩ := hostRead_ok sy
  have hv : ∀ {i inc}, 0 < inc → i < n → i * inc < n * inc := fun h0 hi => Nat.mul_lt_mul_of_pos_right hi h0
  obtain ⟨yg', d1, d2, d3, d4⟩ := memLoop (R := K) (List.range n) (fun i => 0 + i * incy) (fun i old => do
      let u ← memGet xg (0 + i * incx)
      return old + alpha * u)
    (fun i old => old + alpha * f i) yg (vec_nodup hy0) (fun i hi => by
      have := hv hy0 (List.mem_range.1 hi)
      omega) (fun i hi old _ => by
      have hi := List.mem_range.1 hi
      unfold memGet
      rw [Nat.zero_add, b3 _ (hv hx0 hi), hx i hi]
      rfl)
  obtain ⟨y', w1, w2, w3⟩ := vec_roundtrip (v := fun i => g i + alpha * f i) hy0 sy c2 c3 d2 (fun i hi => by
      have := d3 i (List.mem_range.2 hi)
      rw [Nat.zero_add, c3 _ (hv hy0 hi), hy i hi] at this
      simpa using this) (fun q hq => d4 q (by
      intro hm
      obtain ⟨i, hi, rfl⟩ := List.mem_map.1 hm
      exact hq i (List.mem_range.1 hi) (by omega)))
  refine ⟨y', ?_, w2, w3⟩
  unfold backendAxpy blasAxpy
  rw [intMul_ok ox, intMul_ok oy, ha]
  simp only [Outcome.ok_bind, b1, c1, Bool.false_eq_true, if_false]
  rw [d1]
  exact w1

theorem backendDot_ok [Add K] [Mul K] [Zero K] {conj : K → K} {n : Nat} {x : List K} {xoff incx : Nat} {y : List K}
    {yoff incy : Nat} {f g : Nat → K} (hx0 : 0 < incx) (hy0 : 0 < incy) (ox : n * incx < 2147483648)
    (oy : n * incy < 2147483648) (sx : xoff + n * incx ≤ x.length) (sy : yoff + n * incy ≤ y.length)
    (hx : HostVec x xoff incx n f) (hy : HostVec y yoff incy n g) :
    backendDot conj n x xoff incx y yoff incy = .ok (accum n fun i => conj (f i) * g i) := by
  obtain ⟨xg, b1, b2, b3⟩ := hostRead_ok sx
  obtain ⟨yg, c1, c2, c3⟩ := hostRead_ok sy
  have hv : ∀ {i inc}, 0 < inc → i < n → i * inc < n * inc := fun h0 hi => Nat.mul_lt_mul_of_pos_right hi h0
  unfold backendDot blasDot
  rw [intMul_ok ox, intMul_ok oy]
  simp only [Outcome.ok_bind, b1, c1]
  rw [sumLoop_eq fun i => conj (f i) * g i]
  · rfl
  · intro i hi
    have hi := List.mem_range.1 hi
    unfold memGet
    rw [Nat.zero_add, Nat.zero_add, List.getElem?_map, b3 _ (hv hx0 hi), hx i hi, c3 _ (hv hy0 hi), hy i hi]
    rfl

end vec

/-! ### ger -/

section ger
variable {K : Type} [Add K] [Mul K] [Zero K] [BEq K]

theorem backendGer_ok {conj : K → K} {m n : Nat} {alpha : K} {x : List K} {xoff incx : Nat} {y : List K} {yoff incy : Nat}
    {a : List K} {aoff lda : Nat} {f : Nat → Nat → K} {u v : Nat → K} (ha0 : (alpha == 0) = false) (hm : 0 < m) (hnm : n ≤ m) (hx0 : 0 < incx)
    (hy0 : 0 < incy) (hlda : m ≤ lda) (ox : m * incx < 2147483648) (oy : n * incy < 2147483648) (oa : m * lda < 2147483648)
    (sx : xoff + m * incx ≤ x.length) (sy : yoff + n * incy ≤ y.length) (sa : aoff + m * lda ≤ a.length)
    (hx : HostVec x xoff incx m u) (hy : HostVec y yoff incy n v) (ha : HostMat a aoff lda m n f) :
    ∃ a', backendGer conj m n alpha x xoff incx y yoff incy a aoff lda = .ok a' ∧
      HostMat a' aoff lda m n (fun i j => f i j + alpha * u i * conj (v j)) ∧ SameOutsideMat a a' aoff lda m n := by
  obtain ⟨xg, b1, b2, b3⟩ := hostRead_ok sx
  obtain ⟨yg, c1, c2, c3⟩ := hostRead_ok sy
  obtain ⟨ag, a1, a2, a3⟩ := hostRead_ok sa
  have hv : ∀ {i inc k : Nat}, 0 < inc → i < k → i * inc < k * inc := fun h0 hi => Nat.mul_lt_mul_of_pos_right hi h0
  have hin : ∀ {i j : Nat}, i < m → j < n → i + j * lda < m * lda := by
    intro i j hi hj
    have : (j + 1) * lda ≤ m * lda := Nat.mul_le_mul_right _ (Nat.le_trans hj hnm)
    rw [Nat.succ_mul] at this
    omega
  obtain ⟨ag', d1, d2, d3, d4⟩ := vendorGer_mem (m := n) (n := m) (alpha := alpha) (x := yg.map conj) (xoff := 0) (incx := incy)
    (y := xg) (yoff := 0) (incy := incx) (a := ag) (aoff := 0) (lda := lda) (fun j => conj (v j)) u (by omega) (by omega) (by omega)
    (fun j hj => by rw [Nat.zero_add, List.getElem?_map, c3 _ (hv hy0 hj), hy j hj]; rfl)
    (fun i hi => by rw [Nat.zero_add, b3 _ (hv hx0 hi), hx i hi])
    (fun j i hj hi => by have := hin hi hj; omega)
  obtain ⟨a', w1, w2, w3, w4⟩ := hostWrite_ok (mem := a) (xs := ag') (off := aoff) (by omega)
  refine ⟨a', ?_, fun i j hi hj => ?_, w2, fun q hq => ?_⟩
  · unfold backendGer
    rw [intMul_ok ox, intMul_ok oy, intMul_ok oa, ha0]
    simp only [Outcome.ok_bind, a1, b1, c1, Bool.false_eq_true, if_false]
    unfold vendorGer at d1
    rw [if_neg (by omega), if_neg (by omega), if_neg (by omega)] at d1
    rw [d1]
    exact w1
  · have h1 := hin hi hj
    have h2 := d3 j i hj hi
    rw [show 0 + j * lda + i = i + j * lda by omega, a3 _ h1, ← Nat.add_assoc, ha i j hi hj] at h2
    rw [Nat.add_assoc, w3 _ (by omega), h2]
    rfl
  · by_cases hc : aoff ≤ q ∧ q < aoff + m * lda
    · obtain ⟨p, rfl⟩ := Nat.exists_eq_add_of_le hc.1
      rw [w3 p (by omega), d4 p fun j i hj hi he => hq i j hi hj (by omega), a3 p (by omega)]
    · exact w4 q (by omega)

end ger
end Einsums
