import Verif.Model.LinearAlgebra
import Verif.Proofs.Tensor
import Verif.Spec.LinAlg
import Mathlib.Algebra.BigOperators.Group.List.Basic
import Mathlib.Algebra.BigOperators.Ring.List
import Mathlib.Algebra.Ring.Defs
import Mathlib.Data.List.Nodup
/-
Lemmas about the BLAS layer, at the level of memory.
-/
namespace Einsums
open Spec Model

section
variable {R : Type} [Add R]

theorem sumLoop_eq {term : Nat → Outcome R} {ls : List Nat} {s : R} (v : Nat → R)
    (h : ∀ l ∈ ls, term l = .ok (v l)) : sumLoop term ls s = .ok (ls.foldl (fun s l => s + v l) s) := by
  induction ls generalizing s with
  | nil => rfl
  | cons l ls ih =>
    simp only [sumLoop, h l (by simp), Outcome.ok_bind, List.foldl_cons]
    exact ih fun x hx => h x (by simp [hx])

end

/-- A loop of updates at distinct positions. -/
theorem memLoop {R β : Type} (l : List β) (p : β → Nat) (g : β → R → Outcome R) (h : β → R → R)
    (mem : List R) (hn : (l.map p).Nodup) (hp : ∀ b ∈ l, p b < mem.length)
    (hg : ∀ b ∈ l, ∀ old, mem[p b]? = some old → g b old = .ok (h b old)) :
    ∃ mem', l.foldlM (fun mem b => memUpd mem (p b) (g b)) mem = .ok mem' ∧ mem'.length = mem.length ∧
      (∀ b ∈ l, mem'[p b]? = (mem[p b]?).map (h b)) ∧ (∀ q, q ∉ l.map p → mem'[q]? = mem[q]?) := by
  induction l generalizing mem with
  | nil => exact ⟨mem, rfl, rfl, by simp, by simp⟩
  | cons b l ih =>
    rw [List.map_cons, List.nodup_cons] at hn
    have hb := hp b (by simp)
    have e1 : memUpd mem (p b) (g b) = .ok (mem.set (p b) (h b mem[p b])) := by
      unfold memUpd
      rw [List.getElem?_eq_getElem hb]
      simp only
      rw [hg b (by simp) _ (List.getElem?_eq_getElem hb)]
      rfl
    have hne : ∀ b' ∈ l, p b' ≠ p b := fun b' hb' e => hn.1 (e ▸ List.mem_map_of_mem hb')
    obtain ⟨mem', h1, h2, h3, h4⟩ := ih (mem.set (p b) (h b mem[p b])) hn.2
      (by intro b' hb'; simpa using hp b' (by simp [hb']))
      (by
        intro b' hb' old ho
        rw [List.getElem?_set_ne (hne b' hb').symm] at ho
        exact hg b' (by simp [hb']) old ho)
    refine ⟨mem', ?_, by simpa using h2, ?_, ?_⟩
    · rw [List.foldlM_cons, e1]; exact h1
    · intro b' hb'
      rcases List.mem_cons.1 hb' with e | e
      · subst e
        rw [h4 _ hn.1, List.getElem?_set_self hb, List.getElem?_eq_getElem hb]; rfl
      · rw [h3 b' e, List.getElem?_set_ne (hne b' e).symm]
    · intro q hq
      simp only [List.map_cons, List.mem_cons, not_or] at hq
      rw [h4 q hq.2, List.getElem?_set_ne (Ne.symm hq.1)]

theorem mem_colPairs {m n : Nat} {ij : Nat × Nat} : ij ∈ colPairs m n ↔ ij.1 < m ∧ ij.2 < n := by
  obtain ⟨i, j⟩ := ij
  simp [colPairs, List.mem_flatMap, and_comm]

theorem nodup_colPairs (m n : Nat) : (colPairs m n).Nodup := by
  unfold colPairs
  rw [List.nodup_flatMap]
  refine ⟨?_, ?_⟩
  · intro j _
    exact List.nodup_range.map fun a b h => by simpa using h
  · refine List.Pairwise.imp ?_ List.nodup_range
    intro a b hab
    simp only [Function.onFun, List.disjoint_left]
    intro x hx hy
    obtain ⟨i, _, rfl⟩ := List.mem_map.1 hx
    obtain ⟨i', _, e⟩ := List.mem_map.1 hy
    exact hab (by simpa using (congrArg Prod.snd e).symm)

/-- Column-major positions of a block are distinct. -/
theorem colPos_inj {m ld i j i' j' : Nat} (hi : i < m) (hi' : i' < m) (hld : m ≤ ld)
    (e : i + j * ld = i' + j' * ld) : i = i' ∧ j = j' := by
  have h1 : (i + j * ld) % ld = (i' + j' * ld) % ld := by rw [e]
  rw [Nat.add_mul_mod_self_right, Nat.add_mul_mod_self_right, Nat.mod_eq_of_lt (by omega),
    Nat.mod_eq_of_lt (by omega)] at h1
  subst h1
  refine ⟨rfl, ?_⟩
  have : j * ld = j' * ld := by omega
  exact Nat.eq_of_mul_eq_mul_right (by omega) this

section
variable {R : Type} [Add R] [Mul R] [Zero R] [BEq R]

/-- The new value of an element in `gemm`/`gemv`. -/
def blasValue (alpha beta t old : R) : R := if beta == 0 then alpha * t else alpha * t + beta * old

/-- Left-to-right sum as the routines form it. -/
def accum (k : Nat) (v : Nat → R) : R := (List.range k).foldl (fun s l => s + v l) 0

/-- The row-major product by the column-major routine, at the level of memory. `fa i l` and `fb l j` are the elements of
`op(A)` and `op(B)`. -/
theorem fortranGemm_mem {ta tb : Bool} {m n k : Nat} {alpha : R} {a : List R} {aoff lda : Nat}
    {b : List R} {boff ldb : Nat} {beta : R} {c : List R} {coff ldc : Nat} (fa fb : Nat → Nat → R)
    (hlda : max 1 (if ta then m else k) ≤ lda) (hldb : max 1 (if tb then k else n) ≤ ldb) (hldc : max 1 n ≤ ldc)
    (ha : ∀ i l, i < m → l < k → a[aoff + (if ta then l * lda + i else i * lda + l)]? = some (fa i l))
    (hb : ∀ l j, l < k → j < n → b[boff + (if tb then j * ldb + l else l * ldb + j)]? = some (fb l j))
    (hc : ∀ i j, i < m → j < n → coff + i * ldc + j < c.length) :
    ∃ c', fortranGemm tb ta n m k alpha b boff ldb a aoff lda beta c coff ldc = .ok c' ∧
      c'.length = c.length ∧
      (∀ i j, i < m → j < n → c'[coff + i * ldc + j]? =
        (c[coff + i * ldc + j]?).map (blasValue alpha beta (accum k fun l => fb l j * fa i l))) ∧
      (∀ q, (∀ i j, i < m → j < n → q ≠ coff + i * ldc + j) → c'[q]? = c[q]?) := by
  unfold fortranGemm
  rw [if_neg (by
    rw [not_or, not_or]
    refine ⟨?_, ?_, ?_⟩
    · cases tb <;> simp at hldb ⊢ <;> omega
    · cases ta <;> simp at hlda ⊢ <;> omega
    · omega)]
  obtain ⟨c', h1, h2, h3, h4⟩ := memLoop (R := R) (colPairs n m) (fun ij => coff + ij.1 + ij.2 * ldc)
    (fun ij old => do
      let t ← sumLoop (fun l => do
        let x ← colElem b boff ldb tb ij.1 l
        let y ← colElem a aoff lda ta l ij.2
        return x * y) (List.range k) 0
      return if beta == 0 then alpha * t else alpha * t + beta * old)
    (fun ij => blasValue alpha beta (accum k fun l => fb l ij.1 * fa ij.2 l)) c
    (by
      rw [List.nodup_map_iff_inj_on (nodup_colPairs _ _)]
      rintro ⟨i, j⟩ hij ⟨i', j'⟩ hij' e
      rw [mem_colPairs] at hij hij'
      simp only at e hij hij'
      obtain ⟨h1, h2⟩ := colPos_inj hij.1 hij'.1 (by omega : n ≤ ldc) (by omega : i + j * ldc = i' + j' * ldc)
      rw [h1, h2])
    (by
      rintro ⟨i, j⟩ hij
      rw [mem_colPairs] at hij
      have := hc j i hij.2 hij.1
      simp only
      omega)
    (by
      rintro ⟨i, j⟩ hij old _
      rw [mem_colPairs] at hij
      simp only at hij ⊢
      rw [sumLoop_eq fun l => fb l i * fa j l]
      · rfl
      · intro l hl
        rw [List.mem_range] at hl
        have e1 : colElem b boff ldb tb i l = .ok (fb l i) := by
          have := hb l i hl hij.1
          unfold colElem memGet
          have e : (if tb = true then l + i * ldb else i + l * ldb)
              = (if tb then i * ldb + l else l * ldb + i) := by cases tb <;> simp <;> omega
          rw [e, this]
        have e2 : colElem a aoff lda ta l j = .ok (fa j l) := by
          have := ha j l hij.2 hl
          unfold colElem memGet
          have e : (if ta = true then j + l * lda else l + j * lda)
              = (if ta then l * lda + j else j * lda + l) := by cases ta <;> simp <;> omega
          rw [e, this]
        rw [e1, e2]; rfl)
  refine ⟨c', h1, h2, ?_, ?_⟩
  · intro i j hi hj
    have := h3 (j, i) (mem_colPairs.2 ⟨hj, hi⟩)
    simp only at this
    rw [show coff + i * ldc + j = coff + j + i * ldc by omega]
    exact this
  · intro q hq
    apply h4
    intro hm
    obtain ⟨⟨i, j⟩, hij, rfl⟩ := List.mem_map.1 hm
    rw [mem_colPairs] at hij
    exact hq j i hij.2 hij.1 (by simp only; omega)

/-- The row-major product at the level of memory. `fa i l` and `fb l j` are the elements of `op(A)` and
`op(B)`. -/
theorem vendorGemm_mem {ta tb : Bool} {m n k : Nat} {alpha : R} {a : List R} {aoff lda : Nat}
    {b : List R} {boff ldb : Nat} {beta : R} {c : List R} {coff ldc : Nat} (fa fb : Nat → Nat → R)
    (hm : m ≠ 0) (hn : n ≠ 0) (hk : k ≠ 0)
    (hlda : (if ta then m else k) ≤ lda) (hldb : (if tb then k else n) ≤ ldb) (hldc : n ≤ ldc)
    (ha : ∀ i l, i < m → l < k → a[aoff + (if ta then l * lda + i else i * lda + l)]? = some (fa i l))
    (hb : ∀ l j, l < k → j < n → b[boff + (if tb then j * ldb + l else l * ldb + j)]? = some (fb l j))
    (hc : ∀ i j, i < m → j < n → coff + i * ldc + j < c.length) :
    ∃ c', vendorGemm ta tb m n k alpha a aoff lda b boff ldb beta c coff ldc = .ok c' ∧
      c'.length = c.length ∧
      (∀ i j, i < m → j < n → c'[coff + i * ldc + j]? =
        (c[coff + i * ldc + j]?).map (blasValue alpha beta (accum k fun l => fb l j * fa i l))) ∧
      (∀ q, (∀ i j, i < m → j < n → q ≠ coff + i * ldc + j) → c'[q]? = c[q]?) := by
  unfold vendorGemm
  rw [if_neg (by omega)]
  exact fortranGemm_mem fa fb (by cases ta <;> simp at hlda ⊢ <;> omega) (by cases tb <;> simp at hldb ⊢ <;> omega) (by omega)
    ha hb hc

/-- The row-major matrix-vector product at the level of memory. -/
theorem vendorGemv_mem {trans : Bool} {m n : Nat} {alpha : R} {a : List R} {aoff lda : Nat}
    {x : List R} {xoff incx : Nat} {beta : R} {y : List R} {yoff incy : Nat} (fa : Nat → Nat → R)
    (fx : Nat → R) (hm : m ≠ 0) (hn : n ≠ 0) (hlda : n ≤ lda) (hx0 : incx ≠ 0) (hy0 : incy ≠ 0)
    (ha : ∀ i l, i < (if trans then n else m) → l < (if trans then m else n) →
      a[aoff + (if trans then l * lda + i else i * lda + l)]? = some (fa i l))
    (hx : ∀ l, l < (if trans then m else n) → x[xoff + l * incx]? = some (fx l))
    (hy : ∀ i, i < (if trans then n else m) → yoff + i * incy < y.length) :
    ∃ y', vendorGemv trans m n alpha a aoff lda x xoff incx beta y yoff incy = .ok y' ∧
      y'.length = y.length ∧
      (∀ i, i < (if trans then n else m) → y'[yoff + i * incy]? = (y[yoff + i * incy]?).map
        (blasValue alpha beta (accum (if trans then m else n) fun l => fa i l * fx l))) ∧
      (∀ q, (∀ i, i < (if trans then n else m) → q ≠ yoff + i * incy) → y'[q]? = y[q]?) := by
  unfold vendorGemv
  rw [if_neg (by omega)]
  unfold fortranGemv
  rw [if_neg (by omega)]
  have hlen : (if (!trans) = true then m else n) = (if trans then n else m) := by cases trans <;> rfl
  have hin : (if (!trans) = true then n else m) = (if trans then m else n) := by cases trans <;> rfl
  rw [hlen, hin]
  obtain ⟨y', h1, h2, h3, h4⟩ := memLoop (R := R) (List.range (if trans then n else m))
    (fun i => yoff + i * incy)
    (fun i old => do
      let t ← sumLoop (fun l => do
        let u ← colElem a aoff lda (!trans) i l
        let v ← memGet x (xoff + l * incx)
        return u * v) (List.range (if trans then m else n)) 0
      return if beta == 0 then alpha * t else alpha * t + beta * old)
    (fun i => blasValue alpha beta (accum (if trans then m else n) fun l => fa i l * fx l)) y
    (by
      rw [List.nodup_map_iff_inj_on List.nodup_range]
      intro i _ j _ e
      exact Nat.eq_of_mul_eq_mul_right (by omega) (by omega : i * incy = j * incy))
    (by
      intro i hi
      exact hy i (List.mem_range.1 hi))
    (by
      intro i hi old _
      rw [List.mem_range] at hi
      rw [sumLoop_eq fun l => fa i l * fx l]
      · rfl
      · intro l hl
        rw [List.mem_range] at hl
        have e1 : colElem a aoff lda (!trans) i l = .ok (fa i l) := by
          have := ha i l hi hl
          unfold colElem memGet
          have e : (if (!trans) = true then l + i * lda else i + l * lda)
              = (if trans then l * lda + i else i * lda + l) := by cases trans <;> simp <;> omega
          rw [e, this]
        rw [e1]
        unfold memGet
        rw [hx l hl]; rfl)
  refine ⟨y', h1, h2, ?_, ?_⟩
  · intro i hi
    exact h3 i (List.mem_range.2 hi)
  · intro q hq
    apply h4
    intro hm
    obtain ⟨i, hi, rfl⟩ := List.mem_map.1 hm
    exact hq i (List.mem_range.1 hi) rfl

omit [Zero R] [BEq R] in
/-- The row-major rank-one update at the level of memory. -/
theorem vendorGer_mem {m n : Nat} {alpha : R} {x : List R} {xoff incx : Nat} {y : List R}
    {yoff incy : Nat} {a : List R} {aoff lda : Nat} (fx fy : Nat → R)
    (hlda : max 1 n ≤ lda) (hx0 : incx ≠ 0) (hy0 : incy ≠ 0)
    (hx : ∀ i, i < m → x[xoff + i * incx]? = some (fx i))
    (hy : ∀ j, j < n → y[yoff + j * incy]? = some (fy j))
    (ha : ∀ i j, i < m → j < n → aoff + i * lda + j < a.length) :
    ∃ a', vendorGer m n alpha x xoff incx y yoff incy a aoff lda = .ok a' ∧ a'.length = a.length ∧
      (∀ i j, i < m → j < n → a'[aoff + i * lda + j]? =
        (a[aoff + i * lda + j]?).map fun old => old + alpha * fy j * fx i) ∧
      (∀ q, (∀ i j, i < m → j < n → q ≠ aoff + i * lda + j) → a'[q]? = a[q]?) := by
  unfold vendorGer
  rw [if_neg hx0, if_neg hy0, if_neg (by omega)]
  unfold fortranGer
  rw [if_neg (by omega)]
  obtain ⟨a', h1, h2, h3, h4⟩ := memLoop (R := R) (colPairs n m) (fun ij => aoff + ij.1 + ij.2 * lda)
    (fun ij old => do
      let u ← memGet y (yoff + ij.1 * incy)
      let v ← memGet x (xoff + ij.2 * incx)
      return old + alpha * u * v)
    (fun ij old => old + alpha * fy ij.1 * fx ij.2) a
    (by
      rw [List.nodup_map_iff_inj_on (nodup_colPairs _ _)]
      rintro ⟨i, j⟩ hij ⟨i', j'⟩ hij' e
      rw [mem_colPairs] at hij hij'
      simp only at e hij hij'
      obtain ⟨h1, h2⟩ := colPos_inj hij.1 hij'.1 (by omega : n ≤ lda) (by omega : i + j * lda = i' + j' * lda)
      rw [h1, h2])
    (by
      rintro ⟨i, j⟩ hij
      rw [mem_colPairs] at hij
      have := ha j i hij.2 hij.1
      simp only
      omega)
    (by
      rintro ⟨i, j⟩ hij old _
      rw [mem_colPairs] at hij
      simp only at hij ⊢
      unfold memGet
      rw [hy i hij.1, hx j hij.2]; rfl)
  refine ⟨a', h1, h2, ?_, ?_⟩
  · intro i j hi hj
    have := h3 (j, i) (mem_colPairs.2 ⟨hj, hi⟩)
    simp only at this
    rw [show aoff + i * lda + j = aoff + j + i * lda by omega]
    exact this
  · intro q hq
    apply h4
    intro hm
    obtain ⟨⟨i, j⟩, hij, rfl⟩ := List.mem_map.1 hm
    rw [mem_colPairs] at hij
    exact hq j i hij.2 hij.1 (by simp only; omega)

end

/-! ### With ring laws -/

theorem foldl_add_sum {R β : Type} [AddMonoid R] (l : List β) (v : β → R) (s : R) :
    l.foldl (fun s x => s + v x) s = s + (l.map v).sum := by
  induction l generalizing s with
  | nil => simp
  | cons x l ih => simp [ih, add_assoc]

theorem accum_eq {R : Type} [AddMonoid R] (k : Nat) (v : Nat → R) : accum k v = sumTo k v := by
  unfold accum sumTo
  rw [foldl_add_sum, zero_add]

theorem blasValue_eq {R : Type} [CommSemiring R] [BEq R] [LawfulBEq R] (alpha beta t old : R) :
    blasValue alpha beta t old = beta * old + alpha * t := by
  unfold blasValue
  split
  · rename_i h
    simp [eq_of_beq h]
  · rw [add_comm]

/-! ### From tensors to memory -/

theorem represents_get {α : Type} {t : Strided α} {f : List Nat → α} (h : t.Represents f) {j : List Nat}
    (hj : InBox j t.dims) : t.data[t.off + dot j t.strides]? = some (f j) := by
  have := h j hj
  unfold Strided.read Strided.addr at this
  rw [if_neg (by simp [hj.length]), innerProduct_norm (pyIndices_toIdx hj)] at this
  simp only at this
  split at this
  · rename_i hb
    simp only [Outcome.ok_bind] at this
    have e : ((t.off : Int) + (dot j t.strides : Nat)).toNat = t.off + dot j t.strides := by omega
    rw [e] at this
    have hlt : t.off + dot j t.strides < t.data.length := by omega
    rw [List.getElem?_eq_getElem hlt] at this ⊢
    simpa using this
  · simp at this

/-- New storage for a tensor: what the new elements are, and nothing else changed. -/
theorem frame_of_mem {α : Type} {t : Strided α} (w : t.WF) {d : List α} (hl : d.length = t.data.length)
    {f' : List Nat → α}
    (h1 : ∀ j, InBox j t.dims → d[t.off + dot j t.strides]? = some (f' j))
    (h2 : ∀ p, (∀ j, InBox j t.dims → p ≠ t.off + dot j t.strides) → d[p]? = t.data[p]?) :
    t.Frame { t with data := d } ∧ ({ t with data := d } : Strided α).Represents f' := by
  have fr : t.Frame { t with data := d } := ⟨rfl, rfl, rfl, hl, h2⟩
  exact ⟨fr, (represents_iff (fr.wf w)).2 h1⟩

end Einsums
