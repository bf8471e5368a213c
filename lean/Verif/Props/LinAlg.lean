import Verif.Proofs.Blas
import Mathlib.Algebra.Ring.Int.Defs
/-
C25, C26: row-major gemm, gemv and ger on top of the column-major BLAS contract.

`fA`, `fB`, `fC` are the elements as functions of the multi-index.  A row-major matrix may be a tensor
or a view: only "last stride is 1, first stride at least the number of columns" is required.
-/
namespace Einsums.Props
open Spec Model

theorem inBox2 {i j m n : Nat} : InBox [i, j] [m, n] ↔ i < m ∧ j < n := by simp [InBox]

theorem inBox2_cases {l : List Nat} {m n : Nat} (h : InBox l [m, n]) : ∃ i j, l = [i, j] ∧ i < m ∧ j < n := by
  match l, h with
  | [i, j], ⟨h1, h2, _⟩ => exact ⟨i, j, rfl, h1, h2⟩

/-- **C25.** For a row-major m×n matrix C, op(A) m×k and op(B) k×n, with k ≠ 0, any leading dimensions
and contents over a commutative semiring: `gemm` sets every element to
`beta*C(i,j) + alpha*Σ_l op(A)(i,l)*op(B)(l,j)` and changes nothing else. -/
theorem C25_gemm_partial {R : Type} [CommSemiring R] [BEq R] [LawfulBEq R] (ta tb : Bool) (m n k : Nat)
    (alpha beta : R) (A B C : Strided R) (lda ldb ldc : Nat) (fA fB fC : List Nat → R)
    (dA : A.dims = opDims ta m k) (dB : B.dims = opDims tb k n) (dC : C.dims = [m, n])
    (sA : A.strides = [lda, 1]) (sB : B.strides = [ldb, 1]) (sC : C.strides = [ldc, 1])
    (hlda : (if ta then m else k) ≤ lda) (hldb : (if tb then k else n) ≤ ldb) (hldc : n ≤ ldc)
    (hA : A.Represents fA) (hB : B.Represents fB) (w : C.WF) (hC : C.Represents fC) (hk : k ≠ 0) :
    ∃ C', gemm ta tb alpha A B beta C = .ok C' ∧ C.Frame C' ∧
      ∀ i j, i < m → j < n → C'.read [(i : Int), (j : Int)] = .ok (beta * fC [i, j] +
        alpha * sumTo k fun l => opElem ta fA i l * opElem tb fB l j) := by
  have hdim0 : C.dim 0 = m := by simp [Strided.dim, dC]
  have hdim1 : C.dim 1 = n := by simp [Strided.dim, dC]
  have hkk : (if ta = true then A.dim 0 else A.dim 1) = k := by
    cases ta <;> simp [Strided.dim, dA, opDims]
  have hs : A.stride 0 = lda ∧ B.stride 0 = ldb ∧ C.stride 0 = ldc := by
    simp [Strided.stride, sA, sB, sC]
  unfold gemm
  simp only [hdim0, hdim1, hkk, hs.1, hs.2.1, hs.2.2]
  by_cases hz : m = 0 ∨ n = 0
  · refine ⟨C, ?_, Strided.Frame.refl _, ?_⟩
    · unfold vendorGemm
      rw [if_pos (by tauto)]
      rfl
    · intro i j hi hj; omega
  obtain ⟨c', h1, h2, h3, h4⟩ := vendorGemm_mem (ta := ta) (tb := tb) (m := m) (n := n) (k := k)
    (alpha := alpha) (beta := beta) (a := A.data) (aoff := A.off) (lda := lda) (b := B.data)
    (boff := B.off) (ldb := ldb) (c := C.data) (coff := C.off) (ldc := ldc)
    (fun i l => opElem ta fA i l) (fun l j => opElem tb fB l j) (by omega) (by omega) hk hlda hldb hldc
    (by
      intro i l hi hl
      cases ta
      · have := represents_get hA (j := [i, l]) (by rw [dA]; exact inBox2.2 ⟨hi, hl⟩)
        simpa [sA, dot, opElem] using this
      · have := represents_get hA (j := [l, i]) (by rw [dA]; exact inBox2.2 ⟨hl, hi⟩)
        simpa [sA, dot, opElem] using this)
    (by
      intro l j hl hj
      cases tb
      · have := represents_get hB (j := [l, j]) (by rw [dB]; exact inBox2.2 ⟨hl, hj⟩)
        simpa [sB, dot, opElem] using this
      · have := represents_get hB (j := [j, l]) (by rw [dB]; exact inBox2.2 ⟨hj, hl⟩)
        simpa [sB, dot, opElem] using this)
    (by
      intro i j hi hj
      have := w.bound [i, j] (by rw [dC]; exact inBox2.2 ⟨hi, hj⟩)
      simpa [sC, dot, Nat.add_assoc] using this)
  rw [h1]
  obtain ⟨fr, r⟩ := frame_of_mem w h2 (f' := fun ij => beta * fC ij + alpha * sumTo k fun l =>
      opElem ta fA (ij.getD 0 0) l * opElem tb fB l (ij.getD 1 0))
    (by
      intro ij hij
      rw [dC] at hij
      obtain ⟨i, j, rfl, hi, hj⟩ := inBox2_cases hij
      have e := h3 i j hi hj
      have e2 := represents_get hC (j := [i, j]) (by rw [dC]; exact hij)
      have ea : C.off + dot [i, j] C.strides = C.off + i * ldc + j := by simp [sC, dot, Nat.add_assoc]
      rw [ea] at e2 ⊢
      rw [e, e2]
      simp only [Option.map_some, blasValue_eq, accum_eq]
      congr 3
      congr 1
      funext l
      simp [mul_comm])
    (by
      intro p hp
      apply h4
      intro i j hi hj e
      apply hp [i, j] (by rw [dC]; exact inBox2.2 ⟨hi, hj⟩)
      simp [sC, dot, e, Nat.add_assoc])
  refine ⟨_, rfl, fr, ?_⟩
  intro i j hi hj
  exact r [i, j] (by simp only [dC]; exact inBox2.2 ⟨hi, hj⟩)

/-- **C25 (refuted for an empty inner dimension).** When the inner dimension is 0 the product is the zero
matrix, so the result should be `beta*C`; for every `beta` the code returns `C` unchanged. -/
theorem C25_empty_inner {R : Type} [Add R] [Mul R] [Zero R] [BEq R] (ta tb : Bool) (alpha beta : R)
    (A B C : Strided R) (h : (if ta then A.dim 0 else A.dim 1) = 0) :
    gemm ta tb alpha A B beta C = .ok C := by
  unfold gemm vendorGemm
  simp [h]

theorem C25_refuted : ∃ A B C : Strided Int, A.IsTensor ∧ B.IsTensor ∧ C.IsTensor ∧
    A.dims = [1, 0] ∧ B.dims = [0, 1] ∧ C.dims = [1, 1] ∧
    ∃ C', gemm false false 1 A B 0 C = .ok C' ∧ C'.read [0, 0] = .ok 7 :=
  ⟨⟨[], 0, [1, 0], [0, 1]⟩, ⟨[], 0, [0, 1], [1, 1]⟩, ⟨[7], 0, [1, 1], [1, 1]⟩,
    ⟨rfl, by decide, by decide⟩, ⟨rfl, by decide, by decide⟩, ⟨rfl, by decide, by decide⟩, rfl, rfl, rfl,
    _, rfl, by decide⟩

/-- **C25 (refuted for views whose last stride is not 1).** The stride of the second dimension is never
passed to BLAS: multiplying by the identity a matrix view with strides (4, 2) reads the wrong elements. -/
theorem C25_refuted_view : ∃ A B C : Strided Int, A.WF ∧ A.dims = [2, 2] ∧ A.read [0, 1] = .ok 3 ∧
    ∃ C', gemm false false 1 A B 0 C = .ok C' ∧
      B = ⟨[1, 0, 0, 1], 0, [2, 2], [2, 1]⟩ ∧ C'.read [0, 1] = .ok 2 := by
  refine ⟨⟨[1, 2, 3, 4, 5, 6, 7, 8], 0, [2, 2], [4, 2]⟩, ⟨[1, 0, 0, 1], 0, [2, 2], [2, 1]⟩,
    ⟨[0, 0, 0, 0], 0, [2, 2], [2, 1]⟩, ⟨rfl, ?_, ?_⟩, rfl, by decide, _, rfl, rfl, by decide⟩
  · intro idx h
    obtain ⟨i, j, rfl, hi, hj⟩ := inBox2_cases h
    simp [dot]; omega
  · intro a b ha hb e
    obtain ⟨i, j, rfl, hi, hj⟩ := inBox2_cases ha
    obtain ⟨i', j', rfl, hi', hj'⟩ := inBox2_cases hb
    simp [dot] at e
    have : i = i' := by omega
    have : j = j' := by omega
    subst_vars; rfl

/-- A concrete case of C25, both operands transposed. -/
example : ∃ C', gemm true true 2 (⟨[1, 2, 3, 4, 5, 6], 0, [3, 2], [2, 1]⟩ : Strided Int)
    ⟨[1, 0, 2, 1, 1, 1], 0, [2, 3], [3, 1]⟩ 1 ⟨[10, 20, 30, 40], 0, [2, 2], [2, 1]⟩ = .ok C' ∧
    C'.read [1, 0] = .ok (1 * 30 + 2 * (2 * 1 + 4 * 0 + 6 * 2)) := by
  obtain ⟨C', h1, _, h2⟩ := C25_gemm_partial true true 2 2 3 2 1
    (⟨[1, 2, 3, 4, 5, 6], 0, [3, 2], [2, 1]⟩ : Strided Int) ⟨[1, 0, 2, 1, 1, 1], 0, [2, 3], [3, 1]⟩
    ⟨[10, 20, 30, 40], 0, [2, 2], [2, 1]⟩ 2 3 2
    (fun i => [1, 2, 3, 4, 5, 6].getD (rowMajor i [3, 2]) 0)
    (fun i => [1, 0, 2, 1, 1, 1].getD (rowMajor i [2, 3]) 0)
    (fun i => [10, 20, 30, 40].getD (rowMajor i [2, 2]) 0)
    rfl rfl rfl rfl rfl rfl (by decide) (by decide) (by decide)
    ((Strided.IsTensor.represents_iff ⟨rfl, by decide, by decide⟩).2 (by decide))
    ((Strided.IsTensor.represents_iff ⟨rfl, by decide, by decide⟩).2 (by decide))
    (Strided.IsTensor.wf ⟨rfl, by decide, by decide⟩)
    ((Strided.IsTensor.represents_iff ⟨rfl, by decide, by decide⟩).2 (by decide)) (by decide)
  exact ⟨C', h1, h2 1 0 (by decide) (by decide)⟩

/-! ### C26 -/

/-- **C26 (gemv).** For a row-major m×n matrix with m, n ≠ 0 and vectors of the matching lengths with any
positive strides: `y(i) := beta*y(i) + alpha*Σ_l op(A)(i,l)*z(l)`; nothing else changes. -/
theorem C26_gemv_partial {R : Type} [CommSemiring R] [BEq R] [LawfulBEq R] (trans : Bool) (m n : Nat)
    (alpha beta : R) (A z y : Strided R) (lda incx incy : Nat) (fA fz fy : List Nat → R)
    (dA : A.dims = [m, n]) (dz : z.dims = [if trans then m else n]) (dy : y.dims = [if trans then n else m])
    (sA : A.strides = [lda, 1]) (sz : z.strides = [incx]) (sy : y.strides = [incy])
    (hlda : n ≤ lda) (hx0 : incx ≠ 0) (hy0 : incy ≠ 0)
    (hA : A.Represents fA) (hz : z.Represents fz) (w : y.WF) (hy : y.Represents fy)
    (hm : m ≠ 0) (hn : n ≠ 0) :
    ∃ y', gemv trans alpha A z beta y = .ok y' ∧ y.Frame y' ∧
      ∀ i, i < (if trans then n else m) → y'.read [(i : Int)] = .ok (beta * fy [i] +
        alpha * sumTo (if trans then m else n) fun l => opElem trans fA i l * fz [l]) := by
  have e0 : A.dim 0 = m ∧ A.dim 1 = n ∧ A.stride 0 = lda ∧ z.stride 0 = incx ∧ y.stride 0 = incy := by
    simp [Strided.dim, Strided.stride, dA, sA, sz, sy]
  unfold gemv
  rw [e0.1, e0.2.1, e0.2.2.1, e0.2.2.2.1, e0.2.2.2.2]
  obtain ⟨y', h1, h2, h3, h4⟩ := vendorGemv_mem (trans := trans) (m := m) (n := n) (alpha := alpha)
    (beta := beta) (a := A.data) (aoff := A.off) (lda := lda) (x := z.data) (xoff := z.off) (incx := incx)
    (y := y.data) (yoff := y.off) (incy := incy) (fun i l => opElem trans fA i l) (fun l => fz [l])
    hm hn hlda hx0 hy0
    (by
      intro i l hi hl
      cases trans
      · have := represents_get hA (j := [i, l]) (by rw [dA]; exact inBox2.2 ⟨hi, hl⟩)
        simpa [sA, dot, opElem] using this
      · have := represents_get hA (j := [l, i]) (by rw [dA]; exact inBox2.2 ⟨hl, hi⟩)
        simpa [sA, dot, opElem] using this)
    (by
      intro l hl
      have := represents_get hz (j := [l]) (by rw [dz]; exact ⟨hl, trivial⟩)
      simpa [sz, dot] using this)
    (by
      intro i hi
      have := w.bound [i] (by rw [dy]; exact ⟨hi, trivial⟩)
      simpa [sy, dot] using this)
  rw [h1]
  obtain ⟨fr, r⟩ := frame_of_mem w h2 (f' := fun i => beta * fy i +
      alpha * sumTo (if trans then m else n) fun l => opElem trans fA (i.getD 0 0) l * fz [l])
    (by
      intro ij hij
      rw [dy] at hij
      match ij, hij with
      | [i], hij =>
        have e := h3 i hij.1
        have e2 := represents_get hy (j := [i]) (by rw [dy]; exact hij)
        have ea : y.off + dot [i] y.strides = y.off + i * incy := by simp [sy, dot]
        rw [ea] at e2 ⊢
        rw [e, e2]
        simp only [Option.map_some, blasValue_eq, accum_eq]
        rfl)
    (by
      intro p hp
      apply h4
      intro i hi e
      apply hp [i] (by rw [dy]; exact ⟨hi, trivial⟩)
      simp [sy, dot, e])
  refine ⟨_, rfl, fr, ?_⟩
  intro i hi
  exact r [i] (by simp only [dy]; exact ⟨hi, trivial⟩)

/-- **C26 (gemv, refuted for an empty matrix).** With no columns the product is zero and `y` should become
`beta*y`; the code returns `y` unchanged. -/
theorem C26_gemv_empty {R : Type} [Add R] [Mul R] [Zero R] [BEq R] (trans : Bool) (alpha beta : R)
    (A z y : Strided R) (h : A.dim 1 = 0) : gemv trans alpha A z beta y = .ok y := by
  unfold gemv vendorGemv
  simp [h]

theorem C26_gemv_refuted : ∃ A z y y' : Strided Int, A.IsTensor ∧ A.dims = [1, 0] ∧ z.dims = [0] ∧
    y.read [0] = .ok 7 ∧ gemv false 1 A z 0 y = .ok y' ∧ y'.read [0] = .ok 7 :=
  ⟨⟨[], 0, [1, 0], [0, 1]⟩, ⟨[], 0, [0], [1]⟩, ⟨[7], 0, [1], [1]⟩, _,
    ⟨rfl, by decide, by decide⟩, rfl, rfl, by decide, rfl, by decide⟩

/-- **C26 (ger).** For a row-major m×n matrix and vectors of lengths m and n with any positive strides:
`A(i,j) := A(i,j) + alpha*x(i)*y(j)`; nothing else changes. -/
theorem C26_ger {R : Type} [CommSemiring R] (m n : Nat) (alpha : R) (x y A : Strided R)
    (lda incx incy : Nat) (fA fx fy : List Nat → R) (dA : A.dims = [m, n]) (dx : x.dims = [m])
    (dy : y.dims = [n]) (sA : A.strides = [lda, 1]) (sx : x.strides = [incx]) (sy : y.strides = [incy])
    (hlda : max 1 n ≤ lda) (hx0 : incx ≠ 0) (hy0 : incy ≠ 0)
    (hx : x.Represents fx) (hy : y.Represents fy) (w : A.WF) (hA : A.Represents fA) :
    ∃ A', ger alpha x y A = .ok A' ∧ A.Frame A' ∧
      ∀ i j, i < m → j < n → A'.read [(i : Int), (j : Int)]
        = .ok (fA [i, j] + alpha * (fx [i] * fy [j])) := by
  have e0 : x.dim 0 = m ∧ y.dim 0 = n ∧ A.stride 0 = lda ∧ x.stride 0 = incx ∧ y.stride 0 = incy := by
    simp [Strided.dim, Strided.stride, dx, dy, sA, sx, sy]
  unfold ger
  rw [e0.1, e0.2.1, e0.2.2.1, e0.2.2.2.1, e0.2.2.2.2]
  obtain ⟨a', h1, h2, h3, h4⟩ := vendorGer_mem (m := m) (n := n) (alpha := alpha) (x := x.data)
    (xoff := x.off) (incx := incx) (y := y.data) (yoff := y.off) (incy := incy) (a := A.data)
    (aoff := A.off) (lda := lda) (fun i => fx [i]) (fun j => fy [j]) hlda hx0 hy0
    (by
      intro l hl
      have := represents_get hx (j := [l]) (by rw [dx]; exact ⟨hl, trivial⟩)
      simpa [sx, dot] using this)
    (by
      intro l hl
      have := represents_get hy (j := [l]) (by rw [dy]; exact ⟨hl, trivial⟩)
      simpa [sy, dot] using this)
    (by
      intro i j hi hj
      have := w.bound [i, j] (by rw [dA]; exact inBox2.2 ⟨hi, hj⟩)
      simpa [sA, dot, Nat.add_assoc] using this)
  rw [h1]
  obtain ⟨fr, r⟩ := frame_of_mem w h2 (f' := fun ij => fA ij +
      alpha * (fx [ij.getD 0 0] * fy [ij.getD 1 0]))
    (by
      intro ij hij
      rw [dA] at hij
      obtain ⟨i, j, rfl, hi, hj⟩ := inBox2_cases hij
      have e := h3 i j hi hj
      have e2 := represents_get hA (j := [i, j]) (by rw [dA]; exact hij)
      have ea : A.off + dot [i, j] A.strides = A.off + i * lda + j := by simp [sA, dot, Nat.add_assoc]
      rw [ea] at e2 ⊢
      rw [e, e2]
      simp only [Option.map_some, List.getD_cons_zero, List.getD_cons_succ]
      rw [mul_assoc, mul_comm (fy [j])])
    (by
      intro p hp
      apply h4
      intro i j hi hj e
      apply hp [i, j] (by rw [dA]; exact inBox2.2 ⟨hi, hj⟩)
      simp [sA, dot, e, Nat.add_assoc])
  refine ⟨_, rfl, fr, ?_⟩
  intro i j hi hj
  exact r [i, j] (by simp only [dA]; exact inBox2.2 ⟨hi, hj⟩)

/-- **C26 (ger, errors).** A zero vector stride or a too small leading dimension is refused before
anything is written. -/
theorem C26_ger_throws {R : Type} [Add R] [Mul R] (alpha : R) (x y A : Strided R)
    (h : x.stride 0 = 0 ∨ y.stride 0 = 0 ∨ A.stride 0 < max 1 (y.dim 0)) :
    (ger alpha x y A).isError = true := by
  unfold ger vendorGer
  by_cases h1 : x.stride 0 = 0
  · simp [h1, Outcome.isError]
  · by_cases h2 : y.stride 0 = 0
    · simp [h1, h2, Outcome.isError]
    · have h3 : A.stride 0 < max 1 (y.dim 0) := by tauto
      rw [if_neg h1, if_neg h2, if_pos h3]; rfl

/-- Concrete cases: a column of a 2×3 matrix (stride 3) as the vector. -/
example : gemv false 1 (⟨[1, 2, 3, 4], 0, [2, 2], [2, 1]⟩ : Strided Int)
    ⟨[1, 0, 0, 2, 0, 0], 0, [2], [3]⟩ 10 ⟨[1, 1], 0, [2], [1]⟩ = .ok ⟨[15, 21], 0, [2], [1]⟩ := by decide
example : ger 2 (⟨[1, 0, 0, 2, 0, 0], 0, [2], [3]⟩ : Strided Int) ⟨[1, 1], 0, [2], [1]⟩
    ⟨[0, 0, 9, 0, 0, 9], 0, [2, 2], [3, 1]⟩ = .ok ⟨[2, 2, 9, 4, 4, 9], 0, [2, 2], [3, 1]⟩ := by decide

end Einsums.Props
