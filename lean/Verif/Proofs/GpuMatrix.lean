import Mathlib.Algebra.BigOperators.Fin
import Verif.Model.GpuMatrix
import Verif.Proofs.Gpu
import Verif.Props.Gpu
import Verif.Props.GpuLinear
import Verif.Proofs.Gesv
import Verif.Proofs.Spectral
/-
Matrix functions on the device.
-/
namespace Einsums
open Spec Model Props Finset

variable {R : Type}

/-! ### Atomic additions -/

/-- Additions to memory, each done without interruption. -/
theorem add_run [AddCommMonoid R] {step : List R → Nat → Outcome (List R)} {pos : Nat → Nat} {val : Nat → R} (s : List Nat)
    (hstep : ∀ mem, ∀ c ∈ s, step mem c = memUpd mem (pos c) fun v => .ok (v + val c)) (mem : List R)
    (hb : ∀ c ∈ s, pos c < mem.length) :
    ∃ d, s.foldlM step mem = .ok d ∧ d.length = mem.length ∧
      ∀ q, d[q]? = mem[q]?.map (· + (s.map fun c => if pos c = q then val c else 0).sum) := by
  induction s generalizing mem with
  | nil => exact ⟨mem, rfl, rfl, fun q => by simp⟩
  | cons c s ih =>
    have hc := hb c (by simp)
    obtain ⟨d, e, h1, h2⟩ := ih (fun m c' h => hstep m c' (by simp [h])) (mem.set (pos c) (mem[pos c] + val c))
      (fun c' h => by simpa using hb c' (by simp [h]))
    refine ⟨d, ?_, by simpa using h1, fun q => ?_⟩
    · rw [List.foldlM_cons, hstep mem c (by simp)]
      simp only [memUpd, List.getElem?_eq_getElem hc, Outcome.ok_bind]
      exact e
    · rw [h2 q, List.map_cons, List.sum_cons]
      by_cases e' : pos c = q
      · subst e'
        rw [List.getElem?_set_self hc, List.getElem?_eq_getElem hc, if_pos rfl]
        simp [add_assoc]
      · rw [List.getElem?_set_ne e', if_neg e']
        simp

/-- The order of the iterations does not matter for a sum. -/
theorem schedule_sum [AddCommMonoid R] {l : Launch} (hl : 0 < l.size) {n : Nat} {s : List Nat}
    (hs : Schedule (l.threads fun w size => countersOf n size w) s) (f : Nat → R) :
    (s.map f).sum = ∑ c ∈ range n, f c := by
  rw [threads_eq] at hs
  have hp := hs.perm.trans (counters_perm (size := n) hl)
  rw [(hp.map f).sum_eq]
  rfl

theorem mem_schedule {l : Launch} (hl : 0 < l.size) {n : Nat} {s : List Nat}
    (hs : Schedule (l.threads fun w size => countersOf n size w) s) {c : Nat} : c ∈ s ↔ c < n := by
  rw [threads_eq] at hs
  rw [(hs.perm.trans (counters_perm (size := n) hl)).mem_iff, List.mem_range]

/-- Sum over the numbers below `p * n` by quotient and remainder. -/
theorem sum_divMod [AddCommMonoid R] (p n : Nat) (f : Nat → Nat → R) :
    ∑ c ∈ range (p * n), f (c / n) (c % n) = ∑ q ∈ range p, ∑ a ∈ range n, f q a := by
  induction p with
  | zero => simp
  | succ p ih =>
    rw [Nat.succ_mul, sum_range_add, ih, sum_range_succ]
    congr 1
    apply sum_congr rfl
    intro a ha
    have ha := mem_range.1 ha
    have hn : 0 < n := by omega
    rw [Nat.mul_comm p n, Nat.mul_add_div hn, Nat.div_eq_of_lt ha, Nat.mul_add_mod, Nat.mod_eq_of_lt ha, Nat.add_zero]

theorem sum_symmDecode [AddCommMonoid R] (m n : Nat) (f : Nat → Nat → Nat → Nat → R) :
    ∑ c ∈ range (m * m * n * n), (fun t : Nat × Nat × Nat × Nat => f t.1 t.2.1 t.2.2.1 t.2.2.2) (symmDecode m n c) =
      ∑ j ∈ range m, ∑ i ∈ range m, ∑ b ∈ range n, ∑ a ∈ range n, f a b i j := by
  unfold symmDecode
  refine (sum_divMod (m * m * n) n fun q a => f a (q % n) (q / n % m) (q / n / m)).trans ?_
  refine (sum_divMod (m * m) n fun q b => ∑ a ∈ range n, f a b (q % m) (q / m)).trans ?_
  exact sum_divMod m m fun j i => ∑ b ∈ range n, ∑ a ∈ range n, f a b i j

theorem symmDecode_lt {m n c : Nat} (h : c < m * m * n * n) :
    (symmDecode m n c).1 < n ∧ (symmDecode m n c).2.1 < n ∧ (symmDecode m n c).2.2.1 < m ∧ (symmDecode m n c).2.2.2 < m := by
  have hn : 0 < n := by
    rcases Nat.eq_zero_or_pos n with e | e
    · simp [e] at h
    · exact e
  have hm : 0 < m := by
    rcases Nat.eq_zero_or_pos m with e | e
    · simp [e] at h
    · exact e
  refine ⟨Nat.mod_lt _ hn, Nat.mod_lt _ hn, Nat.mod_lt _ hm, ?_⟩
  show c / n / n / m < m
  rw [Nat.div_lt_iff_lt_mul hm, Nat.div_lt_iff_lt_mul hn, Nat.div_lt_iff_lt_mul hn]
  exact h

/-! ### symm_gemm -/

theorem symmTerm_ok [Mul R] {ta tb : Bool} {m n : Nat} {A B : Strided R} {lda ldb : Nat} {a b : Nat → Nat → R}
    (hA : Holds A (mat m m a)) (hB : Holds B (mat (if tb then n else m) (if tb then m else n) b)) (sA : A.strides = [lda, 1])
    (sB : B.strides = [ldb, 1]) {c : Nat} (hc : c < m * m * n * n) :
    symmTerm ta tb m n A B c = .ok ((fun t : Nat × Nat × Nat × Nat =>
      (if ta then a t.2.2.2 t.2.2.1 else a t.2.2.1 t.2.2.2) *
        ((if tb then b t.1 t.2.2.1 else b t.2.2.1 t.1) * (if tb then b t.2.1 t.2.2.2 else b t.2.2.2 t.2.1))) (symmDecode m n c)) := by
  obtain ⟨h1, h2, h3, h4⟩ := symmDecode_lt hc
  unfold symmTerm
  generalize symmDecode m n c = t at *
  obtain ⟨x, y, i, j⟩ := t
  have rA := (holdsMat_iff hA.dims sA a).1 hA
  have rB := (holdsMat_iff hB.dims sB b).1 hB
  have s0 : A.stride 0 = lda := by simp [Strided.stride, sA]
  have s1 : B.stride 0 = ldb := by simp [Strided.stride, sB]
  simp only at h1 h2 h3 h4
  have e1 : memGet A.data (A.off + if ta then j * A.stride 0 + i else i * A.stride 0 + j) =
      .ok (if ta then a j i else a i j) := by
    rw [s0]
    cases ta
    · simp only [Bool.false_eq_true, if_false, memGet, ← Nat.add_assoc, rA i j h3 h4]
    · simp only [if_true, memGet, ← Nat.add_assoc, rA j i h4 h3]
  have e2 : ∀ x i, x < n → i < m → memGet B.data (B.off + if tb then x * B.stride 0 + i else i * B.stride 0 + x) =
      .ok (if tb then b x i else b i x) := by
    intro x i hx hi
    rw [s1]
    cases tb
    · simp only [Bool.false_eq_true, if_false] at rB
      simp only [Bool.false_eq_true, if_false, memGet, ← Nat.add_assoc, rB i x hi hx]
    · simp only [if_true] at rB
      simp only [if_true, memGet, ← Nat.add_assoc, rB x i hx hi]
  simp only [e1, e2 x i h1 h3, e2 y j h2 h4, Outcome.ok_bind]
  rfl

theorem rowPos_inj {ld n i j i' j' : Nat} (h : n ≤ ld) (hj : j < n) (hj' : j' < n) (e : i * ld + j = i' * ld + j') :
    i = i' ∧ j = j' := by
  have h1 : (i * ld + j) / ld = i := by
    rw [Nat.mul_comm, Nat.mul_add_div (by omega), Nat.div_eq_of_lt (by omega), Nat.add_zero]
  have h2 : (i' * ld + j') / ld = i' := by
    rw [Nat.mul_comm, Nat.mul_add_div (by omega), Nat.div_eq_of_lt (by omega), Nat.add_zero]
  have h3 : i = i' := by rw [← h1, ← h2, e]
  subst h3
  exact ⟨rfl, by omega⟩

open Matrix in
/-- The kernel of `symm_gemm` on a matrix of zeros. -/
theorem symmKernel_ok [CommRing R] {ta tb : Bool} {m n : Nat} {A B C : Strided R} {lda ldb ldc : Nat} {a b : Nat → Nat → R}
    (hA : Holds A (mat m m a)) (hB : Holds B (mat (if tb then n else m) (if tb then m else n) b)) (sA : A.strides = [lda, 1])
    (sB : B.strides = [ldb, 1]) (sC : C.strides = [ldc, 1]) (hldc : n ≤ ldc) (hC : Holds C (mat n n fun _ _ => (0 : R)))
    {s : List Nat} (hs : Schedule (symmThreads A C) s) :
    ∃ d, s.foldlM (symmStep ta tb m n A B C) C.data = .ok d ∧ C.Frame { C with data := d } ∧
      Holds { C with data := d } ((opMat tb m n b)ᵀ * opMat ta m m a * opMat tb m n b) := by
  have a0 : A.dim 0 = m := by simp [Strided.dim, hA.dims]
  have c0 : C.dim 0 = n := by simp [Strided.dim, hC.dims]
  have sc0 : C.stride 0 = ldc := by simp [Strided.stride, sC]
  unfold symmThreads at hs
  rw [a0, c0] at hs
  have hpos := launchSwapped_pos (m * m * n * n)
  have hm : ∀ c ∈ s, c < m * m * n * n := fun c hc => (mem_schedule hpos hs).1 hc
  have rC := (holdsMat_iff hC.dims sC _).1 hC
  let T : Nat → Nat → Nat → Nat → R := fun x y i j =>
    (if ta then a j i else a i j) * ((if tb then b x i else b i x) * (if tb then b y j else b j y))
  let val : Nat → R := fun c => (fun t : Nat × Nat × Nat × Nat => T t.1 t.2.1 t.2.2.1 t.2.2.2) (symmDecode m n c)
  let pos : Nat → Nat := fun c => C.off + ((symmDecode m n c).1 * ldc + (symmDecode m n c).2.1)
  obtain ⟨d, e, h1, h2⟩ := add_run (step := symmStep ta tb m n A B C) (pos := pos) (val := val) s
    (by
      intro mem c hc
      unfold symmStep
      rw [symmTerm_ok hA hB sA sB (hm c hc), sc0]
      rfl) C.data
    (by
      intro c hc
      obtain ⟨x1, x2, _, _⟩ := symmDecode_lt (hm c hc)
      have := (List.getElem?_eq_some_iff.1 (rC _ _ x1 x2)).1
      show C.off + ((symmDecode m n c).1 * ldc + (symmDecode m n c).2.1) < _
      omega)
  refine ⟨d, e, frame_of_rows hC.dims sC h1 ?_, hC.dims, ?_⟩
  · intro p hp
    rw [h2 p]
    have : (s.map fun c => if pos c = p then val c else 0).sum = 0 := by
      apply List.sum_eq_zero
      intro x hx
      obtain ⟨c, hc, rfl⟩ := List.mem_map.1 hx
      rw [if_neg]
      obtain ⟨x1, x2, _, _⟩ := symmDecode_lt (hm c hc)
      have := hp _ _ x1 x2
      show C.off + ((symmDecode m n c).1 * ldc + (symmDecode m n c).2.1) ≠ p
      omega
    rw [this]
    simp
  · intro x y
    rw [read2_iff (t := { C with data := d }) hC.dims sC]
    show d[C.off + x * ldc + y]? = _
    rw [h2, rC x y x.2 y.2, schedule_sum hpos hs, Option.map_some, zero_add]
    congr 1
    have e1 : ∀ c ∈ range (m * m * n * n), (if pos c = C.off + x.1 * ldc + y.1 then val c else 0) =
        (fun t : Nat × Nat × Nat × Nat => (fun p q i j => if p = x.1 ∧ q = y.1 then T p q i j else 0) t.1 t.2.1 t.2.2.1 t.2.2.2)
          (symmDecode m n c) := by
      intro c hc
      obtain ⟨x1, x2, _, _⟩ := symmDecode_lt (mem_range.1 hc)
      by_cases hq : (symmDecode m n c).1 = x.1 ∧ (symmDecode m n c).2.1 = y.1
      · have : pos c = C.off + x.1 * ldc + y.1 := by
          show C.off + ((symmDecode m n c).1 * ldc + (symmDecode m n c).2.1) = _
          rw [hq.1, hq.2]; omega
        simp only [this, hq, and_self, if_true]
        show T _ _ _ _ = _
        rw [hq.1, hq.2]
      · have : pos c ≠ C.off + x.1 * ldc + y.1 := by
          intro h
          have h : C.off + ((symmDecode m n c).1 * ldc + (symmDecode m n c).2.1) = C.off + x.1 * ldc + y.1 := h
          exact hq (rowPos_inj hldc x2 y.2 (by omega))
        simp only [this, hq, if_false]
    rw [sum_congr rfl e1, sum_symmDecode m n fun p q i j => if p = x.1 ∧ q = y.1 then T p q i j else 0]
    have e2 : ∀ i j, (∑ q ∈ range n, ∑ p ∈ range n, if p = x.1 ∧ q = y.1 then T p q i j else 0) = T x y i j := by
      intro i j
      rw [sum_eq_single y.1, sum_eq_single x.1]
      · simp
      · intro p _ hp; simp [hp]
      · intro h; exact absurd (mem_range.2 x.2) h
      · intro q _ hq; simp [hq]
      · intro h; exact absurd (mem_range.2 y.2) h
    simp only [e2]
    rw [Matrix.mul_apply, sum_range]
    apply sum_congr rfl
    intro j _
    rw [Matrix.mul_apply, sum_range, sum_mul]
    apply sum_congr rfl
    intro i _
    simp only [T, opMat, Matrix.transpose_apply]
    cases ta <;> cases tb <;> simp <;> ring

theorem symmOverflow_false {m n : Nat} (hn : n ≠ 0) (h : m * m * n * n < 2 ^ 31) : symmOverflow m n = false := by
  have h1 : m * m * n ≤ m * m * n * n := Nat.le_mul_of_pos_right _ (by omega)
  have h2 : m * m ≤ m * m * n := Nat.le_mul_of_pos_right _ (by omega)
  unfold symmOverflow
  generalize 2 ^ 31 = z at *
  simp only [decide_eq_false_iff_not]
  omega

open Matrix in
theorem deviceSymmGemm_ok [CommRing R] {ndebug ta tb : Bool} {m n : Nat} {A B C : Strided R} {lda ldb ldc : Nat}
    {a b : Nat → Nat → R} (hA : Holds A (mat m m a)) (hB : Holds B (mat (if tb then n else m) (if tb then m else n) b))
    (sA : A.strides = [lda, 1]) (sB : B.strides = [ldb, 1]) (wC : C.WF) (dC : C.dims = [n, n]) (sC : C.strides = [ldc, 1])
    (hldc : n ≤ ldc) (hn : n ≠ 0) (h : ndebug = true ∨ n = m) (ho : m * m * n * n < 2 ^ 31) (r : Nat → R)
    {s0 : List (Nat × RmwOp)} {s1 : List Nat} (h0 : Schedule (setAllThreads C) s0) (h1 : Schedule (symmThreads A C) s1) :
    ∃ C', deviceSymmGemm ndebug ta tb A B C r s0 s1 = .ok C' ∧ C.Frame C' ∧
      Holds C' ((opMat tb m n b)ᵀ * opMat ta m m a * opMat tb m n b) := by
  have a0 : A.dim 0 = m ∧ A.dim 1 = m := by simp [Strided.dim, hA.dims]
  have b0 : B.dim 0 = (if tb then n else m) ∧ B.dim 1 = (if tb then m else n) := by simp [Strided.dim, hB.dims]
  have c0 : C.dim 0 = n ∧ C.dim 1 = n := by simp [Strided.dim, dC]
  have hassert : ¬ (ndebug = false ∧ symmGemmAssert ta tb A B C = false) := by
    rintro ⟨x1, x2⟩
    rcases h with h | h
    · rw [h] at x1; cases x1
    · cases ta <;> cases tb <;> simp [symmGemmAssert, a0, b0, c0, h] at x2
  obtain ⟨D, e1, f1, r1⟩ := Props.C129_set_all_partial (0 : R) C wC (by rw [dC]; simp [numel]; omega)
    (by rw [dC, sC]; simp [numel, linearSize, Nat.mul_comm ldc]; exact Nat.mul_le_mul (Nat.le_refl _) hldc) r s0 h0
  have dD : D.dims = [n, n] := f1.dims.trans dC
  have sD : D.strides = [ldc, 1] := f1.strides.trans sC
  have hD : Holds D (mat n n fun _ _ => (0 : R)) := ⟨dD, fun i j => r1 [i.1, j.1] (by rw [dD]; simp [InBox])⟩
  have d0 : D.dim 0 = n := by simp [Strided.dim, dD]
  have h1' : Schedule (symmThreads A D) s1 := by
    unfold symmThreads at h1 ⊢
    rw [d0]; rw [c0.1] at h1; exact h1
  obtain ⟨d, e2, f2, r2⟩ := symmKernel_ok (ta := ta) hA hB sA sB sD hldc hD h1'
  refine ⟨{ D with data := d }, ?_, f1.trans f2, r2⟩
  unfold deviceSymmGemm
  rw [if_neg hassert, e1]
  simp only [Outcome.ok_bind, a0.1, d0, symmOverflow_false hn ho, Bool.false_eq_true, if_false]
  rw [e2]
  rfl

/-! ### syev, pow -/

theorem deviceSyev_eq [Zero R] {syev : SyevFn R} {vectors : Bool} {n : Nat} {A W : Strided R} (d : A.dims = [n, n]) (hn : n ≠ 0) :
    deviceSyev syev vectors A W = syevT syev vectors A W := by
  have d0 : A.dim 0 = n := by simp [Strided.dim, d]
  have d1 : A.dim 1 = n := by simp [Strided.dim, d]
  unfold deviceSyev syevT
  rw [d0, d1, if_neg (by simp), show max 1 (3 * n) = 3 * n by omega]

theorem eigToDiag_ok [Zero R] {rpow : R → R → R} {D eigs : Strided R} {n ld : Nat} (dD : D.dims = [n, n])
    (sD : D.strides = [ld, 1]) (hl : n ≤ ld) (hD : Holds D (mat n n fun _ _ => (0 : R))) {w : Nat → R} (dE : eigs.strides = [1])
    (hE : HoldsVec eigs fun i : Fin n => w i) (expo : R) (r : Nat → R) {sched : List (Nat × RmwOp)}
    (hs : Schedule (eigDiagThreads n) sched) :
    ∃ D', eigToDiag rpow D eigs expo r sched = .ok D' ∧ D.Frame D' ∧
      Holds D' (mat n n fun i j => if i = j then rpow (w i) expo else 0) := by
  have rD := (holdsMat_iff dD sD _).1 hD
  have s0 : D.stride 0 = ld := by simp [Strided.stride, sD]
  obtain ⟨d, e, h1, h2, h3⟩ := store_run (l := ⟨dim3 32, dim3 1⟩) (by decide) (n := n) (t := D)
    (addr := fun i => .ok (D.off + (i * D.stride 0 + i))) (pos := fun i => D.off + (i * D.stride 0 + i))
    (f := fun i _ => do
      let x ← memGet eigs.data (eigs.off + i)
      return rpow x expo) (h := fun i => rpow (w i) expo) (fun _ _ => rfl)
    (by
      intro c hc
      have := (List.getElem?_eq_some_iff.1 (rD c c hc hc)).1
      simp only [s0]; omega)
    (by
      intro c c' hc hc' h
      simp only [s0] at h
      have h' : c = c' := (rowPos_inj hl hc hc' (by omega)).1
      rw [h'])
    (by
      intro c hc v
      have := (read1_iff hE.dims dE _).1 (hE.elems ⟨c, hc⟩)
      simp only [Nat.mul_one] at this
      simp only [memGet, this, Outcome.ok_bind]
      rfl) r hs
  refine ⟨{ D with data := d }, e, frame_of_rows dD sD h1 ?_, dD, ?_⟩
  · intro p hp
    apply h2
    intro c hc
    have := hp c c hc hc
    rw [s0]; omega
  · intro i j
    rw [read2_iff (t := { D with data := d }) dD sD]
    show d[D.off + i * ld + j]? = _
    by_cases hij : i = j
    · subst hij
      have := h3 i.1 i.2
      rw [s0, ← Nat.add_assoc] at this
      rw [this]; simp [mat]
    · have hij' : i.1 ≠ j.1 := fun h => hij (Fin.ext h)
      rw [h2, rD i j i.2 j.2]
      · simp [mat, hij']
      · intro c hc h
        rw [s0] at h
        obtain ⟨x1, x2⟩ := rowPos_inj (i := i.1) (i' := c) hl j.2 hc (by omega)
        exact hij' (x1.trans x2.symm)

/-- `pow` up to the product. -/
theorem devicePow_steps [CommRing R] {ndebug : Bool} {syev : SyevFn R} {rpow : R → R → R} {z : Nat → R} {n : Nat} {A : Strided R}
    {alpha cutoff : R} (wA : A.IsTensor) (hn : n ≠ 0) {a : Nat → Nat → R} (hA : Holds A (mat n n a))
    (r : Nat → R) {sCopy sZero sDiag : List (Nat × RmwOp)} (s0 : List (Nat × RmwOp)) (s1 : List Nat)
    (hCopy : Schedule (assignThreads (Strided.mk' z A.dims) A) sCopy) (hZero : Schedule (setAllThreads (Strided.mk' z A.dims)) sZero)
    (hDiag : Schedule (eigDiagThreads n) sDiag) :
    let o := syev true n (crop n n fun i j => a j i)
    ∃ D V, devicePow ndebug syev rpow z A alpha cutoff r sCopy sZero sDiag s0 s1 =
        deviceSymmGemm ndebug false false D V (Strided.mk' z [n, n]) r s0 s1 ∧ D.strides = [n, 1] ∧ V.strides = [n, 1] ∧
      Holds D (mat n n fun i j => if i = j then rpow (o.1 i) alpha else 0) ∧ Holds V (mat n n fun i j => o.2 j i) := by
  intro o
  have d0 : A.dim 0 = n := by simp [Strided.dim, hA.dims]
  obtain ⟨wF, sF, dF⟩ := fresh_matrix z n n
  rw [hA.dims] at hCopy hZero
  have ne : A.dims ≠ [] := by rw [hA.dims]; simp
  -- the copy
  obtain ⟨t0, et, hcp⟩ := C130_assign_partial .deviceOnly (by simp) z (Strided.mk' z [n, n]) A wF wA ne
    (by rw [hA.dims, dF]) _ (represents_of_holds hA) r
  have et0 : t0 = Strided.mk' z [n, n] := by
    rw [hA.dims] at et
    have : deviceRealloc (Strided.mk' z [n, n]).dims [n, n] = false := by
      rw [dF]
      simp [deviceRealloc, hn, List.range_succ]
    unfold deviceTarget at et
    rw [this] at et
    simp only [Bool.false_eq_true, if_false, Outcome.ok.injEq] at et
    exact et.symm
  rw [et0] at hcp
  obtain ⟨E, eE, wE, dE, rE⟩ := hcp sCopy hCopy
  rw [hA.dims] at dE
  have hE : Holds E (mat n n a) := ⟨dE, fun i j => rE [i.1, j.1] (by rw [dE]; simp [InBox])⟩
  -- the eigenvectors
  have wW : (Strided.mk' z [n]).IsTensor := isTensor_mk' z (by simp)
  have sW : (Strided.mk' z [n]).strides = [1] := by rw [wW.strides]; rfl
  obtain ⟨V, W, e1, hV, fV, hW, fW⟩ := syevT_ok (syev := syev) (vectors := true) (tensor_strides2 wE dE) (Nat.le_refl _)
    hn hE wW.wf rfl sW
  -- the diagonal
  obtain ⟨D, e2, f2, r2⟩ := C129_set_all_tensor (0 : R) (Strided.mk' z [n, n]) wF (by rw [dF]; simp) r sZero hZero
  have dD : D.dims = [n, n] := f2.dims.trans dF
  have sD : D.strides = [n, 1] := f2.strides.trans sF
  have hD : Holds D (mat n n fun _ _ => (0 : R)) := ⟨dD, fun i j => r2 [i.1, j.1] (by rw [dD]; simp [InBox])⟩
  obtain ⟨D', e3, f3, h3⟩ := eigToDiag_ok (rpow := rpow) dD sD (Nat.le_refl _) hD (fW.strides.trans sW) hW alpha r hDiag
  refine ⟨D', V, ?_, f3.strides.trans sD, fV.strides.trans (tensor_strides2 wE dE), h3, hV⟩
  unfold devicePow
  rw [d0, hA.dims, eE]
  simp only [Outcome.ok_bind]
  rw [deviceSyev_eq dE hn, e1]
  simp only [Outcome.ok_bind]
  rw [e2]
  simp only [Outcome.ok_bind]
  rw [e3]
  rfl

open Matrix in
theorem devicePow_ok [CommRing R] {ndebug : Bool} {syev : SyevFn R} {rpow : R → R → R} {z : Nat → R} {n : Nat} {A : Strided R}
    {alpha cutoff : R} (wA : A.IsTensor) (hn : n ≠ 0) (ho : n * n * n * n < 2 ^ 31) {a : Nat → Nat → R} (hA : Holds A (mat n n a))
    (r : Nat → R) {sCopy sZero sDiag s0 : List (Nat × RmwOp)} {s1 : List Nat}
    (hCopy : Schedule (assignThreads (Strided.mk' z A.dims) A) sCopy) (hZero : Schedule (setAllThreads (Strided.mk' z A.dims)) sZero)
    (hDiag : Schedule (eigDiagThreads n) sDiag) (h0 : Schedule (setAllThreads (Strided.mk' z A.dims)) s0)
    (h1 : Schedule (symmThreads A (Strided.mk' z A.dims)) s1) :
    let o := syev true n (crop n n fun i j => a j i)
    ∃ P, devicePow ndebug syev rpow z A alpha cutoff r sCopy sZero sDiag s0 s1 = .ok P ∧ P.IsTensor ∧
      Holds P (mat n n o.2 * diagonal (fun k : Fin n => rpow (o.1 k) alpha) * (mat n n o.2)ᵀ) := by
  intro o
  have d0 : A.dim 0 = n := by simp [Strided.dim, hA.dims]
  obtain ⟨wF, sF, dF⟩ := fresh_matrix z n n
  obtain ⟨D', V, e, sD, sV, h3, hV⟩ := devicePow_steps (ndebug := ndebug) (syev := syev) (rpow := rpow) (z := z) (alpha := alpha)
    (cutoff := cutoff) wA hn hA r s0 s1 hCopy hZero hDiag
  rw [hA.dims] at h0 h1
  -- the product
  have h1' : Schedule (symmThreads D' (Strided.mk' z [n, n])) s1 := by
    have : symmThreads D' (Strided.mk' z [n, n]) = symmThreads A (Strided.mk' z [n, n]) := by
      unfold symmThreads
      rw [d0, show D'.dim 0 = n by simp [Strided.dim, h3.dims]]
    rw [this]; exact h1
  obtain ⟨P, e4, f4, h4⟩ := deviceSymmGemm_ok (ndebug := ndebug) (ta := false) (tb := false) (m := n) (n := n) h3 hV
    sD sV wF.wf dF sF (Nat.le_refl _) hn (Or.inr rfl) ho r h0 h1'
  refine ⟨P, e.trans e4, isTensor_of_frame wF f4, ?_⟩
  · convert h4 using 1
    have : (diagonal fun k : Fin n => rpow (o.1 k) alpha) = opMat false n n fun i j => if i = j then rpow (o.1 i) alpha else 0 := by
      funext i j
      by_cases h : i = j
      · subst h; simp [opMat]
      · have h' : i.1 ≠ j.1 := fun e => h (Fin.ext e)
        rw [Matrix.diagonal_apply_ne _ h]
        show (0 : R) = if i.1 = j.1 then _ else 0
        rw [if_neg h']
    rw [this]
    rfl

/-! ### ger -/

/-- Transposition of a matrix by `sort`. -/
theorem deviceTranspose_ok [CommRing R] {m n : Nat} {A C : Strided R} {fA : Nat → Nat → R} (tA : A.RowMajor)
    (hA : Holds A (mat m n fA)) (wC : C.WF) (dC : C.dims = [n, m]) (hn : m * n < 2 ^ 31) (r : Nat → R)
    {sched : List (Nat × Nat × RmwOp)} (hs : Schedule (sortThreads A) sched) :
    ∃ C', deviceSort 0 ["i", "j"] C 1 ["j", "i"] A r sched = .ok C' ∧ C.Frame C' ∧ Holds C' (mat n m fun i j => fA j i) := by
  obtain ⟨C', e, f, h⟩ := C135_sort_partial (fun l => if l = "i" then n else m) ["j", "i"] ["i", "j"] A C _ 1 (by decide) (by decide)
    (by rw [hA.dims]; simp) (by rw [dC]; simp) tA wC (by rw [hA.dims]; simpa [numel] using hn) (represents_of_holds hA) r sched hs
  refine ⟨C', e, f, f.dims.trans dC, fun i j => ?_⟩
  have := h (fun l => if l = "i" then i.1 else j.1) (by
    intro l hl
    rcases List.mem_cons.1 hl with rfl | hl
    · simp
    · rw [List.mem_singleton.1 hl]; simp)
  simpa [mat, toIdx] using this

theorem deviceGer_ok [CommRing R] [BEq R] {conj : R → R} {z : Nat → R} {m n incx incy : Nat} {alpha : R} {X Y A : Strided R}
    {fA : Nat → Nat → R} {fx fy : Nat → R} (hm : m ≠ 0) (hn : m * n < 2 ^ 31) (tA : A.RowMajor) (hA : Holds A (mat m n fA))
    (hX : HoldsVec X fun i : Fin m => fx i) (hY : HoldsVec Y fun i : Fin n => fy i) (sX : X.strides = [incx]) (sY : Y.strides = [incy])
    (hx0 : incx ≠ 0) (hy0 : incy ≠ 0) (r : Nat → R) {s1 s2 : List (Nat × Nat × RmwOp)} (h1 : Schedule (sortThreads A) s1)
    (h2 : Schedule (sortThreads (Strided.mk' z [n, m])) s2) :
    ∃ A', deviceGer conj z alpha X Y A r s1 s2 = .ok A' ∧ A.Frame A' ∧
      Holds A' (mat m n fun i j => fA i j + alpha * fx i * conj (fy j)) := by
  have a0 : A.dim 0 = m ∧ A.dim 1 = n := by simp [Strided.dim, hA.dims]
  have x0 : X.dim 0 = m := by simp [Strided.dim, hX.dims]
  have y0 : Y.dim 0 = n := by simp [Strided.dim, hY.dims]
  have x1 : X.stride 0 = incx := by simp [Strided.stride, sX]
  have y1 : Y.stride 0 = incy := by simp [Strided.stride, sY]
  obtain ⟨wF, sF, dF⟩ := fresh_matrix z n m
  obtain ⟨T, e1, f1, t1⟩ := deviceTranspose_ok tA hA wF.wf dF hn r h1
  have sT : T.strides = [m, 1] := f1.strides.trans sF
  have t0 : T.stride 0 = m := by simp [Strided.stride, sT]
  have rT := (holdsMat_iff t1.dims sT _).1 t1
  obtain ⟨d, e2, l2, g2, o2⟩ := vendorGer_mem (m := n) (n := m) (alpha := alpha) (x := Y.data.map conj) (xoff := Y.off) (incx := incy)
    (y := X.data) (yoff := X.off) (incy := incx) (a := T.data) (aoff := T.off) (lda := m) (fun j => conj (fy j)) fx (by omega) hy0 hx0
    (by
      intro j hj
      have := represents_get (holdsVec_represents hY) (j := [j]) (by rw [hY.dims]; exact ⟨hj, trivial⟩)
      simp only [sY, dot, Nat.add_zero, List.getD_cons_zero] at this
      rw [List.getElem?_map, this]; rfl)
    (by
      intro i hi
      have := represents_get (holdsVec_represents hX) (j := [i]) (by rw [hX.dims]; exact ⟨hi, trivial⟩)
      simpa only [sX, dot, Nat.add_zero, List.getD_cons_zero] using this)
    (fun i j hi hj => (List.getElem?_eq_some_iff.1 (rT i j hi hj)).1)
  have e2' : fortranGer m n alpha X.data X.off incx (Y.data.map conj) Y.off incy T.data T.off m = .ok d := by
    unfold vendorGer at e2
    rw [if_neg hy0, if_neg hx0, if_neg (by omega)] at e2
    exact e2
  have hT' : Holds { T with data := d } (mat n m fun i j => fA j i + alpha * fx j * conj (fy i)) := by
    refine (holdsMat_iff (t := { T with data := d }) t1.dims sT _).2 ?_
    intro i j hi hj
    show d[T.off + i * m + j]? = _
    rw [g2 i j hi hj, rT i j hi hj]
    rfl
  have fT : T.Frame { T with data := d } := frame_of_rows t1.dims sT l2 o2
  have wT' : Model.Strided.IsTensor { T with data := d } := isTensor_of_frame wF (f1.trans fT)
  have th : sortThreads { T with data := d } = sortThreads (Strided.mk' z [n, m]) := by
    unfold sortThreads
    have : ({ T with data := d } : Strided R).dims = (Strided.mk' z [n, m]).dims := t1.dims.trans dF.symm
    rw [this]
  obtain ⟨A', e3, f3, t3⟩ := deviceTranspose_ok wT'.rowMajor hT' tA.wf hA.dims (by rwa [Nat.mul_comm]) r (by rw [th]; exact h2)
  refine ⟨A', ?_, f3, t3⟩
  unfold deviceGer
  rw [a0.1, a0.2, x0, y0, x1, y1, e1]
  simp only [Outcome.ok_bind]
  rw [t0, e2']
  exact e3

/-! ### gesv -/

theorem deviceGesv_ok [Zero R] {nvidia : Bool} {gesv : GesvRoutine R} {n k lda ldb : Nat} (hl : max 1 n ≤ lda) (hl' : max 1 n ≤ ldb)
    {A B : Strided R} (hs : A.strides = [lda, 1]) (hs' : B.strides = [ldb, 1]) {a b : Nat → Nat → R} (hA : Holds A (mat n n a))
    (hB : Holds B (mat k n b)) :
    let r := gesv n k (crop n n fun i j => a j i) (crop n k fun i j => b j i)
    ∃ A' B', deviceGesv nvidia gesv A B = .ok (r.1, A', if nvidia then B else B') ∧ Holds A' (mat n n fun i j => r.2.1 j i) ∧
      Holds B' (mat k n fun i j => r.2.2 j i) ∧ A.Frame A' ∧ B.Frame B' := by
  intro r
  have h := (holdsMat_iff hA.dims hs a).1 hA
  have h' := (holdsMat_iff hB.dims hs' b).1 hB
  obtain ⟨d', e', e1, e2, e3, e4, e5, e6, e7⟩ := vendorGesv_ok (gesv := gesv) hl hl' h h'
  have d0 : A.dim 0 = n := by simp [Strided.dim, hA.dims]
  have b0 : B.dim 0 = k := by simp [Strided.dim, hB.dims]
  have s0 : A.stride 0 = lda := by simp [Strided.stride, hs]
  have s1 : B.stride 0 = ldb := by simp [Strided.stride, hs']
  refine ⟨{ A with data := d' }, { B with data := e' }, ?_,
    (holdsMat_iff (t := Strided.mk d' A.off A.dims A.strides) hA.dims hs _).2 e4,
    (holdsMat_iff (t := Strided.mk e' B.off B.dims B.strides) hB.dims hs' _).2 e5, frame_of_rows hA.dims hs e2 e6,
    frame_of_rows hB.dims hs' e3 e7⟩
  unfold deviceGesv
  rw [d0, b0, s0, s1, e1]
  rfl

end Einsums
