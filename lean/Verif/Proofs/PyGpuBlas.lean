import Verif.Proofs.PyGpu
import Verif.Proofs.PyBlas
/-
The BLAS plans of the Python interface on device memory, compared with the same plans on buffers in host memory.
-/
namespace Einsums
open Spec Model

/-- `y` succeeds with the result of `x` where `x` does, and reads past the end of a vector of positions where `x` does. -/
def Follows {α : Type} (x y : Outcome α) : Prop :=
  (∀ v, x = .ok v → y = .ok v) ∧ (x = .ub "vector index out of range" → y = .ub "vector index out of range")

theorem Follows.refl {α : Type} (x : Outcome α) : Follows x x := ⟨fun _ h => h, fun h => h⟩

theorem Follows.of_eq {α : Type} {x y : Outcome α} (h : x = y) : Follows x y := h ▸ .refl x

theorem Follows.bind {α β : Type} {x y : Outcome α} {f g : α → Outcome β} (h : Follows x y)
    (hf : ∀ a, x = .ok a → Follows (f a) (g a)) : Follows (x >>= f) (y >>= g) := by
  cases x with
  | ok a => rw [h.1 a rfl]; exact hf a rfl
  | error e =>
    constructor
    · intro v hv; simp at hv
    · intro hv; simp at hv
  | ub e =>
    constructor
    · intro v hv; simp at hv
    · intro hv
      have : e = "vector index out of range" := by simpa using hv
      subst this
      rw [h.2 rfl]
      rfl

section
variable {R : Type}

theorem stride_follows (X : Strided R) (p : Nat) : Follows (pyStride X p) (pyStrideAt X p) := by
  unfold pyStride pyStrideAt
  cases X.strides[p]? with
  | some s => exact .refl _
  | none => exact ⟨fun v h => by simp at h, fun h => by simp at h⟩

theorem shape_follows (X : Strided R) (p : Nat) : Follows (pyShape X p) (pyDimAt X p) := by
  unfold pyShape pyDimAt
  cases X.dims[p]? with
  | some s => exact .refl _
  | none => exact ⟨fun v h => by simp at h, fun h => by simp at h⟩

theorem prod_follows (X : Strided R) (pos : List Nat) (n : Nat) : Follows (pyProd X pos n) (pyProdAt X pos n) := by
  unfold pyProd pyProdAt
  generalize 1 = acc
  induction List.range n generalizing acc with
  | nil => exact .refl _
  | cons i is ih =>
    rw [List.foldlM_cons, List.foldlM_cons]
    refine Follows.bind ?_ fun a _ => ih a
    cases pos[i]? with
    | some p => exact Follows.bind (shape_follows X p) fun _ _ => .refl _
    | none => exact .refl _

theorem pyProd_ne_zero {X : Strided R} (hX : ∀ d ∈ X.dims, d ≠ 0) {pos : List Nat} {n a : Nat} (h : pyProd X pos n = .ok a) :
    a ≠ 0 := by
  unfold pyProd at h
  have h1 : (1 : Nat) ≠ 0 := by omega
  generalize 1 = acc at h h1
  revert h
  generalize List.range n = is
  intro h
  induction is generalizing acc with
  | nil =>
    rw [List.foldlM_nil] at h
    injection h with h
    omega
  | cons i is ih =>
    rw [List.foldlM_cons] at h
    obtain ⟨b, hb, h⟩ := ok_of_bind h
    refine ih b ?_ h
    cases hp : pos[i]? with
    | none => rw [hp] at hb; simp at hb
    | some p =>
      rw [hp] at hb
      simp only at hb
      obtain ⟨d, hd, hb⟩ := ok_of_bind hb
      have : b = acc * d := by simpa using hb.symm
      rw [this]
      refine Nat.mul_ne_zero h1 (hX d ?_)
      unfold pyShape at hd
      split at hd
      · rename_i x hx
        have : x = d := by simpa using hd
        rw [← this]
        exact List.mem_of_getElem? hx
      · simp at hd

variable [Add R] [Mul R] [Zero R] [One R] [BEq R]

omit [One R] in
theorem vendorGemm_ne {ta tb : Bool} {m n k : Nat} (hm : m ≠ 0) (hn : n ≠ 0) (hk : k ≠ 0) (alpha : R) (a : List R) (aoff lda : Nat)
    (b : List R) (boff ldb : Nat) (beta : R) (c : List R) (coff ldc : Nat) :
    vendorGemm ta tb m n k alpha a aoff lda b boff ldb beta c coff ldc =
      fortranGemm tb ta n m k alpha b boff ldb a aoff lda beta c coff ldc := by
  unfold vendorGemm
  rw [if_neg (by tauto)]

omit [One R] in
theorem vendorGemv_ne {t : Bool} {m n : Nat} (hm : m ≠ 0) (hn : n ≠ 0) (alpha : R) (a : List R) (aoff lda : Nat)
    (x : List R) (xoff incx : Nat) (beta : R) (y : List R) (yoff incy : Nat) :
    vendorGemv t m n alpha a aoff lda x xoff incx beta y yoff incy =
      hipGemv (!t) n m alpha a aoff lda x xoff incx beta y yoff incy := by
  unfold vendorGemv hipGemv
  rw [if_neg (by tauto), if_neg (by tauto)]

omit [One R] in
/-- Where the product of matrices on the host with `AB_prefactor` in place of `C_prefactor` gives a result, the device gives the same. -/
theorem gemm_follows (z : Bool) (Al Bl AC BC : List Nat) (a1 a2 b1 b2 c1 c2 : Nat) (ta tb tc : Bool) (cp ab : R) {A B C : Strided R}
    (hA : ∀ d ∈ A.dims, d ≠ 0) (hB : ∀ d ∈ B.dims, d ≠ 0) (hC : ∀ d ∈ C.dims, d ≠ 0) (hz : z = false ∨ tc = false ∨ ta = tb) :
    Follows (pyExecGemm Al Bl AC BC a1 a2 b1 b2 c1 c2 ta tb tc ab C ab A B)
      (pyGpuGemm z Al Bl AC BC a1 a2 b1 b2 c1 c2 ta tb tc cp C ab A B) := by
  unfold pyExecGemm pyGpuGemm
  refine (prod_follows _ _ _).bind fun dA0 e1 => (prod_follows _ _ _).bind fun dA1 e2 => (stride_follows _ _).bind fun sA0 _ =>
    (stride_follows _ _).bind fun sA1 _ => ?_
  have n1 := pyProd_ne_zero hC e1
  have n2 := pyProd_ne_zero hA e2
  have fin : ∀ dA0 dA1 sA0 : Nat, dA0 ≠ 0 → dA1 ≠ 0 → Follows (do
      let dB1 ← pyProd C BC BC.length
      let dB0 ← pyProd B Bl BC.length
      let sB1 ← pyStride B b1
      let sB0 ← pyStride B b2
      let (dB1, sB0) := if tb then (dB0, sB1) else (dB1, sB0)
      let sC0 ← pyStride C c1
      let sC1 ← pyStride C c2
      let sC0 := if tc then sC1 else sC0
      let mem ← if !tc then
          vendorGemm ta tb dA0 dB1 dA1 ab A.data A.off sA0 B.data B.off sB0 ab C.data C.off sC0
        else
          vendorGemm (!tb) (!ta) dB1 dA0 dA1 ab B.data B.off sB0 A.data A.off sA0 ab C.data C.off sC0
      return { C with data := mem }) (do
      let dB1 ← pyProdAt C BC BC.length
      let dB0 ← pyProdAt B Bl BC.length
      let sB1 ← pyStrideAt B b1
      let sB0 ← pyStrideAt B b2
      let (dB1, sB0) := if tb then (dB0, sB1) else (dB1, sB0)
      let sC0 ← pyStrideAt C c1
      let sC1 ← pyStrideAt C c2
      let sC0 := if tc then sC1 else sC0
      let mem ← if tc then
          fortranGemm (!ta) (if z then !ta else !tb) dA0 dB1 dA1 ab A.data A.off sA0 B.data B.off sB0 ab C.data C.off sC0
        else
          fortranGemm tb ta dB1 dA0 dA1 ab B.data B.off sB0 A.data A.off sA0 ab C.data C.off sC0
      return { C with data := mem }) := by
    intro dA0 dA1 sA0 m1 m2
    refine (prod_follows _ _ _).bind fun dB1 e3 => (prod_follows _ _ _).bind fun dB0 e4 => (stride_follows _ _).bind fun sB1 _ =>
      (stride_follows _ _).bind fun sB0 _ => ?_
    have n3 := pyProd_ne_zero hC e3
    have n4 := pyProd_ne_zero hB e4
    have fin2 : ∀ dB1 sB0 : Nat, dB1 ≠ 0 → Follows (do
        let sC0 ← pyStride C c1
        let sC1 ← pyStride C c2
        let sC0 := if tc then sC1 else sC0
        let mem ← if !tc then
            vendorGemm ta tb dA0 dB1 dA1 ab A.data A.off sA0 B.data B.off sB0 ab C.data C.off sC0
          else
            vendorGemm (!tb) (!ta) dB1 dA0 dA1 ab B.data B.off sB0 A.data A.off sA0 ab C.data C.off sC0
        return { C with data := mem }) (do
        let sC0 ← pyStrideAt C c1
        let sC1 ← pyStrideAt C c2
        let sC0 := if tc then sC1 else sC0
        let mem ← if tc then
            fortranGemm (!ta) (if z then !ta else !tb) dA0 dB1 dA1 ab A.data A.off sA0 B.data B.off sB0 ab C.data C.off sC0
          else
            fortranGemm tb ta dB1 dA0 dA1 ab B.data B.off sB0 A.data A.off sA0 ab C.data C.off sC0
        return { C with data := mem }) := by
      intro dB1 sB0 m3
      refine (stride_follows _ _).bind fun sC0 _ => (stride_follows _ _).bind fun sC1 _ => .of_eq ?_
      cases tc
      · simp only [Bool.not_false, if_true, Bool.false_eq_true, if_false, vendorGemm_ne m1 m3 m2]
      · have : (if z then !ta else !tb) = !tb := by
          cases z
          · rfl
          · rcases hz with h | h | h
            · simp at h
            · simp at h
            · rw [h]; rfl
        simp only [Bool.not_true, if_true, Bool.false_eq_true, if_false, vendorGemm_ne m3 m1 m2, this]
    cases tb
    · exact fin2 dB1 sB0 n3
    · exact fin2 dB0 sB1 n4
  cases ta
  · exact fin dA0 dA1 sA0 n1 n2
  · exact fin dA1 dA0 sA1 n2 n1

omit [One R] in
/-- The same for the product of a matrix and a vector. -/
theorem gemv_follows (Al Bl AC : List Nat) (a1 a2 b1 c1 : Nat) (ta : Bool) (cp ab : R) {A B C : Strided R}
    (hA : ∀ d ∈ A.dims, d ≠ 0) (hC : ∀ d ∈ C.dims, d ≠ 0) :
    Follows (pyExecGemv Al Bl AC a1 a2 b1 c1 ta false ab C ab A B) (pyGpuGemv Al Bl AC a1 a2 b1 c1 ta cp C ab A B) := by
  unfold pyExecGemv pyGpuGemv
  simp only [Bool.false_eq_true, if_false]
  refine (prod_follows _ _ _).bind fun dA0 e1 => (prod_follows _ _ _).bind fun dA1 e2 => (stride_follows _ _).bind fun sA0 _ =>
    (stride_follows _ _).bind fun sA1 _ => ?_
  have n1 := pyProd_ne_zero hC e1
  have n2 := pyProd_ne_zero hA e2
  have fin : ∀ d0 d1 s0 : Nat, d0 ≠ 0 → d1 ≠ 0 → Follows (do
      let _ ← pyProd B Bl Bl.length
      let sB ← pyStride B b1
      let _ ← pyProd C AC AC.length
      let sC ← pyStride C c1
      let mem ← vendorGemv ta d0 d1 ab A.data A.off s0 B.data B.off sB ab C.data C.off sC
      return { C with data := mem }) (do
      let _ ← pyProdAt B Bl Bl.length
      let sB ← pyStrideAt B b1
      let _ ← pyProdAt C AC AC.length
      let sC ← pyStrideAt C c1
      let mem ← hipGemv (!ta) d1 d0 ab A.data A.off s0 B.data B.off sB ab C.data C.off sC
      return { C with data := mem }) := by
    intro d0 d1 s0 m1 m2
    refine (prod_follows _ _ _).bind fun _ _ => (stride_follows _ _).bind fun sB _ => (prod_follows _ _ _).bind fun _ _ =>
      (stride_follows _ _).bind fun sC _ => .of_eq ?_
    rw [vendorGemv_ne m1 m2]
  cases ta
  · exact fin dA0 dA1 sA0 n1 n2
  · exact fin dA1 dA0 sA1 n2 n1

omit [One R] in
theorem pyExecGemv_swap (Al Bl AC : List Nat) (a1 a2 b1 c1 : Nat) (ta : Bool) (cp ab : R) (A B C : Strided R) :
    pyExecGemv Al Bl AC a1 a2 b1 c1 ta true cp C ab A B = pyExecGemv Al Bl AC a1 a2 b1 c1 ta false cp C ab B A := rfl

/-- What is left of the outer product after scaling. -/
theorem ger_follows (sz : Nat) (CA CB : List Nat) (sw : Bool) (ab : R) (run : GpuRun R) {cp : R} {A B C C1 : Strided R}
    (h1 : ((1 : R) == 1) = true) (h0 : ((1 : R) == 0) = false)
    (hs : (if cp == 1 then .ok C else pyGpuScale run cp C) = Outcome.ok C1) (hd : C1.dims = C.dims) (ho : C1.off = C.off)
    (ht : C1.strides = C.strides) :
    Follows (pyExecGer sz CA CB sw 1 C1 ab A B) (pyGpuGer run CA CB sw cp C ab A B) := by
  unfold pyExecGer pyGpuGer
  simp only [h1, h0, Bool.false_eq_true, if_false, if_true, Outcome.ok_bind]
  have p : ∀ pos, pyProd C1 pos pos.length = pyProd C pos pos.length := by
    intro pos; unfold pyProd pyShape; rw [hd]
  rw [p, p]
  refine (prod_follows _ _ _).bind fun d0 _ => (prod_follows _ _ _).bind fun d1 _ => ?_
  have fin : ∀ (d0 d1 : Nat) (X Y : Strided R), Follows
      (vendorGer d0 d1 ab X.data X.off 1 Y.data Y.off 1 C1.data C1.off d1 >>= fun mem => .ok { C1 with data := mem })
      (fortranGer d1 d0 ab Y.data Y.off 1 X.data X.off 1 C1.data C1.off d1 >>= fun mem => .ok { C with data := mem }) := by
    intro d0 d1 X Y
    refine Follows.bind ?_ fun mem _ => .of_eq ?_
    · unfold vendorGer
      rw [if_neg (by decide), if_neg (by decide)]
      split
      · exact ⟨fun v h => by simp at h, fun h => by simp at h⟩
      · exact .refl _
    · rw [hd, ho, ht]
  have e : ∀ f : Strided R → Outcome (Strided R), ((if cp == 1 then .ok C else pyGpuScale run cp C) >>= f) = f C1 := by
    intro f; rw [hs]; rfl
  cases sw
  · have := fin d0 d1 A B
    simp only [Bool.false_eq_true, if_false]
    cases hc : cp == 1
    · rw [hc] at hs
      simp only [Bool.false_eq_true, if_false] at hs ⊢
      rw [hs]
      exact this
    · rw [hc] at hs
      simp only [if_true] at hs ⊢
      injection hs with hs
      subst hs
      exact this
  · have := fin d1 d0 B A
    simp only [if_true]
    cases hc : cp == 1
    · rw [hc] at hs
      simp only [Bool.false_eq_true, if_false] at hs ⊢
      rw [hs]
      exact this
    · rw [hc] at hs
      simp only [if_true] at hs ⊢
      injection hs with hs
      subst hs
      exact this

end

section
variable {R : Type} [CommSemiring R] [BEq R] [LawfulBEq R]

/-- Scaling the elements of a row-major view, in any interleaving. -/
theorem gpuScale_ok {C : Strided R} (rC : C.RowMajor) {fC : List Nat → R} (hC : C.Represents fC) (cp : R) {run : GpuRun R}
    (hs : Schedule (directThreadsOf cp (numel C.dims)) run.rmw) :
    ∃ C', pyGpuScale run cp C = .ok C' ∧ C.Frame C' ∧ C'.Represents fun i => cp * fC i := by
  have hsize := launchSwapped_pos (numel C.dims)
  have hget : ∀ c, c < numel C.dims → C.data[C.off + c]? = some (fC (unflat C.dims c)) := by
    intro c hc
    have := rowMajor_get rC hC (unflat_inBox hc)
    rwa [rowMajor_unflat hc] at this
  have hb : ∀ c, c < numel C.dims → C.off + c < C.data.length := fun c hc => by have := rC.fits; omega
  obtain ⟨d, e, h1, h2, h3⟩ : ∃ d, pyGpuScale run cp C = .ok { C with data := d } ∧ d.length = C.data.length ∧
      (∀ p, (∀ c, c < numel C.dims → p ≠ C.off + c) → d[p]? = C.data[p]?) ∧
      ∀ c, c < numel C.dims → d[C.off + c]? = some (cp * fC (unflat C.dims c)) := by
    unfold pyGpuScale
    unfold directThreadsOf at hs
    by_cases hcp : (cp == 0) = true
    · simp only [hcp, if_true] at hs
      obtain ⟨d, e, h1, h2, h3⟩ := store_run (t := C) (addr := fun i => .ok (C.off + i)) (pos := fun c => C.off + c)
        (f := fun _ v => .ok (if cp == 0 then 0 else cp * v)) (h := fun _ => 0) hsize (fun _ _ => rfl) hb (fun _ _ _ _ _ => rfl)
        (fun c hc v => by simp only [hcp, if_true]) run.reg hs
      refine ⟨d, e, h1, h2, fun c hc => ?_⟩
      rw [h3 c hc, eq_of_beq hcp, zero_mul]
    · simp only [hcp, if_false, Bool.false_eq_true] at hs
      obtain ⟨d, e, h1, h2, h3⟩ := update_run (t := C) (addr := fun i => .ok (C.off + i)) (pos := fun c => C.off + c)
        (f := fun _ v => .ok (if cp == 0 then 0 else cp * v)) (h := fun _ v => cp * v) hsize (fun _ _ => rfl) hb
        (fun c d _ _ e => by omega) (fun c hc v => by simp only [hcp, if_false, Bool.false_eq_true]) run.reg hs
      refine ⟨d, e, h1, h2, fun c hc => ?_⟩
      rw [h3 c hc, hget c hc]
      rfl
  obtain ⟨fr, rp⟩ := frame_of_mem rC.wf (f' := fun i => cp * fC i) h1 (by
      intro j hj
      rw [rC.strides, dot_strides_eq hj.length]
      have := h3 _ (rowMajor_lt hj)
      rwa [unflat_rowMajor hj] at this) (by
      intro p hp
      apply h2
      intro c hc e
      apply hp (unflat C.dims c) (unflat_inBox hc)
      rw [rC.strides, dot_strides_eq (unflat_inBox hc).length, rowMajor_unflat hc]
      exact e)
  exact ⟨_, e, fr, rp⟩

end
section
variable {R : Type} [Add R] [Mul R] [Zero R] [One R] [BEq R] {L : Type} [DecidableEq L]

/-- Matrix products with `AB_prefactor` for `C_prefactor` on the host determine those on the device. -/
theorem pyGpuGemm_follows {δ : L → Nat} {T U K Al Bl Cl : List L} (ta tb tc : Bool) {A B C : Strided R} (z : Bool) (sz : Nat)
    (om : OmpRun) (cp ab : R) (run : GpuRun R)
    (hn : (T ++ U ++ K).Nodup) (hT0 : T ≠ []) (hU0 : U ≠ []) (hK0 : K ≠ [])
    (eA : Al = if ta then K ++ T else T ++ K) (eB : Bl = if tb then U ++ K else K ++ U)
    (eC : Cl = if tc then U ++ T else T ++ U)
    (dA : A.dims = Al.map δ) (dB : B.dims = Bl.map δ) (dC : C.dims = Cl.map δ)
    (rA : A.RowMajor) (rB : B.RowMajor) (rC : C.RowMajor) (hd : ∀ l ∈ T ++ U ++ K, δ l ≠ 0)
    (hz : z = false ∨ tc = false ∨ ta = tb) :
    Follows (pyEinsum sz om ab Cl C ab Al A Bl B) (pyGpuEinsum z run cp Cl C ab Al A Bl B) := by
  obtain ⟨a1, a2, b1, b2, c1, c2, hp, _⟩ := pyGemm_plan (δ := δ) ta tb tc hn hT0 hU0 hK0 eA eB eC dA dB dC rA.strides rB.strides
    rC.strides
  unfold pyEinsum pyGpuEinsum
  rw [hp]
  simp only [Outcome.ok_bind]
  unfold pyExecute pyGpuExecute
  have ug : (!pyContiguousBuffer C || !pyContiguousBuffer A || !pyContiguousBuffer B) = false := by
    simp [pyContiguousBuffer, ← rA.strides, ← rB.strides, ← rC.strides]
  simp only [ug, Bool.false_eq_true, if_false]
  have ne : ∀ (X : Strided R) (Xl : List L), X.dims = Xl.map δ → (∀ l ∈ Xl, l ∈ T ++ U ++ K) → ∀ d ∈ X.dims, d ≠ 0 := by
    intro X Xl dX hX d hdim
    rw [dX] at hdim
    obtain ⟨l, hl, rfl⟩ := List.mem_map.1 hdim
    exact hd l (hX l hl)
  exact gemm_follows z _ _ _ _ _ _ _ _ _ _ ta tb tc cp ab
    (ne A Al dA (by rw [eA]; cases ta <;> simp <;> tauto)) (ne B Bl dB (by rw [eB]; cases tb <;> simp <;> tauto))
    (ne C Cl dC (by rw [eC]; cases tc <;> simp <;> tauto)) hz

/-- The same for matrix-vector products. -/
theorem pyGpuGemv_follows {δ : L → Nat} {T K Xl : List L} (t sw : Bool) {A B X Y C : Strided R} (z : Bool) (sz : Nat)
    (om : OmpRun) (cp ab : R) (run : GpuRun R)
    (hn : (T ++ K).Nodup) (hT0 : T ≠ []) (hK0 : K ≠ [])
    (eX : Xl = if t then K ++ T else T ++ K) (dX : X.dims = Xl.map δ) (dC : C.dims = T.map δ)
    (rX : X.RowMajor) (rY : Y.RowMajor) (rC : C.RowMajor) (hd : ∀ l ∈ Xl, δ l ≠ 0)
    (eAB : (if sw then (B, A) else (A, B)) = (X, Y)) :
    Follows (pyEinsum sz om ab T C ab (if sw then K else Xl) A (if sw then Xl else K) B)
      (pyGpuEinsum z run cp T C ab (if sw then K else Xl) A (if sw then Xl else K) B) := by
  unfold pyEinsum pyGpuEinsum
  rw [pyGemv_plan t sw hn hT0 hK0 eX]
  refine (Follows.refl _).bind fun plan hp => ?_
  unfold pyGemvPlan at hp
  obtain ⟨a1, _, hp⟩ := ok_of_bind hp
  obtain ⟨a2, _, hp⟩ := ok_of_bind hp
  obtain ⟨b1, _, hp⟩ := ok_of_bind hp
  obtain ⟨c1, _, hp⟩ := ok_of_bind hp
  obtain ⟨i0, _, hp⟩ := ok_of_bind hp
  injection hp with hp
  subst hp
  unfold pyExecute pyGpuExecute
  have ug : (!pyContiguousBuffer C || !pyContiguousBuffer A || !pyContiguousBuffer B) = false := by
    cases sw
    · simp only [Bool.false_eq_true, if_false, Prod.mk.injEq] at eAB
      simp [pyContiguousBuffer, eAB.1, eAB.2, ← rX.strides, ← rY.strides, ← rC.strides]
    · simp only [if_true, Prod.mk.injEq] at eAB
      simp [pyContiguousBuffer, eAB.1, eAB.2, ← rX.strides, ← rY.strides, ← rC.strides]
  have nX : ∀ d ∈ X.dims, d ≠ 0 := by
    intro d hdim
    rw [dX] at hdim
    obtain ⟨l, hl, rfl⟩ := List.mem_map.1 hdim
    exact hd l hl
  have nC : ∀ d ∈ C.dims, d ≠ 0 := by
    intro d hdim
    rw [dC] at hdim
    obtain ⟨l, hl, rfl⟩ := List.mem_map.1 hdim
    exact hd l (by rw [eX]; cases t <;> simp [hl])
  simp only [ug, Bool.false_eq_true, if_false]
  cases sw
  · simp only [Bool.false_eq_true, if_false, Prod.mk.injEq] at eAB ⊢
    rw [eAB.1, eAB.2]
    exact gemv_follows _ _ _ _ _ _ _ _ cp ab nX nC
  · simp only [if_true, Prod.mk.injEq] at eAB ⊢
    rw [pyExecGemv_swap, eAB.1, eAB.2]
    exact gemv_follows _ _ _ _ _ _ _ _ cp ab nX nC

end
end Einsums
