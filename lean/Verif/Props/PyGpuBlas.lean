import Verif.Proofs.PyGpuBlas
import Verif.Props.PyGpu
import Verif.Props.PythonPlan
/-
C143: outer products, matrix-vector products and matrix products of the Python interface on device memory.
-/
namespace Einsums.Props
open Spec Model

section
variable {R : Type} [CommSemiring R] [BEq R] [LawfulBEq R]
variable {L : Type} [DecidableEq L]

/-- C143 for outer products of contiguous views (the labels of the operands in two blocks of `C` in either order, the last block not
empty): the outer product for every `C_prefactor` and every interleaving of the scaling kernel.  On the host this fails for any
`C_prefactor` but 0 and 1 (`C81_not_scaled`). -/
theorem C143_outer [Nontrivial R] {δ : L → Nat} {Al Bl Cl : List L} (sw : Bool) {A B C : Strided R}
    {fA fB fC : List Nat → R} (z : Bool) (cp ab : R) (run : GpuRun R)
    (hn : (Al ++ Bl).Nodup) (hA0 : Al ≠ []) (hB0 : Bl ≠ [])
    (eC : Cl = if sw then Bl ++ Al else Al ++ Bl)
    (dA : A.dims = Al.map δ) (dB : B.dims = Bl.map δ) (dC : C.dims = Cl.map δ)
    (rA : A.RowMajor) (rB : B.RowMajor) (rC : C.RowMajor)
    (hA : A.Represents fA) (hB : B.Represents fB) (hC : C.Represents fC)
    (hs : Schedule (directThreadsOf cp (numel C.dims)) run.rmw) (hz : numel ((if sw then Al else Bl).map δ) ≠ 0) :
    ∃ C', pyGpuEinsum z run cp Cl C ab Al A Bl B = .ok C' ∧ C.Frame C' ∧
      ∀ ρ, InRange δ Cl ρ → C'.read (toIdx (Cl.map ρ))
        = .ok (cp * fC (Cl.map ρ) + ab * (fA (Al.map ρ) * fB (Bl.map ρ))) := by
  obtain ⟨C1, e1, fr1, rp1⟩ : ∃ C1, (if cp == 1 then .ok C else pyGpuScale run cp C) = Outcome.ok C1 ∧ C.Frame C1 ∧
      C1.Represents fun i => cp * fC i := by
    by_cases h : (cp == 1) = true
    · refine ⟨C, by rw [if_pos h], Strided.Frame.refl _, ?_⟩
      rw [eq_of_beq h]
      simpa using hC
    · rw [if_neg h]
      exact gpuScale_ok rC hC cp hs
  have rC1 := fr1.rowMajor rC
  obtain ⟨C', h1, h2, h3⟩ := C81_outer_partial (C := C1) sw 1 ab 8 ⟨[], []⟩ hn hA0 hB0 eC dA dB (fr1.dims.trans dC) rA rB rC1 hA hB rp1
    (.inr rfl) hz
  refine ⟨C', ?_, fr1.trans h2, fun ρ hρ => ?_⟩
  · unfold pyEinsum at h1
    unfold pyGpuEinsum
    rw [pyGer_plan sw hn hA0 hB0 eC] at h1 ⊢
    simp only [Outcome.ok_bind] at h1 ⊢
    unfold pyExecute at h1
    unfold pyGpuExecute
    have ug : (!pyContiguousBuffer C || !pyContiguousBuffer A || !pyContiguousBuffer B) = false := by
      simp [pyContiguousBuffer, ← rA.strides, ← rB.strides, ← rC.strides]
    have ug1 : (!pyContiguousBuffer C1 || !pyContiguousBuffer A || !pyContiguousBuffer B) = false := by
      simp [pyContiguousBuffer, ← rA.strides, ← rB.strides, ← rC1.strides]
    simp only [ug1, Bool.false_eq_true, if_false] at h1
    simp only [ug, Bool.false_eq_true, if_false]
    exact (ger_follows 8 _ _ sw ab run (by simp) (by simp) e1 fr1.dims fr1.off fr1.strides).1 C' h1
  · rw [h3 ρ hρ, one_mul]

/-- What the device computes for a matrix-vector product of contiguous views without empty dimensions, with as many summed as
remaining labels: the old elements are scaled by `AB_prefactor`, whatever `C_prefactor`. -/
theorem C143_gemv {δ : L → Nat} {T K Xl : List L} (t sw : Bool) {A B X Y C : Strided R}
    {fX fY fC : List Nat → R} (z : Bool) (cp ab : R) (run : GpuRun R)
    (hn : (T ++ K).Nodup) (hT0 : T ≠ []) (hlen : T.length = K.length)
    (eX : Xl = if t then K ++ T else T ++ K)
    (dX : X.dims = Xl.map δ) (dY : Y.dims = K.map δ) (dC : C.dims = T.map δ)
    (rX : X.RowMajor) (rY : Y.RowMajor) (rC : C.RowMajor)
    (hX : X.Represents fX) (hY : Y.Represents fY) (hC : C.Represents fC) (hd : ∀ l ∈ Xl, δ l ≠ 0)
    (eAB : (if sw then (B, A) else (A, B)) = (X, Y)) :
    ∃ C', pyGpuEinsum z run cp T C ab (if sw then K else Xl) A (if sw then Xl else K) B = .ok C' ∧ C.Frame C' ∧
      ∀ ρ, InRange δ T ρ → C'.read (toIdx (T.map ρ))
        = .ok (ab * fC (T.map ρ) + ab * contraction δ K Xl K fX fY ρ) := by
  have mX : ∀ l, l ∈ T ∨ l ∈ K → l ∈ Xl := by intro l hl; rw [eX]; cases t <;> simp <;> tauto
  obtain ⟨C', h1, h2, h3⟩ := C82_gemv_partial t sw ab ab 8 ⟨[], []⟩ hn hT0 hlen eX dX dY dC rX rY rC hX hY hC
    (fun l hl => hd l (mX l (.inr hl))) eAB
  have hK0 : K ≠ [] := by
    rintro rfl
    exact hT0 (List.length_eq_zero_iff.1 hlen)
  exact ⟨C', (pyGpuGemv_follows t sw z 8 ⟨[], []⟩ cp ab run hn hT0 hK0 eX dX dC rX rY rC hd eAB).1 C' h1, h2, h3⟩

/-- C143 for matrix-vector products with `C_prefactor` equal to `AB_prefactor`.  Missing: any other `C_prefactor` (`C143_not_prefactor`),
fewer summed than remaining labels (`C143_not_more_targets`), empty dimensions (`C143_not_empty`). -/
theorem C143_gemv_partial {δ : L → Nat} {T K Xl : List L} (t sw : Bool) {A B X Y C : Strided R}
    {fX fY fC : List Nat → R} (z : Bool) (cp : R) (run : GpuRun R)
    (hn : (T ++ K).Nodup) (hT0 : T ≠ []) (hlen : T.length = K.length)
    (eX : Xl = if t then K ++ T else T ++ K)
    (dX : X.dims = Xl.map δ) (dY : Y.dims = K.map δ) (dC : C.dims = T.map δ)
    (rX : X.RowMajor) (rY : Y.RowMajor) (rC : C.RowMajor)
    (hX : X.Represents fX) (hY : Y.Represents fY) (hC : C.Represents fC) (hd : ∀ l ∈ Xl, δ l ≠ 0)
    (eAB : (if sw then (B, A) else (A, B)) = (X, Y)) :
    ∃ C', pyGpuEinsum z run cp T C cp (if sw then K else Xl) A (if sw then Xl else K) B = .ok C' ∧ C.Frame C' ∧
      ∀ ρ, InRange δ T ρ → C'.read (toIdx (T.map ρ))
        = .ok (cp * fC (T.map ρ) + cp * contraction δ K Xl K fX fY ρ) :=
  C143_gemv t sw z cp cp run hn hT0 hlen eX dX dY dC rX rY rC hX hY hC hd eAB

/-- What the device computes for a matrix product of contiguous views without empty dimensions, under the conditions of the host
(`C83_gemm_partial`), and for `complex128` (`z`) only if `C` is not transposed or both or neither operand is: the old elements are scaled by
`AB_prefactor`, whatever `C_prefactor`. -/
theorem C143_gemm {δ : L → Nat} {T U K Al Bl Cl : List L} (ta tb tc : Bool) {A B C : Strided R}
    {fA fB fC : List Nat → R} (z : Bool) (cp ab : R) (run : GpuRun R)
    (hn : (T ++ U ++ K).Nodup) (hT0 : T ≠ []) (hU0 : U ≠ [])
    (eA : Al = if ta then K ++ T else T ++ K) (eB : Bl = if tb then U ++ K else K ++ U)
    (eC : Cl = if tc then U ++ T else T ++ U)
    (dA : A.dims = Al.map δ) (dB : B.dims = Bl.map δ) (dC : C.dims = Cl.map δ)
    (rA : A.RowMajor) (rB : B.RowMajor) (rC : C.RowMajor)
    (hA : A.Represents fA) (hB : B.Represents fB) (hC : C.Represents fC) (hd : ∀ l ∈ T ++ U ++ K, δ l ≠ 0)
    (hTK : T.length = K.length) (hUK : U.length ≤ K.length)
    (sqA : ta = true → numel (T.map δ) = numel (K.map δ))
    (sqB : tb = true → U.length = K.length ∧ numel (U.map δ) = numel (K.map δ))
    (hz : z = false ∨ tc = false ∨ ta = tb) :
    ∃ C', pyGpuEinsum z run cp Cl C ab Al A Bl B = .ok C' ∧ C.Frame C' ∧
      ∀ ρ, InRange δ Cl ρ → C'.read (toIdx (Cl.map ρ))
        = .ok (ab * fC (Cl.map ρ) + ab * contraction δ K Al Bl fA fB ρ) := by
  obtain ⟨C', h1, h2, h3⟩ := C83_gemm_partial ta tb tc 8 ⟨[], []⟩ ab ab hn hT0 hU0 eA eB eC dA dB dC rA rB rC hA hB hC
    (.inl fun l hl => hd l (by simp [hl])) hTK hUK sqA sqB
  have hK0 : K ≠ [] := by
    rintro rfl
    exact hT0 (List.length_eq_zero_iff.1 hTK)
  exact ⟨C', (pyGpuGemm_follows ta tb tc z 8 ⟨[], []⟩ cp ab run hn hT0 hU0 hK0 eA eB eC dA dB dC rA rB rC hd hz).1 C' h1, h2, h3⟩

/-- C143 for matrix products with `C_prefactor` equal to `AB_prefactor`.  Missing: any other `C_prefactor` (`C143_not_prefactor`), what
the host lacks (`C83`), empty dimensions (`C143_not_empty`), a transposed `C` with one operand transposed for `complex128`
(`C143_not_complex`). -/
theorem C143_gemm_partial {δ : L → Nat} {T U K Al Bl Cl : List L} (ta tb tc : Bool) {A B C : Strided R}
    {fA fB fC : List Nat → R} (z : Bool) (cp : R) (run : GpuRun R)
    (hn : (T ++ U ++ K).Nodup) (hT0 : T ≠ []) (hU0 : U ≠ [])
    (eA : Al = if ta then K ++ T else T ++ K) (eB : Bl = if tb then U ++ K else K ++ U)
    (eC : Cl = if tc then U ++ T else T ++ U)
    (dA : A.dims = Al.map δ) (dB : B.dims = Bl.map δ) (dC : C.dims = Cl.map δ)
    (rA : A.RowMajor) (rB : B.RowMajor) (rC : C.RowMajor)
    (hA : A.Represents fA) (hB : B.Represents fB) (hC : C.Represents fC) (hd : ∀ l ∈ T ++ U ++ K, δ l ≠ 0)
    (hTK : T.length = K.length) (hUK : U.length ≤ K.length)
    (sqA : ta = true → numel (T.map δ) = numel (K.map δ))
    (sqB : tb = true → U.length = K.length ∧ numel (U.map δ) = numel (K.map δ))
    (hz : z = false ∨ tc = false ∨ ta = tb) :
    ∃ C', pyGpuEinsum z run cp Cl C cp Al A Bl B = .ok C' ∧ C.Frame C' ∧
      ∀ ρ, InRange δ Cl ρ → C'.read (toIdx (Cl.map ρ))
        = .ok (cp * fC (Cl.map ρ) + cp * contraction δ K Al Bl fA fB ρ) :=
  C143_gemm ta tb tc z cp cp run hn hT0 hU0 eA eB eC dA dB dC rA rB rC hA hB hC hd hTK hUK sqA sqB hz

omit [LawfulBEq R] in
/-- C143 refuted when an operand keeps more labels than are summed over (`ijk,k->ij`, `ijk,kl->ijl`): as on the host, the loop over the
kept labels reads past the end of the positions of the summed ones, whatever the tensors. -/
theorem C143_not_more_targets {δ : L → Nat} {T U K Al Bl Cl Xl : List L} (ta tb tc t sw : Bool) {A B C A' B' X Y C' : Strided R}
    (z : Bool) (cp ab : R) (run : GpuRun R)
    (hn : (T ++ U ++ K).Nodup) (hT0 : T ≠ []) (hU0 : U ≠ []) (hK0 : K ≠ [])
    (eA : Al = if ta then K ++ T else T ++ K) (eB : Bl = if tb then U ++ K else K ++ U)
    (eC : Cl = if tc then U ++ T else T ++ U)
    (dA : A.dims = Al.map δ) (dB : B.dims = Bl.map δ) (dC : C.dims = Cl.map δ)
    (rA : A.RowMajor) (rB : B.RowMajor) (rC : C.RowMajor)
    (eX : Xl = if t then K ++ T else T ++ K)
    (dX : X.dims = Xl.map δ) (dY : Y.dims = K.map δ) (dC' : C'.dims = T.map δ)
    (rX : X.RowMajor) (rY : Y.RowMajor) (rC' : C'.RowMajor)
    (eAB : (if sw then (B', A') else (A', B')) = (X, Y)) (hd : ∀ l ∈ T ++ U ++ K, δ l ≠ 0)
    (hz : z = false ∨ tc = false ∨ ta = tb) :
    (K.length < T.length ∨ K.length < U.length → pyGpuEinsum z run cp Cl C ab Al A Bl B = .ub "vector index out of range") ∧
    (K.length < T.length →
      pyGpuEinsum z run cp T C' ab (if sw then K else Xl) A' (if sw then Xl else K) B' = .ub "vector index out of range") := by
  have hn' : (T ++ K).Nodup := by
    simp only [List.nodup_append, List.mem_append] at hn ⊢
    exact ⟨hn.1.1, hn.2.1, fun a ha b hb => hn.2.2 a (.inl ha) b hb⟩
  have hd' : ∀ l ∈ Xl, δ l ≠ 0 := by
    intro l hl
    refine hd l ?_
    rw [eX] at hl
    cases t <;> simp at hl ⊢ <;> tauto
  refine ⟨fun h => ?_, fun h => ?_⟩
  · exact (pyGpuGemm_follows ta tb tc z 8 ⟨[], []⟩ cp ab run hn hT0 hU0 hK0 eA eB eC dA dB dC rA rB rC hd hz).2
      (C83_not_more_targets ta tb tc 8 ⟨[], []⟩ ab ab hn hT0 hU0 hK0 eA eB eC dA dB dC rA rB rC h)
  · exact (pyGpuGemv_follows t sw z 8 ⟨[], []⟩ cp ab run hn' hT0 hK0 eX dX dC' rX rY rC' hd' eAB).2
      (C82_not_more_targets t sw ab ab 8 ⟨[], []⟩ hn' hT0 hK0 h eX dX dY dC' rX rY rC' eAB)

end

/-- C143 refuted for every other `C_prefactor`: an element of `C` for which `C_prefactor * C` and `AB_prefactor * C` differ gets a wrong
value, in the matrix-vector and in the matrix product. -/
theorem C143_not_prefactor {R : Type} [CommRing R] [BEq R] [LawfulBEq R] {L : Type} [DecidableEq L]
    {δ : L → Nat} {T U K Al Bl Cl Xl : List L} (ta tb tc t sw : Bool)
    {A B C A' B' X Y C' : Strided R} {fA fB fC fX fY fC' : List Nat → R} (z : Bool) (cp ab : R) (run : GpuRun R)
    (hn : (T ++ U ++ K).Nodup) (hT0 : T ≠ []) (hU0 : U ≠ [])
    (eA : Al = if ta then K ++ T else T ++ K) (eB : Bl = if tb then U ++ K else K ++ U)
    (eC : Cl = if tc then U ++ T else T ++ U)
    (dA : A.dims = Al.map δ) (dB : B.dims = Bl.map δ) (dC : C.dims = Cl.map δ)
    (rA : A.RowMajor) (rB : B.RowMajor) (rC : C.RowMajor)
    (hA : A.Represents fA) (hB : B.Represents fB) (hC : C.Represents fC)
    (eX : Xl = if t then K ++ T else T ++ K)
    (dX : X.dims = Xl.map δ) (dY : Y.dims = K.map δ) (dC' : C'.dims = T.map δ)
    (rX : X.RowMajor) (rY : Y.RowMajor) (rC' : C'.RowMajor)
    (hX : X.Represents fX) (hY : Y.Represents fY) (hC' : C'.Represents fC')
    (eAB : (if sw then (B', A') else (A', B')) = (X, Y)) (hd : ∀ l ∈ T ++ U ++ K, δ l ≠ 0)
    (hTK : T.length = K.length) (hUK : U.length ≤ K.length)
    (sqA : ta = true → numel (T.map δ) = numel (K.map δ))
    (sqB : tb = true → U.length = K.length ∧ numel (U.map δ) = numel (K.map δ))
    (hz : z = false ∨ tc = false ∨ ta = tb) :
    (∀ ρ, InRange δ Cl ρ → cp * fC (Cl.map ρ) ≠ ab * fC (Cl.map ρ) →
      ∃ D, pyGpuEinsum z run cp Cl C ab Al A Bl B = .ok D ∧
        D.read (toIdx (Cl.map ρ)) ≠ .ok (cp * fC (Cl.map ρ) + ab * contraction δ K Al Bl fA fB ρ)) ∧
    (∀ ρ, InRange δ T ρ → cp * fC' (T.map ρ) ≠ ab * fC' (T.map ρ) →
      ∃ D, pyGpuEinsum z run cp T C' ab (if sw then K else Xl) A' (if sw then Xl else K) B' = .ok D ∧
        D.read (toIdx (T.map ρ)) ≠ .ok (cp * fC' (T.map ρ) + ab * contraction δ K Xl K fX fY ρ)) := by
  have hn' : (T ++ K).Nodup := by
    simp only [List.nodup_append, List.mem_append] at hn ⊢
    exact ⟨hn.1.1, hn.2.1, fun a ha b hb => hn.2.2 a (.inl ha) b hb⟩
  have hd' : ∀ l ∈ Xl, δ l ≠ 0 := by
    intro l hl
    refine hd l ?_
    rw [eX] at hl
    cases t <;> simp at hl ⊢ <;> tauto
  refine ⟨fun ρ hρ h => ?_, fun ρ hρ h => ?_⟩
  · obtain ⟨D, h1, _, h3⟩ := C143_gemm ta tb tc z cp ab run hn hT0 hU0 eA eB eC dA dB dC rA rB rC hA hB hC hd hTK hUK sqA sqB hz
    refine ⟨D, h1, fun e => h ?_⟩
    rw [h3 ρ hρ] at e
    injection e with e
    exact (add_right_cancel e).symm
  · obtain ⟨D, h1, _, h3⟩ := C143_gemv t sw z cp ab run hn' hT0 hTK eX dX dY dC' rX rY rC' hX hY hC' hd' eAB
    refine ⟨D, h1, fun e => h ?_⟩
    rw [h3 ρ hρ] at e
    injection e with e
    exact (add_right_cancel e).symm

/-- C143 refuted for `complex128` when `C` is transposed and one operand is: `ji,jk->ki` multiplies the wrong elements (the element is
`1*5 + 3*7 = 26`), while the other types (`false`) give the product. -/
theorem C143_not_complex :
    ∃ D E : Strided Int, pyGpuEinsum true ⟨[], [], [], fun _ => 0⟩ 1 ['k', 'i'] ⟨[0, 0, 0, 0], 0, [2, 2], [2, 1]⟩ 1
        ['j', 'i'] ⟨[1, 2, 3, 4], 0, [2, 2], [2, 1]⟩ ['j', 'k'] ⟨[5, 6, 7, 8], 0, [2, 2], [2, 1]⟩ = .ok D ∧
      pyGpuEinsum false ⟨[], [], [], fun _ => 0⟩ 1 ['k', 'i'] ⟨[0, 0, 0, 0], 0, [2, 2], [2, 1]⟩ 1
        ['j', 'i'] ⟨[1, 2, 3, 4], 0, [2, 2], [2, 1]⟩ ['j', 'k'] ⟨[5, 6, 7, 8], 0, [2, 2], [2, 1]⟩ = .ok E ∧
      D.data = [23, 34, 31, 46] ∧ E.data = [26, 38, 30, 44] := by
  refine ⟨⟨[23, 34, 31, 46], 0, [2, 2], [2, 1]⟩, ⟨[26, 38, 30, 44], 0, [2, 2], [2, 1]⟩, by decide +kernel, by decide +kernel, rfl, rfl⟩

/-- C143 refuted for an empty dimension: an exception, where the host leaves `C` as it is. -/
theorem C143_not_empty :
    pyGpuEinsum false ⟨[], [], [], fun _ => 0⟩ (1 : Int) ['i', 'k'] ⟨[], 0, [2, 0], [0, 1]⟩ 1
        ['i', 'j'] ⟨[1, 2], 0, [2, 1], [1, 1]⟩ ['j', 'k'] ⟨[], 0, [1, 0], [0, 1]⟩ = .error "XERBLA" ∧
    pyEinsum 8 ⟨[], []⟩ (1 : Int) ['i', 'k'] ⟨[], 0, [2, 0], [0, 1]⟩ 1
        ['i', 'j'] ⟨[1, 2], 0, [2, 1], [1, 1]⟩ ['j', 'k'] ⟨[], 0, [1, 0], [0, 1]⟩ = .ok ⟨[], 0, [2, 0], [0, 1]⟩ := by
  refine ⟨by decide +kernel, by decide +kernel⟩

/-- Interleavings exist. -/
theorem C143_runs_exist {R : Type} [Zero R] [BEq R] (cp : R) (n : Nat) : ∃ sched, Schedule (directThreadsOf cp n) sched :=
  ⟨_, Schedule.sequential _⟩

/-- A scaled outer product: `C_prefactor = 2`. -/
example (run : GpuRun Int) (hs : Schedule (directThreadsOf (2 : Int) 2) run.rmw) :
    ∃ D, pyGpuEinsum false run (2 : Int) ['i', 'j'] ⟨[1, 2], 0, [1, 2], [2, 1]⟩ 1 ['i'] ⟨[2], 0, [1], [1]⟩
      ['j'] ⟨[3, 4], 0, [2], [1]⟩ = .ok D ∧ D.read [0, 1] = .ok 12 := by
  have rep : ∀ (t : Strided Int) (f : List Nat → Int), t.RowMajor →
      (∀ i ∈ box t.dims, t.data[t.off + dot i t.strides]? = some (f i)) → t.Represents f :=
    fun t f h hf => (represents_iff h.wf).2 fun i hi => hf i (mem_box.2 hi)
  obtain ⟨D, h1, _, h3⟩ := C143_outer (δ := fun c => if c = 'i' then 1 else 2) (Al := ['i']) (Bl := ['j']) (Cl := ['i', 'j'])
    (A := ⟨[2], 0, [1], [1]⟩) (B := ⟨[3, 4], 0, [2], [1]⟩) (C := ⟨[1, 2], 0, [1, 2], [2, 1]⟩)
    (fA := fun _ => 2) (fB := fun i => if i = [0] then 3 else 4) (fC := fun i => if i = [0, 0] then 1 else 2) false false 2 1 run
    (by decide) (by decide) (by decide) rfl rfl rfl rfl
    ⟨rfl, by decide⟩ ⟨rfl, by decide⟩ ⟨rfl, by decide⟩
    (rep _ _ ⟨rfl, by decide⟩ (by decide)) (rep _ _ ⟨rfl, by decide⟩ (by decide)) (rep _ _ ⟨rfl, by decide⟩ (by decide)) hs (by decide)
  exact ⟨D, h1, h3 (fun c => if c = 'i' then 0 else 1) (show ∀ l ∈ ['i', 'j'], _ by decide)⟩
example : pyGpuEinsum false ⟨[], [], [], fun _ => 0⟩ (0 : Int) ['i'] ⟨[10, 20], 0, [2], [1]⟩ 1 ['j'] ⟨[5, 6, 7], 0, [3], [1]⟩
    ['j', 'i'] ⟨[1, 2, 3, 4, 5, 6], 0, [3, 2], [2, 1]⟩ = .ok ⟨[68, 96], 0, [2], [1]⟩ := by decide +kernel
example : pyGpuEinsum false ⟨[], [], [], fun _ => 0⟩ (1 : Int) ['i', 'k'] ⟨[0, 0], 0, [2, 1], [1, 1]⟩ 1 ['j', 'i']
    ⟨[1, 2, 3, 4], 0, [2, 2], [2, 1]⟩ ['j', 'k'] ⟨[5, 6], 0, [2, 1], [1, 1]⟩
    = .ok ⟨[23, 34], 0, [2, 1], [1, 1]⟩ := by decide +kernel
example : pyGpuEinsum false ⟨[], [], [], fun _ => 0⟩ (1 : Int) ['i', 'j'] ⟨[0], 0, [1, 1], [1, 1]⟩ 1 ['i', 'j', 'k']
    ⟨[1, 2], 0, [1, 1, 2], [2, 2, 1]⟩ ['k'] ⟨[3, 4], 0, [2], [1]⟩ = .ub "vector index out of range" := by decide +kernel

end Einsums.Props
