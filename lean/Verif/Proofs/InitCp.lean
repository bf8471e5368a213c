import Verif.Model.InitCp
import Verif.Spec.InitCp
import Verif.Props.ViewAssign
import Verif.Props.Spectral
import Verif.Props.Random
import Verif.Proofs.Tucker
/-
The starting factors of the CP decompositions.
-/
namespace Einsums
open Spec Model Props Matrix

section
variable {R : Type} [CommSemiring R] [BEq R] [LawfulBEq R] [Div R]

theorem gramSq_eq (z : Nat → R) (check : Bool) {k d : Nat} (hk : k ≠ 0) {f : Strided R} (hf : f.IsTensor)
    (df : f.dims = [d, k]) {A : Nat → Nat → R} (rf : f.Represents fun i => A (i.getD 0 0) (i.getD 1 0)) :
    ∃ C, einsum false check 0 [InitLabel.M, .N] (tensorOperand (Strided.mk' z [d, d])) 1 [.M, .p]
        (tensorOperand f) [.N, .p] (tensorOperand f) = .ok C ∧ C.IsTensor ∧ C.dims = [d, d] ∧
      C.Represents fun i => gram k A (i.getD 0 0) (i.getD 1 0) := by
  have hm : (Strided.mk' z [d, d]).IsTensor := isTensor_mk' z (by simp)
  have : Inhabited R := ⟨0⟩
  obtain ⟨fC, hC⟩ := exists_represents hm.wf
  let δ : InitLabel → Nat := fun l => if l = .p then k else d
  obtain ⟨C, h1, fr, h2⟩ := C15_einsum δ [InitLabel.M, .p] [.N, .p] [.M, .N] [.p] false check (tensorOperand f)
    (tensorOperand f) (tensorOperand (Strided.mk' z [d, d])) _ _ fC 0 1 (by decide) (by decide) (by decide)
    (by decide) df df rfl (tensorOperand_valid hf) (tensorOperand_valid hf) (tensorOperand_valid hm) rfl rf rf hC
    (by decide) (by decide) (by decide) (fun _ => by decide) (fun h => absurd h (by decide))
    ⟨by decide, fun l => by cases l <;> decide⟩ (.inl (by simpa [δ] using hk))
  refine ⟨C, h1, fr.isTensor hm, fr.dims, ?_⟩
  intro i hi
  rw [fr.dims] at hi
  match i, hi with
  | [a, b], hi =>
    have ha : a < d := hi.1
    have hb : b < d := hi.2.1
    have := h2 (fun l => if l = .M then a else b) (by
      intro l hl
      fin_cases hl <;> simpa [δ])
    simp only [List.map_cons, List.map_nil, if_true, reduceCtorEq, if_false, zero_mul, zero_add, one_mul] at this
    rw [this]
    simp [contraction, sumOver, update, sumTo, δ, gram]

omit [Div R] in
theorem transpose_eq (z : Nat → R) (useHptt : Bool) {d : Nat} {A : Strided R} (hA : A.IsTensor) (dA : A.dims = [d, d]) {f : Nat → Nat → R}
    (rA : A.Represents fun i => f (i.getD 0 0) (i.getD 1 0)) {sched : List (List Nat)} (hs : sched.Perm (box [d, d])) :
    ∃ C, sort useHptt 0 [InitLabel.M, .N] (tensorOperand (Strided.mk' z [d, d])) 1 [.N, .M] (tensorOperand A) (cartesian [d, d]) sched
        = .ok C ∧ C.IsTensor ∧ C.dims = [d, d] ∧ C.Represents fun i => f (i.getD 1 0) (i.getD 0 0) := by
  have hm : (Strided.mk' z [d, d]).IsTensor := isTensor_mk' z (by simp)
  have : Inhabited R := ⟨0⟩
  obtain ⟨fC, hC⟩ := exists_represents hm.wf
  obtain ⟨C, h1, fr, h2⟩ := C27_sort_partial (fun _ => d) [InitLabel.N, .M] [.M, .N] useHptt (tensorOperand A)
    (tensorOperand (Strided.mk' z [d, d])) _ fC 0 1 (by decide) (by decide) (by decide) dA rfl (tensorOperand_valid hA)
    (tensorOperand_valid hm) rA hC (fun h => absurd h (by decide)) (cartesian [d, d]) sched (by rw [cartesian_eq_box]; exact List.Perm.refl _) hs
  refine ⟨C, h1, fr.isTensor hm, fr.dims, ?_⟩
  intro i hi
  rw [fr.dims] at hi
  match i, hi with
  | [a, b], hi =>
    have ha : a < d := hi.1
    have hb : b < d := hi.2.1
    have := h2 (fun l => if l = .M then a else b) (by
      intro l hl
      fin_cases hl <;> simpa)
    simp only [List.map_cons, List.map_nil, if_true, reduceCtorEq, if_false, zero_mul, zero_add, one_mul] at this
    rw [this]
    rfl

end

section
variable {R : Type} [CommRing R]

/-- What a column of the first factor is scaled by. -/
def scaleOf (sqrt : R → R) (big : R → Bool) (s : R) : R := if big (sqrt s) then sqrt s else 1

theorem scaleFirst_ok (sqrt : R → R) (big : R → Bool) (m : Nat) {d : Nat} (hd : d ≠ 0) {S U : Strided R} {w : Nat → R}
    (hS : HoldsVec S fun i : Fin d => w i) (hU : U.IsTensor) (dU : U.dims = [d, d]) {V : Nat → Nat → R}
    (rU : U.Represents fun i => V (i.getD 0 0) (i.getD 1 0)) :
    ∃ U', scaleFirst sqrt big m S U = .ok U' ∧ U'.IsTensor ∧ U'.dims = [d, d] ∧
      U'.Represents fun i => startColumn (scaleOf sqrt big) m w V (i.getD 0 0) (i.getD 1 0) := by
  unfold scaleFirst startColumn
  by_cases h0 : m = 0
  · simp only [if_pos h0]
    have hS0 : S.dim 0 = d := by simp [Strided.dim, hS.dims]
    rw [hS0]
    have key : ∀ k, k ≤ d → ∃ U', (List.range k).foldlM (fun U (v : Nat) => (do
        let s ← S.read [(v : Int)]
        scaleIfBig big v (sqrt s) U : Outcome (Strided R))) U = .ok U' ∧ U'.IsTensor ∧ U'.dims = [d, d] ∧
        U'.Represents fun i => if i.getD 1 0 < k then scaleOf sqrt big (w (i.getD 1 0)) * V (i.getD 0 0) (i.getD 1 0)
          else V (i.getD 0 0) (i.getD 1 0) := by
      intro k
      induction k with
      | zero => intro _; exact ⟨U, rfl, hU, dU, by simpa using rU⟩
      | succ k ih =>
        intro hk
        obtain ⟨U1, e1, e2, e3, e4⟩ := ih (by omega)
        have rd : S.read [(k : Int)] = .ok (w k) := hS.elems ⟨k, by omega⟩
        rw [List.range_succ, List.foldlM_append, e1]
        simp only [Outcome.ok_bind, List.foldlM_cons, List.foldlM_nil, rd]
        unfold scaleIfBig
        by_cases hb : big (sqrt (w k)) = true
        · rw [if_pos hb]
          obtain ⟨U2, a1, a2, a3⟩ := scaleColumn_rep e2.wf e3 (tensor_strides2 e2 e3) hd (col := k) (by omega) e4 (sqrt (w k))
          refine ⟨U2, by rw [a1]; rfl, a2.isTensor e2, a2.dims.trans e3, ?_⟩
          intro i hi
          rw [a3 i hi]
          congr 1
          by_cases hik : i.getD 1 0 = k
          · simp only [hik, if_true, Nat.lt_irrefl, if_false, Nat.lt_succ_self, scaleOf, hb]
          · simp only [hik, if_false]
            by_cases hlt : i.getD 1 0 < k
            · rw [if_pos hlt, if_pos (by omega)]
            · rw [if_neg hlt, if_neg (by omega)]
        · rw [if_neg hb]
          refine ⟨U1, rfl, e2, e3, ?_⟩
          intro i hi
          rw [e4 i hi]
          congr 1
          beta_reduce
          by_cases hik : i.getD 1 0 = k
          · rw [hik, if_neg (Nat.lt_irrefl _), if_pos (Nat.lt_succ_self _), scaleOf, if_neg hb, one_mul]
          · by_cases hlt : i.getD 1 0 < k
            · rw [if_pos hlt, if_pos (by omega)]
            · rw [if_neg hlt, if_neg (by omega)]
    obtain ⟨U', e1, e2, e3, e4⟩ := key d (Nat.le_refl _)
    refine ⟨U', e1, e2, e3, ?_⟩
    intro i hi
    rw [e4 i hi]
    rw [e3] at hi
    obtain ⟨a, b, rfl, ha, hb⟩ := inBox2_cases hi
    simp [hb]
  · simp only [if_neg h0]
    exact ⟨U, rfl, hU, dU, rU⟩

variable [LinearOrder R] [BEq R] [LawfulBEq R] [Div R]

theorem gramVectors_ok (syev : SyevFn R) (sqrt : R → R) (big : R → Bool) (z : Nat → R) (check useHptt : Bool) (m : Nat) {d k : Nat}
    (hd : d ≠ 0) (hk : k ≠ 0) {f : Strided R} (hf : f.IsTensor) {A : Nat → Nat → R} (hA : Holds f (mat d k A))
    (lapack : ∀ g, mat d d g = mat d d (gram k A) → IsSyev d g (syev true d g))
    {ssched : List (List Nat)} (hs : ssched.Perm (box [d, d])) :
    ∃ U w V, gramVectors syev sqrt big z check useHptt ssched m f = .ok U ∧ GramEigen d k A w V ∧ U.IsTensor ∧ U.dims = [d, d] ∧
      U.Represents fun i => startColumn (scaleOf sqrt big) m w V (i.getD 0 0) (i.getD 1 0) := by
  obtain ⟨C, c1, c2, c3, c4⟩ := gramSq_eq z check hk hf hA.dims (represents_of_holds hA)
  have hC : Holds C (mat d d (gram k A)) := ⟨c3, fun i j => c4 [i.1, j.1] (by rw [c3]; simp [InBox])⟩
  have hsym : (mat d d (gram k A)).IsSymm := by
    ext i j
    simp only [transpose_apply, mat, gram]
    exact congrArg (sumTo k) (funext fun c => mul_comm _ _)
  have wS := isTensor_mk' z (dims := [d]) (by simp)
  obtain ⟨A', W', v, w, s1, s2, s3, s4, s5, s6, s7, s8⟩ := C106_syev_partial syev d d C (Strided.mk' z [d]) _ hC hsym hd
    (tensor_strides2 c2 c3) (Nat.le_refl _) wS.wf rfl rfl lapack
  obtain ⟨g, rfl⟩ := exists_mat v
  let w' : Nat → R := fun i => if h : i < d then w ⟨i, h⟩ else 0
  have hw' : w = fun i : Fin d => w' i := by funext i; simp [w']
  rw [hw'] at s3 s6 s8
  obtain ⟨T, t1, t2, t3, t4⟩ := transpose_eq z useHptt (s4.isTensor c2) (s4.dims.trans c3) (represents_of_holds s2) hs
  obtain ⟨U, u1, u2, u3, u4⟩ := scaleFirst_ok sqrt big m hd s3 t2 t3 (V := fun x j => g j x) t4
  refine ⟨U, w', fun x j => g j x, ?_, ⟨?_, ?_, ?_⟩, u2, u3, u4⟩
  · unfold gramVectors
    have e0 : f.dim 0 = d := by simp [Strided.dim, hA.dims]
    simp only [e0, c1, Outcome.ok_bind, s1, t1]
    exact u1
  · intro i j hij hj
    exact s6 ⟨i, by omega⟩ ⟨j, hj⟩ hij
  · intro i j hi hj
    have := s7 ⟨i, hi⟩ ⟨j, hj⟩
    rw [sumTo_fin]
    simpa [dotProduct, mat] using this
  · intro a j ha hj
    have := congrFun (s8 ⟨j, hj⟩) ⟨a, ha⟩
    rw [sumTo_fin]
    simpa [mulVec, dotProduct, mat] using this

omit [CommRing R] [LinearOrder R] [BEq R] [LawfulBEq R] [Div R] in
theorem padColumns_ok {G : Type} (draw : G → R × G) (seed : G) (z : Nat → R) {d rank : Nat} (hr : d < rank) {U : Strided R} (hU : U.IsTensor)
    (dU : U.dims = [d, d]) {u : Nat → Nat → R} (rU : U.Represents fun i => u (i.getD 0 0) (i.getD 1 0)) {asched : List (List Nat)}
    (hs : asched.Perm (box [d, d])) :
    ∃ f, padColumns draw seed z 1 asched d rank U = .ok f ∧ f.IsTensor ∧ f.dims = [d, rank] ∧
      f.Represents fun i => if i.getD 1 0 < d then u (i.getD 0 0) (i.getD 1 0) else drawn draw seed (i.getD 0 0 * rank + i.getD 1 0) := by
  obtain ⟨N, n1, n2, n3, n4, -⟩ := C149_tensor_partial draw seed z [d, rank] (by simp)
  have sN := tensor_strides2 n2 n3
  have sU := tensor_strides2 hU dU
  let dst : Strided R := ⟨N.data, 0, [d, d], [rank, 1]⟩
  let src : Strided R := ⟨U.data, 0, [d, d], [d, 1]⟩
  have hdst : N.sub [.all, .range 0 d] = .ok dst := by
    unfold Strided.sub
    rw [if_neg (by simp [n3])]
    simp [n3, sN, subLoop, subStep, mkView, n2.off, innerProduct, dst]
    rw [if_neg (by omega), if_neg (show ¬ ((d : Int) < 0) by omega), if_neg (by omega)]
    simp
  have hsrc : U.sub [.all, .all] = .ok src := by
    unfold Strided.sub
    rw [if_neg (by simp [dU])]
    simp [dU, sU, subLoop, subStep, mkView, hU.off, innerProduct, src]
    rw [if_neg (by omega), if_neg (by omega)]
  have hlen : N.data.length = d * rank := by rw [n2.length, n3]; simp [numel]
  have wdst : dst.WF := by
    refine ⟨rfl, ?_, ?_⟩
    · intro i hi
      obtain ⟨a, b, rfl, ha, hb⟩ := inBox2_cases (show InBox i [d, d] from hi)
      have : (a + 1) * rank ≤ d * rank := Nat.mul_le_mul_right _ ha
      simp only [dst, dot, hlen]
      rw [Nat.add_mul] at this
      omega
    · intro i j hi hj e
      obtain ⟨a, b, rfl, ha, hb⟩ := inBox2_cases (show InBox i [d, d] from hi)
      obtain ⟨a', b', rfl, ha', hb'⟩ := inBox2_cases (show InBox j [d, d] from hj)
      simp only [dst, dot] at e
      have : rowMajor [a, b] [d, rank] = rowMajor [a', b'] [d, rank] := by
        simp [rowMajor, numel]; omega
      exact rowMajor_inj (ds := [d, rank]) ⟨ha, by omega, trivial⟩ ⟨ha', by omega, trivial⟩ this
  have rsrc : src.Represents fun i => u (i.getD 0 0) (i.getD 1 0) := by
    intro i hi
    obtain ⟨a, b, rfl, ha, hb⟩ := inBox2_cases (show InBox i [d, d] from hi)
    have := (read2_iff dU sU _).1 (rU [a, b] (by rw [dU]; exact ⟨ha, hb, trivial⟩))
    rw [hU.off] at this
    exact (read2_iff (t := src) rfl rfl _).2 this
  obtain ⟨r, r1, r2, r3⟩ := C154_assign wdst rsrc (fun _ h => h) hs
  refine ⟨{ N with data := r.data }, ?_, ⟨n2.off, n2.strides, ?_⟩, n3, ?_⟩
  · unfold padColumns
    rw [n1]
    simp only [Outcome.ok_bind, hdst, hsrc, r1]
    rfl
  · show r.data.length = _
    rw [r2.length]
    exact n2.length
  · intro i hi
    obtain ⟨a, b, rfl, ha, hb⟩ := inBox2_cases (show InBox i [d, rank] by simpa [n3] using hi)
    refine (read2_iff (t := { N with data := r.data }) n3 sN _).2 ?_
    simp only [n2.off, Nat.zero_add, List.getD_cons_zero, List.getD_cons_succ]
    by_cases hbd : b < d
    · rw [if_pos hbd]
      have := (represents_iff (r2.wf wdst)).1 r3 [a, b] (by rw [r2.dims]; exact ⟨ha, hbd, trivial⟩)
      rw [r2.off, r2.strides] at this
      simpa [dst, dot] using this
    · rw [if_neg hbd]
      have hlt : a * rank + b < numel [d, rank] := by
        have : (a + 1) * rank ≤ d * rank := Nat.mul_le_mul_right _ ha
        rw [Nat.add_mul] at this
        simp [numel]; omega
      rw [← n4 _ hlt]
      refine r2.outside _ ?_
      intro j hj e
      obtain ⟨a', b', rfl, ha', hb'⟩ := inBox2_cases (show InBox j [d, d] from hj)
      simp only [dst, dot] at e
      have : rowMajor [a, b] [d, rank] = rowMajor [a', b'] [d, rank] := by
        simp [rowMajor, numel]; omega
      have := rowMajor_inj (show InBox [a, b] [d, rank] from ⟨ha, hb, trivial⟩)
        (show InBox [a', b'] [d, rank] from ⟨ha', by omega, trivial⟩) this
      simp at this
      omega

omit [CommRing R] [LinearOrder R] [BEq R] [LawfulBEq R] [Div R] in
theorem trailingColumns_ok (z : Nat → R) {d rank : Nat} (hr : rank ≤ d) {U : Strided R} (hU : U.IsTensor)
    (dU : U.dims = [d, d]) {u : Nat → Nat → R} (rU : U.Represents fun i => u (i.getD 0 0) (i.getD 1 0)) :
    ∃ f, trailingColumns z d rank U = .ok f ∧ f.IsTensor ∧ f.dims = [d, rank] ∧
      f.Represents fun i => u (i.getD 0 0) (d - rank + i.getD 1 0) := by
  have sU := tensor_strides2 hU dU
  let v : Strided R := ⟨U.data, d - rank, [d, rank], [d, 1]⟩
  have hv : U.sub [.all, .range ((d : Int) - (rank : Int)) d] = .ok v := by
    unfold Strided.sub
    rw [if_neg (by simp [dU])]
    simp [dU, sU, subLoop, subStep, mkView, hU.off, innerProduct, v]
    have hl : d ≤ U.data.length := by rw [hU.length, dU]; simp [numel]; exact Nat.le_mul_self d
    have h0 : ¬ ((d : Int) < 0) := by omega
    rw [if_neg (by omega)]
    simp only [if_neg h0]
    rw [if_neg (by omega)]
    congr 3
    simp
  have rv : v.Represents fun i => u (i.getD 0 0) (d - rank + i.getD 1 0) := by
    intro i hi
    obtain ⟨a, b, rfl, ha, hb⟩ := inBox2_cases (show InBox i [d, rank] from hi)
    have := (read2_iff dU sU _).1 (rU [a, d - rank + b] (by rw [dU]; exact ⟨ha, by omega, trivial⟩))
    rw [hU.off] at this
    refine (read2_iff (t := v) rfl rfl _).2 ?_
    show U.data[d - rank + a * d + b]? = _
    refine Eq.trans ?_ this
    congr 1
    omega
  obtain ⟨f, f1, f2, f3, f4⟩ := C11_of_view z v _ rv (by simp [v])
  refine ⟨f, ?_, f2, f3, f4⟩
  unfold trailingColumns
  rw [hv]
  exact f1

theorem cpFactor_ok {G : Type} (syev : SyevFn R) (sqrt : R → R) (big : R → Bool) (draw : G → R × G) (seed : G) (z : Nat → R)
    (check useHptt : Bool) (threads : Nat) {ssched asched : Nat → List (List Nat)} {folds : List (Strided R)} {rank m : Nat} {d k : Nat}
    (hd : d ≠ 0) (hk : k ≠ 0) {f : Strided R} (hm : folds[m]? = some f) (hf : f.IsTensor) {A : Nat → Nat → R} (hA : Holds f (mat d k A))
    (ht : threads = 1 ∨ rank ≤ d)
    (lapack : ∀ g, mat d d g = mat d d (gram k A) → IsSyev d g (syev true d g))
    (hs : (ssched m).Perm (box [d, d])) (ha : (asched m).Perm (box [d, d])) :
    ∃ x w V, cpFactor syev sqrt big draw seed z check useHptt threads ssched asched folds rank m = .ok x ∧ GramEigen d k A w V ∧
      x.IsTensor ∧ x.dims = [d, rank] ∧
      x.Represents fun i => startFactor (scaleOf sqrt big) (drawn draw seed) m d rank w V (i.getD 0 0) (i.getD 1 0) := by
  obtain ⟨U, w, V, u1, u2, u3, u4, u5⟩ := gramVectors_ok syev sqrt big z check useHptt m hd hk hf hA lapack hs
  have e0 : f.dim 0 = d := by simp [Strided.dim, hA.dims]
  by_cases h : d < rank
  · obtain rfl : threads = 1 := ht.resolve_right (by omega)
    obtain ⟨x, x1, x2, x3, x4⟩ := padColumns_ok draw seed z h u3 u4 u5 ha
    refine ⟨x, w, V, ?_, u2, x2, x3, ?_⟩
    · unfold cpFactor
      simp only [factorAt, hm, Outcome.ok_bind, u1, e0, if_pos h]
      exact x1
    · intro i hi
      rw [x4 i hi]
      simp only [startFactor, if_neg (show ¬ rank ≤ d by omega)]
  · obtain ⟨x, x1, x2, x3, x4⟩ := trailingColumns_ok z (show rank ≤ d by omega) u3 u4 u5
    refine ⟨x, w, V, ?_, u2, x2, x3, ?_⟩
    · unfold cpFactor
      simp only [factorAt, hm, Outcome.ok_bind, u1, e0, if_neg h]
      exact x1
    · intro i hi
      rw [x4 i hi]
      simp only [startFactor, if_pos (show rank ≤ d by omega)]

end
end Einsums
