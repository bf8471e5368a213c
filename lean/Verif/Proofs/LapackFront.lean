import Verif.Proofs.Lapack
import Verif.Spec.Factor
/-
From tensors holding matrices to memory, and the QR and SVD front ends.
-/
namespace Einsums
open Spec Model

section
variable {R : Type}

theorem read2_iff {t : Strided R} {m n ld i j : Nat} (d : t.dims = [m, n]) (s : t.strides = [ld, 1]) (v : R) :
    t.read [(i : Int), (j : Int)] = .ok v ↔ t.data[t.off + i * ld + j]? = some v := by
  unfold Strided.read Strided.addr
  rw [if_neg (by simp [d])]
  have e : (t.off : Int) + innerProduct (normIdx t.dims [(i : Int), (j : Int)]) t.strides = ((t.off + i * ld + j : Nat) : Int) := by
    rw [d, s]
    simp only [normIdx, innerProduct]
    rw [if_neg (by omega), if_neg (by omega)]
    push_cast; ring
  simp only [e]
  by_cases hb : t.off + i * ld + j < t.data.length
  · rw [if_pos (by omega)]
    simp only [Outcome.ok_bind, Int.toNat_natCast]
    rw [List.getElem?_eq_getElem hb]
    simp
  · rw [if_neg (by omega), List.getElem?_eq_none (by omega)]
    simp

theorem read1_iff {t : Strided R} {n st i : Nat} (d : t.dims = [n]) (s : t.strides = [st]) (v : R) :
    t.read [(i : Int)] = .ok v ↔ t.data[t.off + i * st]? = some v := by
  unfold Strided.read Strided.addr
  rw [if_neg (by simp [d])]
  have e : (t.off : Int) + innerProduct (normIdx t.dims [(i : Int)]) t.strides = ((t.off + i * st : Nat) : Int) := by
    rw [d, s]
    simp only [normIdx, innerProduct]
    rw [if_neg (by omega)]
    push_cast; ring
  simp only [e]
  by_cases hb : t.off + i * st < t.data.length
  · rw [if_pos (by omega)]
    simp only [Outcome.ok_bind, Int.toNat_natCast]
    rw [List.getElem?_eq_getElem hb]
    simp
  · rw [if_neg (by omega), List.getElem?_eq_none (by omega)]
    simp

theorem holdsMat_iff {t : Strided R} {m n ld : Nat} (d : t.dims = [m, n]) (s : t.strides = [ld, 1]) (f : Nat → Nat → R) :
    Holds t (mat m n f) ↔ RowsAt t.data t.off ld m n f := by
  constructor
  · intro h i j hi hj
    exact (read2_iff d s _).1 (h.elems ⟨i, hi⟩ ⟨j, hj⟩)
  · intro h
    exact ⟨d, fun i j => (read2_iff d s _).2 (h i j i.2 j.2)⟩

theorem tensor_strides2 {t : Strided R} {m n : Nat} (w : t.IsTensor) (d : t.dims = [m, n]) : t.strides = [n, 1] := by
  rw [w.strides, d]; simp [dimsToStrides]

theorem holdsVec_list {n : Nat} (f : Nat → R) (v : Fin n → R) (h : ∀ i : Fin n, f i = v i) :
    HoldsVec ⟨(List.range n).map f, 0, [n], [1]⟩ v := by
  refine ⟨rfl, fun i => ?_⟩
  rw [read1_iff (n := n) rfl rfl]
  simp [h]

end
section
variable {R : Type} [CommRing R]

theorem mat_crop (m n : Nat) (f : Nat → Nat → R) : mat m n (crop m n f) = mat m n f := by
  funext i j
  simp [mat, crop]

omit [CommRing R] in
theorem mat_congr {m n : Nat} {f g : Nat → Nat → R} (h : ∀ i j, i < m → j < n → f i j = g i j) : mat m n f = mat m n g := by
  funext i j
  exact h i j i.2 j.2

theorem reflectors_congr {m k : Nat} {F G : Nat → Nat → R} {t s : Nat → R} (ht : ∀ i, i < k → t i = s i)
    (hF : ∀ j i, j < m → i < k → F j i = G j i) : reflectors m k F t = reflectors m k G s := by
  unfold reflectors
  congr 1
  apply List.map_congr_left
  intro i hi
  rw [List.mem_range] at hi
  unfold reflector
  rw [ht i hi]
  have : (fun j : Fin m => if j.1 < i then (0 : R) else if j.1 = i then 1 else F j i) =
      fun j : Fin m => if j.1 < i then 0 else if j.1 = i then 1 else G j i := by
    funext j
    rw [hF j i j.2 hi]
  simp only [this]

theorem qr_ok {geqrf : GeqrfFn R} {m n : Nat} {A : Strided R} (w : A.IsTensor) {a : Nat → Nat → R}
    (hA : Holds A (mat m n a)) :
    ∃ QR, qr geqrf A = .ok (QR, ⟨(List.range (min m n)).map (geqrf m n (crop m n a)).2, 0, [min m n], [1]⟩) ∧
      QR.IsTensor ∧ Holds QR (mat m n (geqrf m n (crop m n a)).1) := by
  have s := tensor_strides2 w hA.dims
  have h := (holdsMat_iff hA.dims s a).1 hA
  rw [w.off] at h
  obtain ⟨d, e1, e2, e3, _⟩ := viaColumns_ok (Nat.le_refl n) h (call := fun M => .ok (geqrf m n M)) rfl
  refine ⟨{ A with data := d }, ?_, ⟨w.off, w.strides, by rw [← w.length]; exact e2⟩, ?_⟩
  · have d0 : A.dim 0 = m := by simp [Strided.dim, hA.dims]
    have d1 : A.dim 1 = n := by simp [Strided.dim, hA.dims]
    unfold qr
    simp only [d0, d1]
    unfold vendorGeqrf
    rw [if_neg (by omega), e1]
    rfl
  · have := (holdsMat_iff (t := { A with data := d }) hA.dims s (geqrf m n (crop m n a)).1).2
      (by simpa only [w.off] using e3)
    exact this

theorem qrQ_ok {orgqr : OrgqrFn R} {n : Nat} {QR tau : Strided R} (w : QR.IsTensor) {a : Nat → Nat → R}
    (hA : Holds QR (mat n n a)) (ht : n ≤ tau.data.length) :
    ∃ Q, qrQ orgqr QR tau = .ok Q ∧ Q.IsTensor ∧
      Holds Q (mat n n (orgqr n n n (crop n n a) fun i => tau.data.getD i 0)) := by
  have s := tensor_strides2 w hA.dims
  have h := (holdsMat_iff hA.dims s a).1 hA
  rw [w.off] at h
  obtain ⟨d, e1, e2, e3, _⟩ := viaColumns_ok (Nat.le_refl n) h
    (call := fun M => .ok (orgqr n n n M fun i => tau.data.getD i 0, ())) rfl
  refine ⟨{ QR with data := d }, ?_, ⟨w.off, w.strides, by rw [← w.length]; exact e2⟩, ?_⟩
  · have d0 : QR.dim 0 = n := by simp [Strided.dim, hA.dims]
    have d1 : QR.dim 1 = n := by simp [Strided.dim, hA.dims]
    unfold qrQ
    simp only [d0, d1]
    unfold vendorOrgqr
    rw [if_neg (by omega), if_neg (by omega), if_neg (by omega), e1]
    rfl
  · exact (holdsMat_iff (t := { QR with data := d }) hA.dims s _).2 (by simpa only [w.off] using e3)

end

/-- A loop of stores one of which reads outside its source. -/
theorem memFold_ub {R β : Type} (l : List β) (p : β → Nat) (g : β → R → Outcome R) (mem : List R)
    (hg : ∀ b ∈ l, ∀ old, (g b old).isError = false) (hb : ∃ b ∈ l, ∀ old, (g b old).isUb = true) :
    (l.foldlM (fun mem b => memUpd mem (p b) (g b)) mem).isUb = true := by
  induction l generalizing mem with
  | nil => obtain ⟨b, h, _⟩ := hb; simp at h
  | cons b l ih =>
    rw [List.foldlM_cons]
    unfold memUpd
    cases hm : mem[p b]? with
    | none => rfl
    | some old =>
      simp only
      cases hv : g b old with
      | error e => have := hg b (by simp) old; rw [hv] at this; simp [Outcome.isError] at this
      | ub e => rfl
      | ok v =>
        simp only [Outcome.ok_bind]
        apply ih
        · intro b' h'; exact hg b' (by simp [h'])
        · obtain ⟨b', h1, h2⟩ := hb
          rcases List.mem_cons.1 h1 with e | e
          · subst e
            have := h2 old
            rw [hv] at this; simp [Outcome.isUb] at this
          · exact ⟨b', e, h2⟩

section
variable {R : Type} [CommRing R]

theorem sq_lt {i j n : Nat} (hi : i < n) (hj : j < n) : i * n + j < n * n := by
  have : (i + 1) * n ≤ n * n := Nat.mul_le_mul_right _ hi
  rw [Nat.add_mul] at this
  omega

/-- An r×c block stored into a fresh n×n tensor of zeros. -/
theorem storeZeros_ok {r c n : Nat} {M : Nat → Nat → R} (hr : r ≤ n) (hc : c ≤ n) :
    ∃ u', storeColumns r c c (max 1 r) M (List.replicate (n * n) 0) 0 n r = .ok u' ∧
      Holds ⟨u', 0, [n, n], [n, 1]⟩ (mat n n (crop r c M)) := by
  obtain ⟨u', e1, _, e3, e4⟩ := storeColumns_ok (r := r) (c := c) (M := M) (u := List.replicate (n * n) 0) (off := 0)
    (ldu := n) hc (by intro i j hi hj; simp only [List.length_replicate, Nat.zero_add]; exact sq_lt (by omega) (by omega))
  refine ⟨u', e1, (holdsMat_iff (t := ⟨u', 0, [n, n], [n, 1]⟩) rfl rfl _).2 ?_⟩
  intro i j hi hj
  simp only
  by_cases h : i < r ∧ j < c
  · rw [e3 i j h.1 h.2, crop, if_pos h]
  · have hne : ∀ i' j', i' < r → j' < c → 0 + i * n + j ≠ 0 + i' * n + j' := by
      intro i' j' hi' hj' e
      obtain ⟨e1, e2⟩ := colPos_inj (i := j) (j := i) (i' := j') (j' := i') hj (by omega) (Nat.le_refl n) (by omega)
      exact h ⟨by omega, by omega⟩
    rw [e4 _ hne, crop, if_neg h, List.getElem?_replicate, if_pos (by have := sq_lt hi hj; omega)]

theorem svdDd_ok {gesdd : GesddFn R} {m n : Nat} {A : Strided R} (w : A.IsTensor) {a : Nat → Nat → R}
    (hA : Holds A (mat m n a)) {job : Job} (hj : job = .all ∨ job = .some) :
    ∃ U S Vt, svdDd gesdd A job = .ok (U, S, Vt) ∧
      Holds U (mat m m (crop m (if job = .all then m else min m n) (gesdd job m n (crop m n a)).u)) ∧
      HoldsVec S (fun i : Fin (min m n) => (gesdd job m n (crop m n a)).s i) ∧
      Holds Vt (mat n n (crop (if job = .all then n else min m n) n (gesdd job m n (crop m n a)).vt)) := by
  have s := tensor_strides2 w hA.dims
  have h := (holdsMat_iff hA.dims s a).1 hA
  rw [w.off] at h
  obtain ⟨t, e1, e2, e3⟩ := toColumns_ok (Nat.le_refl n) h
  have d0 : A.dim 0 = m := by simp [Strided.dim, hA.dims]
  have d1 : A.dim 1 = n := by simp [Strided.dim, hA.dims]
  have c1 : gesddNrowsU job m = m := by unfold gesddNrowsU; rw [if_pos hj]
  have c2 : gesddNcolsU job m n = (if job = .all then m else min m n) := by
    unfold gesddNcolsU; rcases hj with rfl | rfl <;> simp
  have c3 : gesddNrowsVt job m n = (if job = .all then n else min m n) := by
    unfold gesddNrowsVt; rcases hj with rfl | rfl <;> simp
  have hle : (if job = .all then m else min m n) ≤ m := by split <;> omega
  have hle' : (if job = .all then n else min m n) ≤ n := by split <;> omega
  obtain ⟨u', f1, f2⟩ := storeZeros_ok (r := m) (c := if job = .all then m else min m n) (n := m)
    (M := (gesdd job m n (crop m n a)).u) (Nat.le_refl m) hle
  obtain ⟨v', g1, g2⟩ := storeZeros_ok (r := if job = .all then n else min m n) (c := n) (n := n)
    (M := (gesdd job m n (crop m n a)).vt) hle' (Nat.le_refl n)
  refine ⟨_, _, _, ?_, f2, holdsVec_list _ _ (fun i => rfl), g2⟩
  unfold svdDd
  simp only [d0, d1]
  unfold vendorGesdd
  have hU : decide (job = .all ∨ job = .some ∨ (job = .overwrite ∧ m < n)) = true := by
    simp only [decide_eq_true_eq]; tauto
  have hV : decide (job = .all ∨ job = .some ∨ (job = .overwrite ∧ n ≤ m)) = true := by
    simp only [decide_eq_true_eq]; tauto
  simp only [c1, c2, c3, hU, hV]
  rw [if_neg (by omega), if_neg (by omega), if_neg (by omega), if_neg (by omega)]
  simp only [e1, e3, Outcome.ok_bind, if_true, f1, g1]
  rfl

end

/-- A loop of stores one of which is outside the memory. -/
theorem memFold_oob {R β : Type} (l : List β) (p : β → Nat) (v : β → R) (mem : List R)
    (hb : ∃ b ∈ l, mem.length ≤ p b) :
    (l.foldlM (fun mem b => memUpd mem (p b) fun _ => .ok (v b)) mem).isUb = true := by
  induction l generalizing mem with
  | nil => obtain ⟨b, h, _⟩ := hb; simp at h
  | cons b l ih =>
    rw [List.foldlM_cons]
    unfold memUpd
    cases hm : mem[p b]? with
    | none => rfl
    | some old =>
      simp only [Outcome.ok_bind]
      apply ih
      obtain ⟨b', h1, h2⟩ := hb
      rcases List.mem_cons.1 h1 with e | e
      · subst e
        rw [List.getElem?_eq_none h2] at hm; simp at hm
      · exact ⟨b', e, by simpa using h2⟩

section
variable {R : Type} [CommRing R]

theorem vendorGesvd_ok {gesvd : GesvdFn R} {work : Nat → R} {m n : Nat} {d : List R} {lda : Nat} {a : Nat → Nat → R}
    (hn : n ≤ lda) (h : RowsAt d 0 lda m n a) (withU : Bool) (superb : List R) (hm : 0 < m) :
    ∃ u' v', (∀ (_ : min m n - 1 ≤ superb.length),
        vendorGesvd gesvd work withU m n d lda (List.replicate (m * m) 0) m (List.replicate (n * n) 0) n superb =
          .ok ((gesvd withU m n (crop m n a)).s, u', v')) ∧
      (superb.length < min m n - 1 →
        (vendorGesvd gesvd work withU m n d lda (List.replicate (m * m) 0) m (List.replicate (n * n) 0) n superb).isUb
          = true) ∧
      (withU = true → Holds ⟨u', 0, [m, m], [m, 1]⟩ (mat m m (gesvd withU m n (crop m n a)).u)) ∧
      Holds ⟨v', 0, [n, n], [n, 1]⟩ (mat n n (gesvd withU m n (crop m n a)).vt) := by
  obtain ⟨t, e1, e2, e3⟩ := toColumns_ok hn h
  obtain ⟨u', f1, f2⟩ := storeZeros_ok (r := m) (c := m) (n := m)
    (M := (gesvd withU m n (crop m n a)).u) (Nat.le_refl m) (Nat.le_refl m)
  obtain ⟨v', g1, g2⟩ := storeZeros_ok (r := n) (c := n) (n := n)
    (M := (gesvd withU m n (crop m n a)).vt) (Nat.le_refl n) (Nat.le_refl n)
  rw [mat_crop] at f2 g2
  refine ⟨if withU = true then u' else List.replicate (m * m) 0, v', ?_, ?_, ?_, g2⟩
  · intro hs
    obtain ⟨s', k1, _⟩ := memLoop (List.range (min m n - 1)) (fun i => i) (fun i _ => .ok (work (i + 1)))
      (fun i _ => work (i + 1)) superb (by simpa using List.nodup_range)
      (by intro i hi; rw [List.mem_range] at hi; omega) (by intros; rfl)
    unfold vendorGesvd
    dsimp only
    rw [if_neg (by omega), if_neg (by split <;> omega), if_neg (by omega)]
    cases withU
    · simp only [e1, e3, Outcome.ok_bind, g1, k1, Bool.false_eq_true, if_false]
      rfl
    · simp only [if_true] at f1 ⊢
      simp only [e1, e3, Outcome.ok_bind, f1, g1, k1]
      rfl
  · intro hs
    have k1 := memFold_oob (List.range (min m n - 1)) (fun i => i) (fun i => work (i + 1)) superb
      ⟨superb.length, by simpa using hs, Nat.le_refl _⟩
    unfold vendorGesvd
    dsimp only
    rw [if_neg (by omega), if_neg (by split <;> omega), if_neg (by omega)]
    generalize hf : (List.range (min m n - 1)).foldlM (fun mem i => memUpd mem i fun _ => .ok (work (i + 1))) superb = z
    rw [hf] at k1
    cases z with
    | ok x => simp [Outcome.isUb] at k1
    | error x => simp [Outcome.isUb] at k1
    | ub x =>
      cases withU
      · simp only [e1, e3, Outcome.ok_bind, g1, Bool.false_eq_true, if_false]
        rfl
      · simp only [if_true] at f1 ⊢
        simp only [e1, e3, Outcome.ok_bind, f1, g1]
        rfl
  · intro hw
    rw [if_pos hw]
    exact f2

end

end Einsums
