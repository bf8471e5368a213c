import Verif.Model.HipSolver
import Verif.Model.HipResources
import Verif.Proofs.HipBlas
import Verif.Proofs.Gesv
import Verif.Proofs.Spectral
/-
Proofs for Props/HipSolver.lean.
-/
namespace Einsums
open Spec Model Matrix

section mem
variable {K : Type} [Zero K]

theorem colMat_ne {m n : Nat} {a : List K} {off ld : Nat} : (colMat m n a off ld).isError = false := by
  unfold colMat
  split <;> rfl

theorem colMat_inv {m n : Nat} {a : List K} {off ld : Nat} {M : Nat → Nat → K} (h : colMat m n a off ld = .ok M) :
    ∀ i j, i < m → j < n → off + i + j * ld < a.length := by
  unfold colMat at h
  split at h
  · rename_i hc
    rw [List.all_eq_true] at hc
    intro i j hi hj
    simpa using hc (i, j) (mem_colPairs.2 ⟨hi, hj⟩)
  · exact absurd h (by simp)

omit [Zero K] in
theorem colStore_ne {m n : Nat} {M : Nat → Nat → K} {a : List K} {off ld : Nat} : (colStore m n M a off ld).isError = false :=
  memLoop_ne (p := fun ij : Nat × Nat => off + ij.1 + ij.2 * ld) fun _ _ => rfl

omit [Zero K] in
theorem colStore_inv {m n : Nat} {M : Nat → Nat → K} {a a' : List K} {off ld : Nat} (h : colStore m n M a off ld = .ok a') :
    a'.length = a.length :=
  (memLoop_inv (p := fun ij : Nat × Nat => off + ij.1 + ij.2 * ld) (g := fun ij _ => .ok (M ij.1 ij.2)) h).1

theorem vendorGesv_ne {gesv : GesvRoutine K} {n k : Nat} {a : List K} {aoff lda : Nat} {b : List K} {boff ldb : Nat}
    (hl : max 1 n ≤ lda) (hl' : max 1 n ≤ ldb) : (vendorGesv gesv n k a aoff lda b boff ldb).isError = false := by
  unfold vendorGesv
  rw [if_neg (by omega), if_neg (by omega)]
  exact noErr_bind colMat_ne fun _ => noErr_bind colMat_ne fun _ => noErr_bind colStore_ne fun _ => noErr_bind colStore_ne fun _ => rfl

theorem vendorGesv_inv {gesv : GesvRoutine K} {n k : Nat} {a : List K} {aoff lda : Nat} {b : List K} {boff ldb : Nat}
    {r : Nat × List K × List K} (h : vendorGesv gesv n k a aoff lda b boff ldb = .ok r) :
    r.2.1.length = a.length ∧ r.2.2.length = b.length ∧ ∀ i j, i < n → j < k → boff + i + j * ldb < b.length := by
  unfold vendorGesv at h
  split at h
  · exact absurd h (by simp)
  · split at h
    · exact absurd h (by simp)
    · obtain ⟨M, e1, h⟩ := ok_of_bind h
      obtain ⟨N, e2, h⟩ := ok_of_bind h
      obtain ⟨a', e3, h⟩ := ok_of_bind h
      obtain ⟨b', e4, h⟩ := ok_of_bind h
      injection h with h
      subst h
      exact ⟨colStore_inv e3, colStore_inv e4, colMat_inv e2⟩

omit [Zero K] in
/-- A matrix that is copied to the device, stored there and copied back. -/
theorem mat_roundtrip {a ag ag' : List K} {aoff ld s m n : Nat} {v : Nat → Nat → K} (hld : m ≤ ld) (hs : n * ld ≤ s)
    (sa : aoff + s ≤ a.length) (c2 : ag.length = s) (c3 : ∀ p, p < s → ag[p]? = a[aoff + p]?) (d2 : ag'.length = ag.length)
    (d3 : ColsAt ag' 0 ld m n v) (d4 : SameOutside ag ag' 0 ld n m) :
    ∃ a', hostWrite a aoff ag' = .ok a' ∧ HostMat a' aoff ld m n v ∧ SameOutsideMat a a' aoff ld m n := by
  obtain ⟨a', w1, w2, w3, w4⟩ := hostWrite_ok (mem := a) (xs := ag') (off := aoff) (by omega)
  refine ⟨a', w1, fun i j hi hj => ?_, w2, fun q hq => ?_⟩
  · have h1 : (j + 1) * ld ≤ n * ld := Nat.mul_le_mul_right _ hj
    rw [Nat.succ_mul] at h1
    rw [Nat.add_assoc, w3 _ (by omega), ← d3 i j hi hj]
    congr 1
    omega
  · by_cases hc : aoff ≤ q ∧ q < aoff + s
    · obtain ⟨p, rfl⟩ := Nat.exists_eq_add_of_le hc.1
      rw [w3 p (by omega), d4 p fun j i hj hi he => hq i j hi hj (by omega), c3 p (by omega)]
    · exact w4 q (by omega)

omit [Zero K] in
/-- The copy on the device of a matrix in host memory. -/
theorem hostMat_device {a ag : List K} {aoff ld s m n : Nat} {f : Nat → Nat → K} (hld : m ≤ ld) (hs : n * ld ≤ s)
    (c3 : ∀ p, p < s → ag[p]? = a[aoff + p]?) (ha : HostMat a aoff ld m n f) : ColsAt ag 0 ld m n f := by
  intro i j hi hj
  have h1 : (j + 1) * ld ≤ n * ld := Nat.mul_le_mul_right _ hj
  rw [Nat.succ_mul] at h1
  rw [c3 _ (by omega), ← ha i j hi hj]
  congr 1
  omega

theorem backendGesv_ok {gesv : GesvRoutine K} {n k : Nat} {a : List K} {aoff lda : Nat} {b : List K} {boff ldb : Nat}
    {f g : Nat → Nat → K} (hn : 0 < n) (hk : k ≤ n) (hl : n ≤ lda) (hl' : n ≤ ldb) (oa : n * lda < 2147483648)
    (ob : n * ldb < 2147483648) (sa : aoff + n * lda ≤ a.length) (sb : boff + n * ldb ≤ b.length)
    (ha : HostMat a aoff lda n n f) (hb : HostMat b boff ldb n k g) :
    let r := gesv n k (crop n n f) (crop n k g)
    ∃ a' b', backendGesv gesv n k a aoff lda b boff ldb = .ok (r.1, a', b') ∧ HostMat a' aoff lda n n r.2.1 ∧
      HostMat b' boff ldb n k r.2.2 ∧ SameOutsideMat a a' aoff lda n n ∧ SameOutsideMat b b' boff ldb n k := by
  intro r
  obtain ⟨ag, a1, a2, a3⟩ := hostRead_ok sa
  obtain ⟨bg, b1, b2, b3⟩ := hostRead_ok sb
  have hkb : k * ldb ≤ n * ldb := Nat.mul_le_mul_right _ hk
  have ca := hostMat_device hl (Nat.le_refl _) a3 ha
  have cb := hostMat_device hl' hkb b3 hb
  obtain ⟨d', e1, e2, e3, e4⟩ := colStore_frame (m := n) (n := n) (M := r.2.1) (a := ag) (off := 0) (ld := lda) hl
    (fun i j hi hj => (List.getElem?_eq_some_iff.1 (ca i j hi hj)).1)
  obtain ⟨e', f1, f2, f3, f4⟩ := colStore_frame (m := n) (n := k) (M := r.2.2) (a := bg) (off := 0) (ld := ldb) hl'
    (fun i j hi hj => (List.getElem?_eq_some_iff.1 (cb i j hi hj)).1)
  obtain ⟨a', w1, w2, w3⟩ := mat_roundtrip hl (Nat.le_refl _) sa a2 a3 e2 e3 e4
  obtain ⟨b', v1, v2, v3⟩ := mat_roundtrip hl' hkb sb b2 b3 f2 f3 f4
  refine ⟨a', b', ?_, w2, v2, w3, v3⟩
  unfold backendGesv vendorGesv
  rw [intMul_ok oa, intMul_ok ob]
  simp only [Outcome.ok_bind, a1, b1]
  rw [if_neg (by omega), if_neg (by omega), colMat_ok ca]
  simp only [Outcome.ok_bind]
  rw [colMat_ok cb]
  simp only [Outcome.ok_bind]
  rw [e1]
  simp only [Outcome.ok_bind]
  rw [f1]
  simp only [Outcome.ok_bind, Outcome.pure_eq]
  rw [v1]
  simp only [Outcome.ok_bind]
  rw [w1]
  rfl

theorem backendSyev_ok {syev : SyevFn K} {junk : Nat → K} {vectors : Bool} {n : Nat} {a : List K} {aoff lda : Nat} {w : List K}
    {woff : Nat} {f : Nat → Nat → K} (hn : 0 < n) (hl : n ≤ lda) (oa : n * lda < 2147483648) (sa : aoff + n * lda ≤ a.length)
    (sw : woff + n ≤ w.length) (ha : HostMat a aoff lda n n f) :
    ∃ a' w', backendSyev syev junk vectors n a aoff lda w woff = .ok (a', w') ∧
      HostMat a' aoff lda n n (syev vectors n (crop n n f)).2 ∧ HostVec w' woff 1 n (syev vectors n (crop n n f)).1 ∧
      SameOutsideMat a a' aoff lda n n ∧ SameOutsideVec w w' woff 1 n := by
  obtain ⟨ag, a1, a2, a3⟩ := hostRead_ok sa
  have ca := hostMat_device hl (Nat.le_refl _) a3 ha
  obtain ⟨d', e1, e2, e3, e4⟩ := colStore_frame (m := n) (n := n) (M := (syev vectors n (crop n n f)).2) (a := ag) (off := 0)
    (ld := lda) hl (fun i j hi hj => (List.getElem?_eq_some_iff.1 (ca i j hi hj)).1)
  obtain ⟨a', w1, w2, w3⟩ := mat_roundtrip hl (Nat.le_refl _) sa a2 a3 e2 e3 e4
  obtain ⟨wg, g1, g2, g3, _⟩ := memLoop (R := K) (List.range n) (fun i => 0 + i)
    (fun i _ => .ok ((syev vectors n (crop n n f)).1 i)) (fun i _ => (syev vectors n (crop n n f)).1 i) (newDevice junk n)
    (by
      rw [List.nodup_map_iff_inj_on List.nodup_range]
      intro i _ j _ e
      omega)
    (fun i hi => by
      rw [newDevice_length]
      simpa using List.mem_range.1 hi) (fun _ _ _ _ => rfl)
  rw [newDevice_length] at g2
  obtain ⟨w', v1, v2, v3, v4⟩ := hostWrite_ok (mem := w) (xs := wg) (off := woff) (by omega)
  refine ⟨a', w', ?_, w2, fun i hi => ?_, w3, v2, fun q hq => ?_⟩
  · unfold backendSyev vendorSyev vecStore
    rw [intMul_ok oa]
    simp only [Outcome.ok_bind, a1]
    rw [if_neg (by omega), colMat_ok ca]
    simp only [Outcome.ok_bind]
    rw [e1]
    simp only [Outcome.ok_bind]
    rw [g1]
    simp only [Outcome.ok_bind, Outcome.pure_eq]
    rw [w1]
    simp only [Outcome.ok_bind]
    rw [v1]
    rfl
  · have := g3 i (List.mem_range.2 hi)
    rw [Nat.zero_add, newDevice_get hi] at this
    rw [Nat.mul_one, v3 i (by omega), this]
    rfl
  · refine v4 q ?_
    by_contra hc
    obtain ⟨p, rfl⟩ := Nat.exists_eq_add_of_le (show woff ≤ q by omega)
    exact hq p (by omega) (by omega)

end mem

/-! ### Resources -/

/-- The calls in sequence, none of them made to fail. -/
def runAll : List HipOp → HipState → Option HipState
  | [], s => some s
  | o :: os, s => (o.step s).bind (runAll os)

theorem runHip_true {fails : Nat → Bool} : ∀ {os : List HipOp} {i : Nat} {s : HipState}, (runHip fails i os s).1 = true →
    runAll os s = some (runHip fails i os s).2
  | [], i, s, _ => rfl
  | o :: os, i, s, h => by
    unfold runHip at h ⊢
    unfold runAll
    by_cases hf : fails i = true
    · simp [hf] at h
    · simp only [hf, Bool.false_eq_true, if_false] at h ⊢
      cases hs : o.step s with
      | none => simp [hs] at h
      | some s' =>
        simp only [hs] at h ⊢
        exact runHip_true h

theorem runHip_ok {fails : Nat → Bool} (hf : ∀ i, fails i = false) : ∀ {os : List HipOp} {i : Nat} {s s' : HipState},
    runAll os s = some s' → runHip fails i os s = (true, s')
  | [], i, s, s', h => by
    injection h with h
    rw [h]
    rfl
  | o :: os, i, s, s', h => by
    unfold runAll at h
    unfold runHip
    simp only [hf, Bool.false_eq_true, if_false]
    cases hs : o.step s with
    | none => simp [hs] at h
    | some s1 =>
      simp only [hs, Option.bind_some] at h ⊢
      exact runHip_ok hf h

/-- The first failing call is number i. -/
theorem runHip_first {fails : Nat → Bool} : ∀ {os : List HipOp} {k i : Nat} {s s' : HipState}, (∀ j, j < i → fails (k + j) = false) →
    fails (k + i) = true → i < os.length → runAll (os.take i) s = some s' → runHip fails k os s = (false, s')
  | [], k, i, s, s', _, _, hl, _ => by simp at hl
  | o :: os, k, 0, s, s', _, hi, _, h => by
    simp [runAll] at h
    subst h
    unfold runHip
    simp at hi
    simp [hi]
  | o :: os, k, i + 1, s, s', hj, hi, hl, h => by
    rw [List.take_succ_cons] at h
    unfold runAll at h
    unfold runHip
    have h0 := hj 0 (by omega)
    simp only [Nat.add_zero] at h0
    simp only [h0, Bool.false_eq_true, if_false]
    cases hs : o.step s with
    | none => simp [hs] at h
    | some s1 =>
      simp only [hs, Option.bind_some] at h ⊢
      refine runHip_first (i := i) (fun j hij => ?_) ?_ (by simpa using hl) h
      · rw [show k + 1 + j = k + (j + 1) by omega]
        exact hj (j + 1) (by omega)
      · rw [show k + 1 + i = k + (i + 1) by omega]
        exact hi

end Einsums
