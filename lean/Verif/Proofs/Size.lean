import Verif.Proofs.Tensor
/-
Lemmas about `size()` and reshape.
-/
namespace Einsums
open Spec Model

theorem size_fold (ds : List Nat) (a : BitVec 32) :
    ds.foldl (fun (a : BitVec 32) d => (a.signExtend 64 * BitVec.ofNat 64 d).truncate 32) a
      = a * BitVec.ofNat 32 (numel ds) := by
  induction ds generalizing a with
  | nil => simp
  | cons d ds ih =>
    simp only [List.foldl_cons, numel_cons]
    rw [ih]
    have h1 : (a.signExtend 64 * BitVec.ofNat 64 d).truncate 32 = a * BitVec.ofNat 32 d := by
      rw [BitVec.truncate_eq_setWidth, BitVec.setWidth_mul _ _ (by omega)]
      congr 1
      · apply BitVec.eq_of_getLsbD_eq
        intro i hi
        simp [BitVec.getLsbD_signExtend, hi]
        omega
      · apply BitVec.eq_of_toNat_eq
        simp [BitVec.toNat_ofNat]
    rw [h1, BitVec.mul_assoc]
    congr 1
    apply BitVec.eq_of_toNat_eq
    simp [BitVec.toNat_mul]

theorem sizeMethod_eq (ds : List Nat) :
    sizeMethod ds = numel ds % 2 ^ 32 +
      (if 2 ^ 31 ≤ numel ds % 2 ^ 32 then 2 ^ 64 - 2 ^ 32 else 0) := by
  unfold sizeMethod
  simp only [size_fold]
  rw [show (1 : BitVec 32) * BitVec.ofNat 32 (numel ds) = BitVec.ofNat 32 (numel ds) by simp]
  rw [BitVec.toNat_signExtend, BitVec.msb_eq_decide]
  simp only [BitVec.toNat_setWidth, BitVec.toNat_ofNat, decide_eq_true_eq]
  have := Nat.mod_lt (numel ds) (show 2 ^ 32 > 0 by decide)
  rw [Nat.mod_eq_of_lt (show numel ds % 2 ^ 32 < 2 ^ 64 by omega)]

theorem foldl_mul_eq (ds : List Nat) (a : Nat) : ds.foldl (· * ·) a = a * numel ds := by
  induction ds generalizing a with
  | nil => simp
  | cons d ds ih => simp [ih, Nat.mul_assoc]

theorem matches_fillAuto (v : Nat) (rs : List ReqDim) : Matches rs (fillAuto v rs) := by
  induction rs with
  | nil => trivial
  | cons r rs ih => cases r <;> simp [fillAuto, Matches, ih]

theorem length_fillAuto (v : Nat) (rs : List ReqDim) : (fillAuto v rs).length = rs.length := by
  induction rs with
  | nil => rfl
  | cons r rs ih => cases r <;> simp [fillAuto, ih]

def autos (rs : List ReqDim) : Nat := (rs.filter (· == ReqDim.auto)).length

@[simp] theorem autos_nil : autos [] = 0 := rfl
@[simp] theorem autos_auto (rs : List ReqDim) : autos (.auto :: rs) = autos rs + 1 := by
  simp [autos]
@[simp] theorem autos_n (d : Nat) (rs : List ReqDim) : autos (.n d :: rs) = autos rs := by
  simp [autos]

theorem numel_of_matches_zero {rs : List ReqDim} {ds : List Nat} (h : Matches rs ds)
    (h0 : autos rs = 0) : ds = fillAuto 0 rs ∧ numel ds = reqProduct rs := by
  induction rs generalizing ds with
  | nil => cases ds <;> simp_all [Matches, fillAuto, reqProduct]
  | cons r rs ih => cases ds with
    | nil => cases r <;> simp [Matches] at h
    | cons d ds => cases r with
      | auto => simp at h0
      | n r =>
        obtain ⟨rfl, h2⟩ := h
        have := ih h2 (by simpa using h0)
        simp [fillAuto, reqProduct, this.2, ← this.1]

theorem numel_of_matches_one {rs : List ReqDim} {ds : List Nat} (h : Matches rs ds)
    (h1 : autos rs = 1) : ∃ v, ds = fillAuto v rs ∧ numel ds = v * reqProduct rs := by
  induction rs generalizing ds with
  | nil => simp at h1
  | cons r rs ih => cases ds with
    | nil => cases r <;> simp [Matches] at h
    | cons d ds => cases r with
      | auto =>
        have hz : autos rs = 0 := by simpa using h1
        have := numel_of_matches_zero (rs := rs) (ds := ds) h hz
        refine ⟨d, ?_, ?_⟩
        · have e : ∀ v, fillAuto v rs = fillAuto 0 rs := by
            intro v
            exact (numel_of_matches_zero (matches_fillAuto v rs) hz).1
          simp [fillAuto, e d, ← this.1]
        · simp [reqProduct, this.2]
      | n r =>
        obtain ⟨rfl, h2⟩ := h
        obtain ⟨v, e1, e2⟩ := ih h2 (by simpa using h1)
        refine ⟨v, by simp [fillAuto, ← e1], ?_⟩
        simp [reqProduct, e2]; rw [Nat.mul_left_comm]

end Einsums
