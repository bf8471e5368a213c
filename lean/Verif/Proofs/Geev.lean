import Verif.Model.Geev
import Verif.Spec.Geev
import Verif.Proofs.Spectral
/-
`geev`: what the wrapper passes and stores.
-/
namespace Einsums
open Spec Model Props

variable {R : Type} [CommRing R]

/-- A row-major matrix stored through a column-major temporary. -/
theorem storeMatrix_ok {n ld : Nat} {L : Strided R} (w : L.WF) (d : L.dims = [n, n]) (s : L.strides = [ld, 1]) (hl : n ≤ ld)
    (M : Mat R) :
    ∃ x, storeColumns n n n (max 1 n) M L.data L.off ld n = .ok x ∧ L.Frame { L with data := x } ∧
      Holds { L with data := x } (mat n n M) := by
  obtain ⟨x, e1, e2, e3, e4⟩ := storeColumns_ok (r := n) (c := n) (M := M) (u := L.data) (off := L.off) (ldu := ld) hl
    (by
      intro i j hi hj
      have := w.bound [i, j] (by rw [d]; simp [InBox, hi, hj])
      rw [s] at this
      simp [dot] at this
      omega)
  exact ⟨x, e1, frame_of_rows d s e2 e4, (holdsMat_iff (t := Strided.mk x L.off L.dims L.strides) d s _).2 e3⟩

theorem geevT_ok {toFloat : R → R} {geev : GeevFn R} {n la ll lv : Nat} {A L V : Strided R} {W : Strided (R × R)}
    (hn : 0 < n) {a : Nat → Nat → R} (hA : Holds A (mat n n a)) (sA : A.strides = [la, 1]) (hla : n ≤ la) (wW : W.WF)
    (dW : W.dims = [n]) (sW : W.strides = [1]) (wL : L.WF) (dL : L.dims = [n, n]) (sL : L.strides = [ll, 1]) (hll : n ≤ ll)
    (wV : V.WF) (dV : V.dims = [n, n]) (sV : V.strides = [lv, 1]) (hlv : n ≤ lv) :
    let r := geev true n (crop n n a)
    ∃ A' W' L' V', geevT toFloat geev true A W L V = .ok (A', W', L', V') ∧ A.Frame A' ∧ W.Frame W' ∧ L.Frame L' ∧ V.Frame V' ∧
      HoldsVec W' (fun i : Fin n => (toFloat (r.wr i), toFloat (r.wi i))) ∧ Holds L' (mat n n r.vl) ∧ Holds V' (mat n n r.vr) := by
  intro r
  have h := (holdsMat_iff hA.dims sA a).1 hA
  obtain ⟨x, x1, x2, x3, x4⟩ := viaColumns_ok hla h (call := fun M => .ok ((geev true n M).a, geev true n M)) rfl
  obtain ⟨y, y1, y2, y3⟩ := storeMatrix_ok wL dL sL hll r.vl
  obtain ⟨u, u1, u2, u3⟩ := storeMatrix_ok wV dV sV hlv r.vr
  obtain ⟨v, v1, v2, v3⟩ := vecStore_ok (v := fun i => (toFloat (r.wr i), toFloat (r.wi i))) wW dW sW
  refine ⟨_, _, _, _, ?_, frame_of_rows hA.dims sA x2 x4, v2, y2, u2, v3, y3, u3⟩
  unfold geevT Strided.dim Strided.stride
  rw [hA.dims, dW, dL, dV, sA, sL, sV]
  simp only [List.getD_cons_zero, List.getD_cons_succ, ne_eq, not_true_eq_false, or_false, if_false]
  unfold vendorGeev
  rw [if_neg (by simp only [true_and]; omega), x1]
  simp only [Outcome.ok_bind, if_true]
  rw [y1]
  simp only [Outcome.ok_bind]
  rw [u1]
  simp only [Outcome.ok_bind]
  rw [v1]
  rfl

end Einsums
