import Verif.Model.TiledDevice
import Verif.Props.DeviceTransfer
import Verif.Props.Tiled
/-
C181: tiled tensors on the device.
-/
namespace Einsums.Props
open Spec Model
variable {K : Type}

/-- Two tensors of the same shape with the same elements. -/
theorem IsTensor_ext {t u : Strided K} (ht : t.IsTensor) (hu : u.IsTensor) (hd : t.dims = u.dims) {f : List Nat → K} (h1 : t.Represents f)
    (h2 : u.Represents f) : t = u := by
  have e1 := ht.represents_iff.1 h1
  have e2 := hu.represents_iff.1 h2
  have e3 := ht.strides
  have e4 := hu.strides
  have e5 := ht.off
  have e6 := hu.off
  obtain ⟨a, b, c, d⟩ := t
  obtain ⟨a', b', c', d'⟩ := u
  simp only at *
  subst hd e1 e2 e3 e4 e5 e6
  rfl

variable [Zero K]

/-- Assigning a small host tensor to a device tensor of the same rank. -/
theorem deviceAssignHost_eq {mode : DeviceMode} (hm : mode ≠ .notInitialized) (z : Nat → K) {t u : Strided K} (ht : t.IsTensor)
    (hu : u.IsTensor) (hd : u.dims ≠ []) (hl : t.dims.length = u.dims.length) (hn : numel u.dims < 2 ^ 31) :
    deviceAssignHost mode z t u = .ok u := by
  have : Inhabited K := ⟨0⟩
  obtain ⟨g, hg⟩ := exists_represents hu.wf
  obtain ⟨t', e, h1, h2, h3⟩ := C130_host_partial mode hm z t u ht hu hd hl hn g hg
  rw [e, IsTensor_ext h1 hu h2 h3 hg]

theorem tiledToDevice_eq {mode : DeviceMode} (hm : mode ≠ .notInitialized) (z : Nat → K) {O : Tiled K} (w : O.WF)
    (hn : ∀ p ∈ O.tiles, numel p.2.dims < 2 ^ 31) : tiledToDevice mode z O = .ok (Tiled.assign false O) := by
  have main : ∀ (l : List (List Nat × Strided K)) (T : Tiled K), T.WF → T.sizes = O.sizes →
      (∀ p ∈ l, O.tiles.lookup p.1 = some p.2 ∧ numel p.2.dims < 2 ^ 31) → (l.map (·.1)).Nodup → (∀ p ∈ l, T.tiles.lookup p.1 = none) →
      l.foldlM (tiledDeviceStep mode z) T = .ok (l.foldl (fun (T : Tiled K) p => (T.addTile p.1).setTile p.1 p.2) T) := by
    intro l
    induction l with
    | nil => intro T _ _ _ _ _; rfl
    | cons p l ih =>
      intro T wT s ho hnd hnone
      obtain ⟨⟨hp, hps⟩, ho'⟩ := List.forall_mem_cons.1 ho
      obtain ⟨b1, b2, b3⟩ := w.tiles p.1 p.2 hp
      rw [← s] at b1 b3
      have hl := hnone p (by simp)
      obtain ⟨w1, s1, _⟩ := addTile_wf wT b1 hl
      have w2 := setTile_wf (k := p.1) w1 b2 (by rw [b3, s1])
      have hat : (T.addTile p.1).tiles.lookup p.1 = some (Strided.mk' (fun _ => 0) (tileDims T.sizes p.1)) := by
        rw [lookup_addTile hl]; simp
      obtain ⟨c1, c2, c3⟩ := w1.tiles _ _ hat
      have hne : p.2.dims ≠ [] := by
        rw [b3]
        intro e
        have h1 := c2.length
        have h2 : (Strided.mk' (fun _ => (0 : K)) (tileDims T.sizes p.1)).data.length = 0 := by rw [e]; rfl
        rw [h2, c3, s1, e] at h1
        cases h1
      have hstep : tiledDeviceStep mode z T p = .ok ((T.addTile p.1).setTile p.1 p.2) := by
        unfold tiledDeviceStep Tiled.at
        simp only [hat]
        rw [Outcome.ok_bind, deviceAssignHost_eq hm z c2 b2 hne (by rw [c3, s1, b3]) hps, Outcome.ok_bind]
        rfl
      rw [List.foldlM_cons, hstep, Outcome.ok_bind, List.foldl_cons]
      rw [List.map_cons, List.nodup_cons] at hnd
      refine ih _ w2 (s1.trans s) ho' hnd.2 fun q hq => ?_
      have hqp : q.1 ≠ p.1 := fun e => hnd.1 (e ▸ List.mem_map_of_mem hq)
      rw [lookup_setTile, if_neg hqp, lookup_addTile hl, if_neg hqp, hnone q (by simp [hq])]
  unfold tiledToDevice
  rw [main O.tiles { sizes := O.sizes, offsets := O.offsets, dims := O.dims, tiles := [] } ⟨w.rank, w.offsets, w.dims, by simp, by simp⟩ rfl (fun p hp => ⟨lookup_of_mem w.nodup hp, hn p hp⟩) w.nodup (by simp)]
  rfl

/-- **C181 (to the device, partial).** After `T = other` for a tiled host tensor whose tiles have fewer than 2^31 elements, the tiled
device tensor has the grid and the elements of `other`, in every mode. -/
theorem C181_to_device_partial (mode : DeviceMode) (hm : mode ≠ .notInitialized) (z : Nat → K) (other : Tiled K) (w : other.WF)
    (hn : ∀ p ∈ other.tiles, numel p.2.dims < 2 ^ 31) (f : List Nat → K) (hf : other.Represents f) :
    ∃ T, tiledToDevice mode z other = .ok T ∧ T.WF ∧ T.sizes = other.sizes ∧ T.Represents f :=
  ⟨_, tiledToDevice_eq hm z w hn, C31_assign other w f hf⟩

/-- A concrete case: three elements in tiles of lengths two and one, of which only the first is stored. -/
example : ∃ O : Tiled Int, O.WF ∧ (∀ p ∈ O.tiles, numel p.2.dims < 2 ^ 31) ∧
    ∃ T, tiledToDevice .deviceOnly (fun _ => 9) O = .ok T ∧ T.get [1] = .ok 5 ∧ T.get [2] = .ok 0 := by
  obtain ⟨T, h1, h2, -⟩ := C31_history (R := Int) [[2, 1]] (by simp) [.set [1] 5] (by simp [TiledOp.Valid])
  have e : runTiled [.set [1] (5 : Int)] (Tiled.mk' [[2, 1]]) = .ok ⟨[[2, 1]], [[0, 2]], [3], [([0], ⟨[0, 5], 0, [2], [1]⟩)]⟩ := by
    decide
  rw [e] at h1
  injection h1 with h1
  subst h1
  have hn : ∀ p ∈ ([([0], ⟨[0, 5], 0, [2], [1]⟩)] : List (List Nat × Strided Int)), numel p.2.dims < 2 ^ 31 := by
    intro p hp
    simp only [List.mem_singleton] at hp
    subst hp
    decide
  exact ⟨_, h2, hn, _, tiledToDevice_eq (by simp) _ h2 hn, by decide, by decide⟩

/-- **C181 (to a host tensor, partial).** Converting a tiled device tensor of fewer than 2^31 elements gives a host tensor of the full
shape with the same elements; elements of missing tiles are zero. -/
theorem C181_to_host_partial (z : Nat → K) (T : Tiled K) (w : T.WF) (hn : numel (fullDims T.sizes) < 2 ^ 31) (f : List Nat → K)
    (hf : T.Represents f) :
    ∃ D, tiledDeviceToHost z T = .ok D ∧ D.IsTensor ∧ D.dims = fullDims T.sizes ∧ D.Represents f := by
  obtain ⟨d, e, h1, h2, h3⟩ := C31_to_dense T w f hf
  have h0 : d.dims ≠ [] := by rw [h2]; exact fun e => w.rank (List.map_eq_nil_iff.1 e)
  obtain ⟨d', D, e1, -, -, -, e2, r1, r2, r3⟩ :=
    C180_round_trip_partial .deviceOnly (by simp) z z d h1 h0 (by rw [h2]; exact hn) f h3
  have : d' = d := by
    have e3 := deviceFromHost_eq (mode := .deviceOnly) (by simp) z h1 (by rw [h2]; exact hn)
    rw [e1] at e3
    exact Outcome.ok.inj e3
  subst this
  refine ⟨D, ?_, r1, r2.trans h2, r3⟩
  unfold tiledDeviceToHost
  rw [e, Outcome.ok_bind, e2]

/-- **C181 (there and back, partial).** A tiled host tensor assigned to a tiled device tensor and converted to a host tensor. -/
theorem C181_round_trip_partial (mode : DeviceMode) (hm : mode ≠ .notInitialized) (z z' : Nat → K) (other : Tiled K) (w : other.WF)
    (hn : ∀ p ∈ other.tiles, numel p.2.dims < 2 ^ 31) (hf : numel (fullDims other.sizes) < 2 ^ 31) (f : List Nat → K)
    (h : other.Represents f) :
    ∃ T D, tiledToDevice mode z other = .ok T ∧ tiledDeviceToHost z' T = .ok D ∧ D.IsTensor ∧ D.dims = fullDims other.sizes ∧
      D.Represents f := by
  obtain ⟨T, e, h1, h2, h3⟩ := C181_to_device_partial mode hm z other w hn f h
  obtain ⟨D, e', r1, r2, r3⟩ := C181_to_host_partial z' T h1 (by rw [h2]; exact hf) f h3
  exact ⟨T, D, e, e', r1, by rw [r2, h2], r3⟩

/-- A concrete case: the tensor of the example above, whose second tile is missing. -/
example : ∃ T : Tiled Int, T.WF ∧ numel (fullDims T.sizes) < 2 ^ 31 ∧
    tiledDeviceToHost (fun _ => 9) T = .ok ⟨[0, 5, 0], 0, [3], [1]⟩ := by
  obtain ⟨T, h1, h2, -⟩ := C31_history (R := Int) [[2, 1]] (by simp) [.set [1] 5] (by simp [TiledOp.Valid])
  have e : runTiled [.set [1] (5 : Int)] (Tiled.mk' [[2, 1]]) = .ok ⟨[[2, 1]], [[0, 2]], [3], [([0], ⟨[0, 5], 0, [2], [1]⟩)]⟩ := by
    decide
  rw [e] at h1
  injection h1 with h1
  subst h1
  exact ⟨_, h2, by decide, by decide⟩

/-- **C181 (large tiles, refuted).** A tile of no zero length whose number of elements is a multiple of 2^32 arrives as zeros: all
elements of the tiled device tensor are zero, whatever those of `other` are. -/
theorem C181_large_refuted (mode : DeviceMode) (hm : mode ≠ .notInitialized) (z : Nat → K) (other : Tiled K) (w : other.WF)
    (k : List Nat) (u : Strided K) (ht : other.tiles = [(k, u)]) (hz : ∀ d ∈ u.dims, d ≠ 0) (hn : numel u.dims % 2 ^ 32 = 0) :
    ∃ T, tiledToDevice mode z other = .ok T ∧ T.WF ∧ T.sizes = other.sizes ∧ T.Represents fun _ => 0 := by
  obtain ⟨b1, b2, b3⟩ := w.tiles k u (by rw [ht]; simp)
  have w0 := zero_wf w
  obtain ⟨w1, s1, _⟩ := addTile_wf (k := k) w0 b1 (by simp [Tiled.zero])
  have hat : (other.zero.addTile k).tiles.lookup k = some (Strided.mk' (fun _ => 0) (tileDims other.sizes k)) := by
    rw [lookup_addTile (by simp [Tiled.zero])]; simp [Tiled.zero]
  have hr : deviceRealloc u.dims u.dims = false := by
    unfold deviceRealloc
    rw [List.any_eq_false]
    intro i hi
    rw [List.mem_range] at hi
    have := hz _ (List.getElem_mem hi)
    simp [List.getD, List.getElem?_eq_getElem hi, this]
  refine ⟨other.zero.addTile k, ?_, w1, s1, (represents_holds w1).2 (addTile_holds w0 b1 (by simp [Tiled.zero]) (zero_holds other))⟩
  have hself : (other.zero.addTile k).setTile k (Strided.mk' (fun _ => 0) (tileDims other.sizes k)) = other.zero.addTile k := by
    obtain ⟨X, hX⟩ : ∃ X, (other.zero.addTile k).tiles = [(k, X)] := ⟨_, rfl⟩
    rw [hX] at hat
    have e : X = Strided.mk' (fun _ => 0) (tileDims other.sizes k) := by simpa using hat
    unfold Tiled.setTile
    rw [hX, ← e]
    simp only [List.map_cons, List.map_nil, if_true]
    rw [← hX]
  unfold tiledToDevice
  rw [ht]
  show ((tiledDeviceStep mode z other.zero (k, u)) >>= fun T => Outcome.ok T) = _
  unfold tiledDeviceStep Tiled.at
  simp only [hat]
  rw [Outcome.ok_bind, C130_large_refuted mode hm z (Strided.mk' (fun _ => 0) (tileDims other.sizes k)) u hn b3.symm
    (by rw [← b3] at *; exact hr), Outcome.ok_bind, hself]
  rfl

/-- A concrete case: a single tile of 65536 by 65536 ones. -/
example : ∃ (O : Tiled Int) (k : List Nat) (u : Strided Int), O.WF ∧ O.tiles = [(k, u)] ∧ (∀ d ∈ u.dims, d ≠ 0) ∧
    numel u.dims % 2 ^ 32 = 0 := by
  have hu := isTensor_mk' (fun _ => (1 : Int)) (dims := [65536, 65536]) (by simp)
  refine ⟨{ (Tiled.mk' [[65536], [65536]] : Tiled Int) with tiles := [([0, 0], Strided.mk' (fun _ => 1) [65536, 65536])] }, [0, 0],
    _, ⟨by simp [Tiled.mk'], by rfl, by rfl, by simp, ?_⟩, rfl, by simp [Strided.mk'], by simp [Strided.mk', numel]⟩
  intro k t h
  have h := lookup_mem h
  simp only [List.mem_singleton, Prod.mk.injEq] at h
  obtain ⟨rfl, rfl⟩ := h
  exact ⟨by simp [InBox, gridDims, Tiled.mk'], hu, rfl⟩

end Einsums.Props
