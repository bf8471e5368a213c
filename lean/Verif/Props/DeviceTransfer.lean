import Verif.Model.DeviceTransfer
import Verif.Props.Gpu
/-
C180: tensors and arrays move to the device and back unchanged.
-/
namespace Einsums.Props
open Spec Model
variable {K : Type}

theorem copyRun_ok {n : Nat} {dst src : List K} (h1 : n ≤ dst.length) (h2 : n ≤ src.length) :
    copyRun n dst src = .ok (src.take n ++ dst.drop n) := if_pos ⟨h1, h2⟩

theorem copyRun_all {n : Nat} {dst src : List K} (h1 : dst.length = n) (h2 : src.length = n) :
    copyRun n dst src = .ok src := by
  rw [copyRun_ok (by omega) (by omega), List.take_of_length_le (by omega), List.drop_eq_nil_of_le (by omega), List.append_nil]

theorem deviceFromHost_eq {mode : DeviceMode} (hm : mode ≠ .notInitialized) (z : Nat → K) {u : Strided K} (hu : u.IsTensor)
    (hn : numel u.dims < 2 ^ 31) : deviceFromHost mode z u = .ok u := by
  have e : ({ data := u.data, off := 0, dims := u.dims, strides := u.strides } : Strided K) = u := by
    obtain ⟨data, off, dims, strides⟩ := u
    have : off = 0 := hu.off
    subst this
    rfl
  unfold deviceFromHost
  cases mode with
  | notInitialized => exact (hm rfl).elim
  | _ =>
    simp only [sizeMethod_small hn]
    rw [copyRun_all (by simp) hu.length, Outcome.ok_bind]
    exact congrArg Outcome.ok e

/-- **C180 (there and back, partial).** A host tensor of fewer than 2^31 elements becomes a device tensor of the same shape with the
same elements, in every mode, and converting that one gives a host tensor of the same shape with the same elements. -/
theorem C180_round_trip_partial (mode : DeviceMode) (hm : mode ≠ .notInitialized) (z z' : Nat → K) (u : Strided K) (hu : u.IsTensor)
    (h0 : u.dims ≠ []) (hn : numel u.dims < 2 ^ 31) (f : List Nat → K) (hf : u.Represents f) :
    ∃ d w, deviceFromHost mode z u = .ok d ∧ d.IsTensor ∧ d.dims = u.dims ∧ d.Represents f ∧
      deviceToHost z' d = .ok w ∧ w.IsTensor ∧ w.dims = u.dims ∧ w.Represents f := by
  have hk := isTensor_mk' z' h0
  refine ⟨u, { Strided.mk' z' u.dims with data := u.data }, deviceFromHost_eq hm z hu hn, hu, rfl, hf, ?_, ⟨hk.off, hk.strides, hu.length⟩, rfl, ?_⟩
  · unfold deviceToHost
    simp only [sizeMethod_small hn]
    rw [copyRun_all (show (Strided.mk' z' u.dims).data.length = numel u.dims from hk.length) hu.length, Outcome.ok_bind]
    rfl
  · have hi : ({ Strided.mk' z' u.dims with data := u.data } : Strided K).IsTensor := ⟨hk.off, hk.strides, hu.length⟩
    rw [hi.represents_iff]
    exact hu.represents_iff.1 hf

/-- **C180 (assignment to a host tensor).** `t = d` for a host tensor `t` of any shape of the same rank and a device tensor `d` of any
size: afterwards `t` has the shape and the elements of `d`. -/
theorem C180_assign_back (z : Nat → K) (t d : Strided K) (ht : t.IsTensor) (hd : d.IsTensor) (h0 : d.dims ≠ [])
    (hl : t.dims.length = d.dims.length) (f : List Nat → K) (hf : d.Represents f) :
    ∃ w, hostAssignDevice z t d = .ok w ∧ w.IsTensor ∧ w.dims = d.dims ∧ w.Represents f := by
  have key : ∀ t' : Strided K, t'.IsTensor → t'.dims = d.dims →
      ∃ w, (copyRun (linearSize t'.strides t'.dims) t'.data d.data).bind (fun data => .ok { t' with data }) = .ok w ∧
        w.IsTensor ∧ w.dims = d.dims ∧ w.Represents f := by
    intro t' h1 h2
    have hi : ({ t' with data := d.data } : Strided K).IsTensor := ⟨h1.off, h1.strides, by rw [hd.length]; exact congrArg numel h2.symm⟩
    refine ⟨{ t' with data := d.data }, ?_, hi, h2, ?_⟩
    · rw [IsTensor_linearSize h1 (by rw [h2]; exact h0), copyRun_all h1.length (by rw [hd.length, h2])]
      rfl
    · rw [hi.represents_iff]
      show d.data = (box t'.dims).map f
      rw [h2]
      exact hd.represents_iff.1 hf
  unfold hostAssignDevice
  by_cases hr : deviceRealloc t.dims d.dims = true
  · rw [if_pos hr]
    refine key _ ⟨rfl, ?_, ?_⟩ rfl
    · exact transformStrides_eq _
    · show (vecResize z _ t.data).length = _
      rw [vecResize_length, linearSize_eq h0]
  · rw [if_neg hr]
    exact key t ht (deviceRealloc_false (by simpa using hr) hl)

/-- **C180 (vectors, partial).** Reading a vector into a device tensor of fewer than 2^31 elements replaces the first elements in
row-major order and keeps the others; writing the tensor to any vector then makes the vector the list of its elements. -/
theorem C180_vector_partial [Zero K] (mode : DeviceMode) (hm : mode ≠ .notInitialized) (d : Strided K) (hd : d.IsTensor)
    (hn : numel d.dims < 2 ^ 31) (f : List Nat → K) (hf : d.Represents f) (xs : List K) (hx : xs.length ≤ numel d.dims) (ys : List K) :
    ∃ d', deviceRead mode d xs = .ok d' ∧ d'.IsTensor ∧ d'.dims = d.dims ∧
      deviceWrite mode d' ys = .ok (xs ++ ((box d.dims).drop xs.length).map f) ∧
      ∀ g : List Nat → K, (box d.dims).map g = xs ++ ((box d.dims).drop xs.length).map f → d'.Represents g := by
  have hdata : d.data = (box d.dims).map f := hd.represents_iff.1 hf
  have hlen : (xs ++ d.data.drop xs.length).length = numel d.dims := by simp [hd.length]; omega
  have hi : ({ d with data := xs ++ d.data.drop xs.length } : Strided K).IsTensor := ⟨hd.off, hd.strides, hlen⟩
  refine ⟨_, ?_, hi, rfl, ?_, fun g hg => ?_⟩
  · unfold deviceRead
    rw [if_pos (by rw [sizeMethod_small hn]; exact hx)]
    cases mode with
    | notInitialized => exact (hm rfl).elim
    | _ =>
      simp only []
      rw [copyRun_ok (by rw [hd.length]; exact hx) (le_refl _), Outcome.ok_bind, List.take_length]
      rfl
  · have hr : ∀ l : List K, (if l.length ≠ numel d.dims then vecResize (fun _ => 0) (numel d.dims) l else l).length = numel d.dims := by
      intro l
      split
      · exact vecResize_length _ _ _
      · omega
    unfold deviceWrite
    simp only [sizeMethod_small hn]
    cases mode with
    | notInitialized => exact (hm rfl).elim
    | _ => rw [copyRun_all (hr ys) hlen, hdata, List.map_drop]
  · rw [hi.represents_iff]
    show xs ++ d.data.drop xs.length = (box d.dims).map g
    rw [hg, hdata, List.map_drop]

/-- **C180 (arrays, partial).** The same through pointers to arrays of at least as many elements as the tensor; the rest of an array
that is written to is left alone. -/
theorem C180_array_partial (mode : DeviceMode) (hm : mode ≠ .notInitialized) (d : Strided K) (hd : d.IsTensor)
    (hn : numel d.dims < 2 ^ 31) (f : List Nat → K) (hf : d.Represents f) (mem : List K) (hx : numel d.dims ≤ mem.length) :
    deviceWriteTo mode d mem = .ok ((box d.dims).map f ++ mem.drop (numel d.dims)) ∧
    ∃ d', deviceReadFrom mode d mem = .ok d' ∧ d'.IsTensor ∧ d'.dims = d.dims ∧
      ∀ g : List Nat → K, (box d.dims).map g = mem.take (numel d.dims) → d'.Represents g := by
  have hi : ({ d with data := mem.take (numel d.dims) } : Strided K).IsTensor := ⟨hd.off, hd.strides, by simpa using hx⟩
  refine ⟨?_, _, ?_, hi, rfl, fun g hg => ?_⟩
  · unfold deviceWriteTo
    cases mode with
    | notInitialized => exact (hm rfl).elim
    | _ =>
      simp only [sizeMethod_small hn]
      rw [copyRun_ok hx (by rw [hd.length]), List.take_of_length_le (by rw [hd.length]), hd.represents_iff.1 hf]
  · unfold deviceReadFrom
    cases mode with
    | notInitialized => exact (hm rfl).elim
    | _ =>
      simp only [sizeMethod_small hn]
      rw [copyRun_ok (by rw [hd.length]) hx, Outcome.ok_bind, List.drop_eq_nil_of_le (by rw [hd.length]), List.append_nil]
      rfl
  · rw [hi.represents_iff]
    exact hg.symm

/-- **C180, tensors that are not initialised** are refused. -/
theorem C180_uninitialised [Zero K] (z : Nat → K) (u d : Strided K) (mem : List K) :
    (deviceFromHost .notInitialized z u).isError = true ∧ (deviceWrite .notInitialized d mem).isError = true ∧
    (deviceReadFrom .notInitialized d mem).isError = true ∧ (deviceWriteTo .notInitialized d mem).isError = true ∧
    (mem.length ≤ sizeMethod d.dims → (deviceRead .notInitialized d mem).isError = true) := by
  refine ⟨rfl, rfl, rfl, rfl, fun h => ?_⟩
  unfold deviceRead
  rw [if_pos h]
  rfl

/-- **C180 (refuted for large tensors).** From 2^31 elements on, no host tensor becomes a device tensor of its shape: `size()` is
computed in an `int`. -/
theorem C180_large_refuted (mode : DeviceMode) (z : Nat → K) (u : Strided K) (hu : u.IsTensor) (h1 : 2 ^ 31 ≤ numel u.dims)
    (h2 : numel u.dims < 2 ^ 63) (d : Strided K) (e : deviceFromHost mode z u = .ok d) : ¬ d.IsTensor := by
  have key : copyRun (sizeMethod u.dims) ((List.range (sizeMethod u.dims)).map z) u.data = .ok d.data ∧ d.dims = u.dims := by
    revert e
    unfold deviceFromHost
    cases mode with
    | notInitialized => exact fun e => nomatch e
    | _ =>
      intro e
      revert e
      dsimp only []
      cases copyRun (sizeMethod u.dims) ((List.range (sizeMethod u.dims)).map z) u.data with
      | ok l => intro e; cases e; exact ⟨rfl, rfl⟩
      | error => intro e; cases e
      | ub => intro e; cases e
  intro hd
  have hl := hd.length
  rw [key.2] at hl
  have hk := key.1
  unfold copyRun at hk
  split at hk
  · rename_i h
    have hl2 := congrArg List.length (Outcome.ok.inj hk)
    simp only [List.length_append, List.length_take, List.length_drop, List.length_map, List.length_range] at hl2
    have h3 := h.2
    rw [hu.length] at h3 hl2
    rw [sizeMethod_eq] at h3 hl2
    split at h3 <;> split at hl2 <;> omega
  · cases hk

/-! ### The hypotheses are met -/

/-- A tensor of two by two elements. -/
example : (⟨[1, 2, 3, 4], 0, [2, 2], [2, 1]⟩ : Strided Int).IsTensor ∧ numel [2, 2] < 2 ^ 31 := ⟨⟨rfl, rfl, rfl⟩, by decide⟩

/-- `C180_large_refuted`: one row of 2^31 elements. -/
example (z : Nat → Int) : (Strided.mk' z [2147483648]).IsTensor ∧ 2 ^ 31 ≤ numel [2147483648] ∧ numel [2147483648] < 2 ^ 63 :=
  ⟨isTensor_mk' z (by simp), by simp [numel], by simp [numel]⟩

/-- A vector of three elements read into a tensor of four, and the tensor written to a vector of one element. -/
example : (deviceRead .pinned (⟨[1, 2, 3, 4], 0, [2, 2], [2, 1]⟩ : Strided Int) [7, 8, 9]).bind (fun d => deviceWrite .pinned d [5]) =
    .ok [7, 8, 9, 4] := by decide

end Einsums.Props
