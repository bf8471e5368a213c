import Verif.Proofs.GpuView
import Verif.Proofs.Flatten
/-
C139 Views that map a Python buffer into the address space of the device
C140 Views that copy a Python buffer to the device
-/
namespace Einsums.Props
open Einsums Einsums.Model Einsums.Spec Einsums.Proofs

/-! ### C139 -/

/-- C139: whatever buffers and views have come and gone before, and whatever calls of the driver have failed, constructing and
destroying views never ends the program. -/
theorem C139_no_abort (w : GpuWorld) (h : Reachable true w) (op : GpuOp) (ha : w.allowed op) : (w.step op).isOk = true := by
  obtain ⟨w', e, -⟩ := step_inv (reachable_inv h) ha
  rw [e]; rfl

/-- C139: in every such state the device sees every byte of a view, at its place from the device pointer of the view; no byte of the
host has two addresses. -/
theorem C139_mapped (w : GpuWorld) (h : Reachable true w) (v : MappedView) (hv : v ∈ w.views) (k : Nat) (hk : k < v.size) :
    ∀ d, Maps w.reg (v.ptr + k) d ↔ d = v.dev + k := by
  have hi := reachable_inv h
  obtain ⟨m, -, -, r, hr, -, h1, h2, h3⟩ := hi.view v hv
  have hmap : Maps w.reg (v.ptr + k) (v.dev + k) := ⟨r, hr, by omega, by omega, by omega⟩
  intro d
  exact ⟨fun hd => hi.good.maps_unique hd hmap, fun hd => hd ▸ hmap⟩

/-- C139: while no allocation of device memory has failed, memory is registered only as long as there is a view of it. -/
theorem C139_released_partial (w : GpuWorld) (h : Reachable false w) (r : Registered) (hr : r ∈ w.reg) :
    ∃ v ∈ w.views, r.ptr ≤ v.ptr ∧ v.ptr + v.size ≤ r.ptr + r.size := by
  have hi := reachable_inv h
  obtain ⟨m, hm, he⟩ := List.mem_map.1 (hi.good.r2m r hr)
  obtain ⟨o, ho⟩ := List.exists_mem_of_ne_nil _ (hi.obs m hm)
  obtain ⟨v, hv, -, h1, h2⟩ := reachable_owned h m hm o ho
  have e1 := congrArg Prod.fst he; have e2 := congrArg Prod.snd he
  simp only at e1 e2
  exact ⟨v, hv, by omega, by omega⟩

/-- C139: when the last view has gone, nothing is registered. -/
theorem C139_all_released_partial (w : GpuWorld) (h : Reachable false w) (hv : w.views = []) : w.reg = [] := by
  rw [List.eq_nil_iff_forall_not_mem]
  intro r hr
  obtain ⟨v, hm, -⟩ := C139_released_partial w h r hr
  rw [hv] at hm; exact absurd hm (by simp)

/-- C139: a view is constructed exactly if its memory lies within one registered range, or does not touch any registered range, is
not empty and is accepted by the driver.  Otherwise the constructor throws and nothing has changed. -/
theorem C139_accepted (w : GpuWorld) (h : Reachable true w) (id ptr size dev : Nat) (refuse : Bool)
    (_ha : w.allowed (.create id ptr size dev refuse false)) :
    ∃ w', w.step (.create id ptr size dev refuse false) = .ok w' ∧
      ((∃ r ∈ w.reg, r.ptr ≤ ptr ∧ ptr < r.ptr + r.size ∧ ptr + size ≤ r.ptr + r.size) ∨
        (refuse = false ∧ 0 < size ∧ ∀ r ∈ w.reg, ¬ ∃ x, r.ptr ≤ x ∧ x < r.ptr + r.size ∧ ptr ≤ x ∧ x < ptr + size) →
        ∃ d, w'.views = ⟨id, ptr, size, d⟩ :: w.views) ∧
      (¬ ((∃ r ∈ w.reg, r.ptr ≤ ptr ∧ ptr < r.ptr + r.size ∧ ptr + size ≤ r.ptr + r.size) ∨
        (refuse = false ∧ 0 < size ∧ ∀ r ∈ w.reg, ¬ ∃ x, r.ptr ≤ x ∧ x < r.ptr + r.size ∧ ptr ≤ x ∧ x < ptr + size)) →
        w' = w) := by
  have hi := reachable_inv h
  have hiff : Mappable refuse w.reg ptr size ↔
      (∃ r ∈ w.reg, r.ptr ≤ ptr ∧ ptr < r.ptr + r.size ∧ ptr + size ≤ r.ptr + r.size) ∨
      (refuse = false ∧ 0 < size ∧ ∀ r ∈ w.reg, ¬ ∃ x, r.ptr ≤ x ∧ x < r.ptr + r.size ∧ ptr ≤ x ∧ x < ptr + size) := by
    unfold Mappable
    refine or_congr Iff.rfl (and_congr_right fun _ => and_congr_right fun hs => forall_congr' fun r => forall_congr' fun hr => ?_)
    have hp := hi.good.pos r hr
    unfold rangesOverlap
    rw [decide_eq_false_iff_not]
    refine not_congr ⟨fun ⟨a, b⟩ => ⟨max r.ptr ptr, by omega, by omega, by omega, by omega⟩, fun ⟨x, a, b, c, d⟩ => ⟨by omega, by omega⟩⟩
  rcases attach_ok refuse dev id ptr size w hi with ⟨hn, e⟩ | ⟨hm, p, maps, reg, e, -⟩
  · refine ⟨w, by simp only [GpuWorld.step, e, Outcome.ok_bind]; rfl, ?_⟩
    exact ⟨fun hc => absurd (hiff.2 hc) hn, fun _ => rfl⟩
  · refine ⟨_, by simp only [GpuWorld.step, e, Outcome.ok_bind]; rfl, ?_⟩
    exact ⟨fun _ => ⟨p, rfl⟩, fun hc => absurd (hiff.1 hm) hc⟩

/-- C139, refuted: if an allocation fails while a view is constructed, its memory stays registered although there is no view, and
even when the buffer itself has gone. -/
theorem C139_leak_refuted : ∃ w, Reachable true w ∧ w.views = [] ∧ w.buffers = [] ∧ w.reg ≠ [] := by
  refine ⟨⟨[⟨64, 8, [1]⟩], [⟨64, 8, 1000⟩], [], []⟩, ?_, rfl, rfl, by simp⟩
  have h1 : Reachable true ⟨[], [], [], [(64, 8)]⟩ := Reachable.init.step (op := .newBuffer 64 8)
    (by intro b hb; simp [GpuWorld.init] at hb) (by simp [OutOfMemory]) rfl
  have h2 : Reachable true ⟨[⟨64, 8, [1]⟩], [⟨64, 8, 1000⟩], [], [(64, 8)]⟩ := h1.step (op := .create 1 64 8 1000 false true)
    ⟨by simp, (64, 8), by simp, by simp, by simp⟩ (by simp [OutOfMemory]) rfl
  exact h2.step (op := .freeBuffer 64 8) (by simp [GpuWorld.allowed]) (by simp [OutOfMemory]) rfl

/-- C139, refuted: a view does not keep its buffer: there are views of memory that does not belong to any buffer. -/
theorem C139_lifetime_refuted : ∃ w, Reachable false w ∧ ∃ v ∈ w.views, 0 < v.size ∧
    ¬ ∃ b ∈ w.buffers, b.1 ≤ v.ptr ∧ v.ptr + v.size ≤ b.1 + b.2 := by
  refine ⟨⟨[⟨64, 8, [1]⟩], [⟨64, 8, 1000⟩], [⟨1, 64, 8, 1000⟩], []⟩, ?_, ⟨1, 64, 8, 1000⟩, by simp, by simp, by simp⟩
  have h1 : Reachable false ⟨[], [], [], [(64, 8)]⟩ := Reachable.init.step (op := .newBuffer 64 8)
    (by intro b hb; simp [GpuWorld.init] at hb) (by simp [OutOfMemory]) rfl
  have h2 : Reachable false ⟨[⟨64, 8, [1]⟩], [⟨64, 8, 1000⟩], [⟨1, 64, 8, 1000⟩], [(64, 8)]⟩ :=
    h1.step (op := .create 1 64 8 1000 false false) ⟨by simp, (64, 8), by simp, by simp, by simp⟩ (by simp [OutOfMemory]) rfl
  exact h2.step (op := .freeBuffer 64 8) (by simp [GpuWorld.allowed]) (by simp [OutOfMemory]) rfl

/-- C139, refuted: that a buffer can be mapped depends on the order: a part of a buffer can be mapped beside the whole buffer, but the
whole buffer is refused beside a part of it. -/
theorem C139_order_refuted (p n k : Nat) (hn : 0 < k) (hk : k < n) :
    (∃ w w', Reachable false w ∧ w.views.length = 1 ∧ w.allowed (.create 2 p k 0 false false) ∧
      w.step (.create 2 p k 0 false false) = .ok w' ∧ w'.views.length = 2) ∧
    (∃ w, Reachable false w ∧ w.views.length = 1 ∧ w.allowed (.create 2 p n 0 false false) ∧
      w.step (.create 2 p n 0 false false) = .ok w) := by
  have h1 : Reachable false ⟨[], [], [], [(p, n)]⟩ := Reachable.init.step (op := .newBuffer p n)
    (by intro b hb; simp [GpuWorld.init] at hb) (by simp [OutOfMemory]) rfl
  have hone : ∀ m, 0 < m → m ≤ n → ∃ w, Reachable false w ∧ w.views.length = 1 ∧ w.buffers = [(p, n)] ∧
      (∀ v ∈ w.views, v.id ≠ 2) ∧ ∃ d, w.reg = [⟨p, m, d⟩] := by
    intro m hm hmn
    have ha : (⟨[], [], [], [(p, n)]⟩ : GpuWorld).allowed (.create 1 p m 0 false false) :=
      ⟨by simp, (p, n), by simp, Nat.le_refl _, by simpa using hmn⟩
    refine ⟨⟨[⟨p, m, [1]⟩], [⟨p, m, 0⟩], [⟨1, p, m, 0⟩], [(p, n)]⟩,
      h1.step (op := .create 1 p m 0 false false) ha (by simp [OutOfMemory]) ?_, rfl, rfl, by simp, 0, rfl⟩
    have hm0 : (m == 0) = false := by simp; omega
    simp [GpuWorld.step, attach, attachFirst, hostRegister, hm0, notify, gpuPointer]
  constructor
  · obtain ⟨w, hr, hl, hb, hid, d, hreg⟩ := hone n (by omega) (Nat.le_refl _)
    have ha : w.allowed (.create 2 p k 0 false false) := ⟨hid, (p, n), by rw [hb]; simp, Nat.le_refl _, by simp; omega⟩
    obtain ⟨w', e, hc⟩ := C139_accepted w (by
      clear hl hb hid hreg ha
      induction hr with
      | init => exact .init
      | step _ a b c ih => exact ih.step a (fun _ => rfl) c) 2 p k 0 false ha
    obtain ⟨d', hv⟩ := hc.1 (Or.inl ⟨⟨p, n, d⟩, by rw [hreg]; simp, Nat.le_refl _, by simp; omega, by simp; omega⟩)
    exact ⟨w, w', hr, hl, ha, e, by rw [hv, List.length_cons, hl]⟩
  · obtain ⟨w, hr, hl, hb, hid, d, hreg⟩ := hone k (by omega) (by omega)
    have ha : w.allowed (.create 2 p n 0 false false) := ⟨hid, (p, n), by rw [hb]; simp, Nat.le_refl _, by simp⟩
    obtain ⟨w', e, hc⟩ := C139_accepted w (by
      clear hl hb hid hreg ha
      induction hr with
      | init => exact .init
      | step _ a b c ih => exact ih.step a (fun _ => rfl) c) 2 p n 0 false ha
    refine ⟨w, hr, hl, ha, ?_⟩
    rw [e, hc.2]
    · rintro (⟨r, hm, h⟩ | ⟨-, -, h⟩)
      · rw [hreg] at hm
        rw [List.mem_singleton.1 hm] at h
        simp only at h; omega
      · exact h ⟨p, k, d⟩ (by rw [hreg]; simp) ⟨p, by simp, by simp; omega, by omega, by omega⟩

/-- Two views of parts of one buffer and a third of another buffer; after the first view has gone its memory, also used by the
second, is still registered. -/
example : [GpuOp.newBuffer 100 40, .newBuffer 200 16, .create 1 100 40 1000 false false, .create 2 110 8 0 false false,
    .create 3 200 16 3000 false false, .destroy 1].foldlM GpuWorld.step .init =
    .ok ⟨[⟨100, 40, [2]⟩, ⟨200, 16, [3]⟩], [⟨100, 40, 1000⟩, ⟨200, 16, 3000⟩], [⟨3, 200, 16, 3000⟩, ⟨2, 110, 8, 1010⟩],
      [(200, 16), (100, 40)]⟩ := by decide
example : Reachable false ⟨[⟨100, 40, [2]⟩, ⟨200, 16, [3]⟩], [⟨100, 40, 1000⟩, ⟨200, 16, 3000⟩], [⟨3, 200, 16, 3000⟩, ⟨2, 110, 8, 1010⟩],
      [(200, 16), (100, 40)]⟩ := by
  have h1 : Reachable false ⟨[], [], [], [(100, 40)]⟩ := Reachable.init.step (op := .newBuffer 100 40)
    (by intro b hb; simp [GpuWorld.init] at hb) (by simp [OutOfMemory]) rfl
  have h2 : Reachable false ⟨[], [], [], [(200, 16), (100, 40)]⟩ := h1.step (op := .newBuffer 200 16)
    (by intro b hb; simp at hb; subst hb; decide) (by simp [OutOfMemory]) rfl
  have h3 : Reachable false ⟨[⟨100, 40, [1]⟩], [⟨100, 40, 1000⟩], [⟨1, 100, 40, 1000⟩], [(200, 16), (100, 40)]⟩ :=
    h2.step (op := .create 1 100 40 1000 false false) ⟨by simp, (100, 40), by simp, by simp, by simp⟩ (by simp [OutOfMemory]) rfl
  have h4 : Reachable false ⟨[⟨100, 40, [1, 2]⟩], [⟨100, 40, 1000⟩], [⟨2, 110, 8, 1010⟩, ⟨1, 100, 40, 1000⟩], [(200, 16), (100, 40)]⟩ :=
    h3.step (op := .create 2 110 8 0 false false) ⟨by simp, (100, 40), by simp, by simp, by simp⟩ (by simp [OutOfMemory]) rfl
  have h5 : Reachable false ⟨[⟨100, 40, [1, 2]⟩, ⟨200, 16, [3]⟩], [⟨100, 40, 1000⟩, ⟨200, 16, 3000⟩],
      [⟨3, 200, 16, 3000⟩, ⟨2, 110, 8, 1010⟩, ⟨1, 100, 40, 1000⟩], [(200, 16), (100, 40)]⟩ :=
    h4.step (op := .create 3 200 16 3000 false false) ⟨by simp, (200, 16), by simp, by simp, by simp⟩ (by simp [OutOfMemory]) rfl
  exact h5.step (op := .destroy 1) ⟨⟨1, 100, 40, 1000⟩, by simp, rfl⟩ (by simp [OutOfMemory]) rfl

/-! ### C140 -/

variable {K : Type}

/-- C140, part: a buffer whose rows do not overlap and whose memory reaches to the end of its last row (`s * d` items from its
first item): the device gets every element, at its place. -/
theorem C140_copy_partial (a : HostArray K) (s d : Nat) (ss ds : List Nat) (hs : a.strides = (s :: ss).map Int.ofNat)
    (hd : a.shape = d :: ds) (hrow : ∀ idx, InBox idx ds → dot idx ss < s) (hmem : a.off + s * d ≤ a.mem.length) :
    ∃ v, copyView a = .ok v ∧ v.off = a.off ∧ v.alloc = s * d ∧ v.dev.length = s * d ∧
      ∀ idx, InBox idx a.shape → dot idx (s :: ss) < v.dev.length ∧ v.dev[dot idx (s :: ss)]? = a.mem[a.off + dot idx (s :: ss)]? := by
  have h1 : ¬ (Int.ofNat s * (d : Int) < 0) := by
    have : (0 : Int) ≤ Int.ofNat s * (d : Int) := Int.mul_nonneg (by simp) (by simp)
    omega
  have h2 : (Int.ofNat s * (d : Int)).toNat = s * d := by
    rw [show Int.ofNat s * (d : Int) = ((s * d : Nat) : Int) by simp]; rfl
  refine ⟨⟨a.off, s * d, (a.mem.drop a.off).take (s * d)⟩, ?_, rfl, rfl, by simp; omega, ?_⟩
  · unfold copyView
    rw [hs, hd]
    simp only [List.map_cons]
    rw [if_neg h1, h2]
    unfold hostRead
    rw [if_pos hmem]; rfl
  · intro idx hidx
    rw [hd] at hidx
    cases idx with
    | nil => exact absurd hidx id
    | cons i is =>
        obtain ⟨hi, his⟩ := hidx
        have := hrow is his
        have hlt : dot (i :: is) (s :: ss) < s * d := by
          show i * s + dot is ss < s * d
          calc i * s + dot is ss < i * s + s := by omega
            _ = s * (i + 1) := by rw [Nat.mul_comm i s, Nat.mul_succ]
            _ ≤ s * d := Nat.mul_le_mul_left _ hi
        refine ⟨by rw [List.length_take, List.length_drop]; omega, ?_⟩
        rw [List.getElem?_take_of_lt hlt, List.getElem?_drop]

/-- C140, part: `update_D2H` copies the memory of the device to the host, and `update_H2D` the other way; no other place changes. -/
theorem C140_update_partial (v : CopyView K) (hdev : v.dev.length = v.alloc) (mem : List K) (hmem : v.off + v.alloc ≤ mem.length) :
    (∃ mem', v.updateD2H mem = .ok mem' ∧ mem'.length = mem.length ∧ (∀ p, p < v.alloc → mem'[v.off + p]? = v.dev[p]?) ∧
      ∀ p, (p < v.off ∨ v.off + v.alloc ≤ p) → mem'[p]? = mem[p]?) ∧
    (∃ v', v.updateH2D mem = .ok v' ∧ v'.off = v.off ∧ v'.alloc = v.alloc ∧ v'.dev.length = v.alloc ∧
      ∀ p, p < v.alloc → v'.dev[p]? = mem[v.off + p]?) := by
  have ht : v.dev.take v.alloc = v.dev := List.take_of_length_le (by omega)
  have hoff : (mem.take v.off).length = v.off := by simp; omega
  constructor
  · refine ⟨mem.take v.off ++ v.dev ++ mem.drop (v.off + v.dev.length), ?_, ?_, ?_, ?_⟩
    · unfold CopyView.updateD2H hostWrite
      rw [ht, if_pos (by omega)]
    · simp; omega
    · intro p hp
      rw [List.append_assoc, List.getElem?_append_right (by omega), hoff, List.getElem?_append_left (by omega)]
      congr 1; omega
    · intro p hp
      rcases hp with hp | hp
      · rw [List.append_assoc, List.getElem?_append_left (by omega), List.getElem?_take_of_lt hp]
      · rw [List.getElem?_append_right (by simp; omega), List.getElem?_drop]
        congr 1; simp; omega
  · refine ⟨{ v with dev := (mem.drop v.off).take v.alloc }, ?_, rfl, rfl, by simp; omega, ?_⟩
    · unfold CopyView.updateH2D hostRead
      rw [if_pos hmem]; rfl
    · intro p hp
      rw [List.getElem?_take_of_lt hp, List.getElem?_drop]

/-- C140 for C-contiguous buffers of at least one dimension: a view has the elements of the buffer; whatever the device does to its
memory (`dev'`), and whatever has happened to the host in between (`mem`), afterwards `update_D2H` makes the elements of the buffer
equal to those of the device, and no other place of the host is changed. -/
theorem C140_contiguous_partial (a : HostArray K) (d : Nat) (ds ss : List Nat) (hd : a.shape = d :: ds)
    (hss : a.strides = (numel ds :: ss).map Int.ofNat)
    (hdot : ∀ idx, InBox idx a.shape → dot idx (numel ds :: ss) = rowMajor idx a.shape)
    (hmem : a.off + numel (d :: ds) ≤ a.mem.length) :
    ∃ v, copyView a = .ok v ∧
      (∀ idx, InBox idx a.shape → v.dev[dot idx (numel ds :: ss)]? = a.mem[a.off + dot idx (numel ds :: ss)]?) ∧
      ∀ (mem dev' : List K), mem.length = a.mem.length → dev'.length = v.dev.length →
        ∃ mem', CopyView.updateD2H { v with dev := dev' } mem = .ok mem' ∧
          (∀ idx, InBox idx a.shape → mem'[a.off + dot idx (numel ds :: ss)]? = dev'[dot idx (numel ds :: ss)]?) ∧
          ∀ p, (∀ idx, InBox idx a.shape → p ≠ a.off + dot idx (numel ds :: ss)) → mem'[p]? = mem[p]? := by
  have hn : numel (d :: ds) = numel ds * d := by rw [numel, Nat.mul_comm]
  have hv : ∃ v, copyView a = .ok v ∧ v.off = a.off ∧ v.alloc = numel ds * d ∧ v.dev.length = numel ds * d ∧
      ∀ p, p < numel ds * d → v.dev[p]? = a.mem[a.off + p]? := by
    have h1 : ¬ (Int.ofNat (numel ds) * (d : Int) < 0) := by
      have : (0 : Int) ≤ Int.ofNat (numel ds) * (d : Int) := Int.mul_nonneg (by simp) (by simp)
      omega
    have h2 : (Int.ofNat (numel ds) * (d : Int)).toNat = numel ds * d := by
      rw [show Int.ofNat (numel ds) * (d : Int) = ((numel ds * d : Nat) : Int) by simp]; rfl
    refine ⟨⟨a.off, numel ds * d, (a.mem.drop a.off).take (numel ds * d)⟩, ?_, rfl, rfl, by simp; omega, ?_⟩
    · unfold copyView
      rw [hss, hd]
      simp only [List.map_cons]
      rw [if_neg h1, h2]
      unfold hostRead
      rw [if_pos (by omega)]; rfl
    · intro p hp
      rw [List.getElem?_take_of_lt hp, List.getElem?_drop]
  have hlt : ∀ idx, InBox idx a.shape → dot idx (numel ds :: ss) < numel ds * d := by
    intro idx hidx
    rw [hdot idx hidx]
    rw [hd] at hidx ⊢
    have := rowMajor_lt hidx; omega
  obtain ⟨v, e, ho, hal, hl, hdev⟩ := hv
  refine ⟨v, e, fun idx hidx => hdev _ (hlt idx hidx), ?_⟩
  intro mem dev' hml hdl
  obtain ⟨⟨mem', e', -, h1, h2⟩, -⟩ := C140_update_partial { v with dev := dev' } (by simp only; omega) mem (by simp only; omega)
  refine ⟨mem', e', ?_, ?_⟩
  · intro idx hidx
    have := h1 (dot idx (numel ds :: ss)) (by have := hlt idx hidx; simp only; omega)
    rw [← ho]; exact this
  · intro p hp
    by_cases hin : a.off ≤ p ∧ p < a.off + numel (d :: ds)
    · exfalso
      have hi : InBox (unflat (d :: ds) (p - a.off)) a.shape := by rw [hd]; exact unflat_inBox (by omega)
      refine hp _ hi ?_
      rw [hdot _ hi, hd, rowMajor_unflat (by omega)]; omega
    · exact h2 p (by simp only; omega)

/-- C140, refuted: `update_D2H` also writes between the rows of a buffer.  The columns 0 and 1 of an array with three columns: what
the host stores in column 2 is undone. -/
theorem C140_gap_refuted (a b c d e f x : K) (hx : x ≠ c) :
    ∃ v mem', copyView ⟨[a, b, c, d, e, f], 0, [2, 2], [3, 1]⟩ = .ok v ∧ v.updateD2H [a, b, x, d, e, f] = .ok mem' ∧
      mem'[2]? ≠ some x :=
  ⟨⟨0, 6, [a, b, c, d, e, f]⟩, [a, b, c, d, e, f], rfl, rfl, by simpa using fun h => hx h.symm⟩

/-- C140, refuted: of an array with `m ≥ 2` columns the columns from the second on: the constructor reads behind the end of the array. -/
theorem C140_overrun_refuted (mem : List K) (n m : Nat) (hm : 2 ≤ m) (hmem : mem.length = n * m) :
    (∀ idx, InBox idx [n, m - 1] → 1 + dot idx [m, 1] < mem.length) ∧
    (copyView ⟨mem, 1, [n, m - 1], [(m : Int), 1]⟩).isUb = true := by
  constructor
  · intro idx hidx
    match idx, hidx with
    | [i, j], ⟨hi, hj, _⟩ =>
        have : i * m + m ≤ n * m := by rw [← Nat.succ_mul]; exact Nat.mul_le_mul_right _ hi
        simp only [dot]; omega
  · have h1 : ¬ ((m : Int) * (n : Int) < 0) := by
      have : (0 : Int) ≤ (m : Int) * (n : Int) := Int.mul_nonneg (by simp) (by simp)
      omega
    have h2 : ((m : Int) * (n : Int)).toNat = m * n := by rw [show (m : Int) * (n : Int) = ((m * n : Nat) : Int) by simp]; rfl
    simp only [copyView]
    rw [if_neg h1, h2]
    unfold hostRead
    rw [if_neg (by rw [hmem, Nat.mul_comm]; omega)]; rfl

/-- C140, refuted: of an array in Fortran order with several columns only the first column is copied: the other elements are not in
the memory of the device. -/
theorem C140_fortran_refuted (mem : List K) (m n : Nat) (hmem : mem.length = m * n) (i j : Nat)
    (hj : 1 ≤ j) (hjn : j < n) : ∃ v, copyView ⟨mem, 0, [m, n], [1, (m : Int)]⟩ = .ok v ∧ v.dev[dot [i, j] [1, m]]? = none := by
  have hmn : m * 1 ≤ m * n := Nat.mul_le_mul_left _ (by omega)
  have hmj : m * 1 ≤ m * j := Nat.mul_le_mul_left _ hj
  refine ⟨⟨0, m, mem.take m⟩, ?_, ?_⟩
  · simp only [copyView, Int.one_mul]
    rw [if_neg (by omega)]
    simp only [hostRead, Int.toNat_natCast]
    rw [if_pos (by omega)]; rfl
  · rw [List.getElem?_eq_none_iff]
    simp only [dot, List.length_take]
    have : j * m = m * j := Nat.mul_comm _ _
    omega

/-- C140, refuted: a reversed array and a scalar are not accepted. -/
theorem C140_reversed_refuted (mem : List K) (off d : Nat) (s : Int) (hs : s < 0) (hd : 1 ≤ d) (ss : List Int) (ds : List Nat) :
    (copyView ⟨mem, off, d :: ds, s :: ss⟩).isError = true ∧ (copyView ⟨mem, off, [], []⟩).isUb = true := by
  refine ⟨?_, rfl⟩
  simp only [copyView]
  rw [if_pos (Int.mul_neg_of_neg_of_pos hs (by omega))]; rfl

/-- An array of shape 2 × 2 in the middle of its memory. -/
example := C140_contiguous_partial (K := Int) ⟨[9, 1, 2, 3, 4, 9], 1, [2, 2], [2, 1]⟩ 2 [2] [1] rfl rfl
  (fun idx h => by match idx, h with | [i, j], _ => simp [dot, rowMajor, numel]) (by decide)
example : copyView (K := Int) ⟨[9, 1, 2, 3, 4, 9], 1, [2, 2], [2, 1]⟩ = .ok ⟨1, 4, [1, 2, 3, 4]⟩ := by decide
example : CopyView.updateD2H (K := Int) ⟨1, 4, [10, 20, 30, 40]⟩ [9, 1, 2, 3, 4, 9] = .ok [9, 10, 20, 30, 40, 9] := by decide
/-- Rows with gaps. -/
example := C140_copy_partial (K := Int) ⟨[1, 2, 0, 3, 4, 0], 0, [2, 2], [3, 1]⟩ 3 2 [1] [2] rfl rfl
  (fun idx h => by match idx, h with | [i], ⟨hi, _⟩ => simp [dot]; omega) (by decide)

end Einsums.Props
