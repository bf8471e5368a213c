import Verif.Proofs.ViewAssign
import Verif.Proofs.PyBlas
/-
C154: assigning to a view.
-/
namespace Einsums.Props
open Spec Model

variable {α : Type}

/-- C154: assigning another tensor or view with its own storage and at least the target's extents copies it element by element, whatever
the order of the iterations, and writes nothing outside the target view. -/
theorem C154_assign {dst src : Strided α} {f : List Nat → α} (w : dst.WF) (hf : src.Represents f)
    (hd : ∀ i, InBox i dst.dims → InBox i src.dims) {sched : List (List Nat)} (hs : sched.Perm (box dst.dims)) :
    ∃ d, dst.viewAssign false src sched = .ok d ∧ dst.Frame d ∧ d.Represents f := by
  obtain ⟨g, hg⟩ := represents_exists w f
  exact updateAll w hg hs (fun i _ => f i) _ (fun C' i f' hi _ _ => by
    change (src.read (toIdx i) >>= fun x => C'.write (toIdx i) x) = _
    rw [hf i (hd i hi)]; rfl)

/-- C154: and assigning a view of the same storage does the same, as long as no element of the target is an element of the source at a
different index. -/
theorem C154_assign_shared {dst src : Strided α} {f : List Nat → α} (w : dst.WF) (ws : src.WF) (hf : src.Represents f)
    (hdata : src.data = dst.data) (hd : ∀ i, InBox i dst.dims → InBox i src.dims)
    (apart : ∀ i j, InBox i dst.dims → InBox j dst.dims → i ≠ j →
      dst.off + dot i dst.strides ≠ src.off + dot j src.strides)
    {sched : List (List Nat)} (hs : sched.Perm (box dst.dims)) :
    ∃ d, dst.viewAssign true src sched = .ok d ∧ dst.Frame d ∧ d.Represents f := by
  have hin : ∀ i ∈ sched, InBox i dst.dims := fun i hi => mem_box.1 (hs.mem_iff.1 hi)
  rw [viewAssign_shared (f := f) (hs.nodup_iff.2 (nodup_box _)) w hin
    (fun i hi => ⟨hd i (hin i hi), hdata ▸ ws.bound i (hd i (hin i hi))⟩)
    (fun i hi => hdata ▸ (represents_iff ws).1 hf i (hd i (hin i hi)))
    (fun i hi j hj => apart i j (hin i hi) (hin j hj))]
  obtain ⟨g, hg⟩ := represents_exists w f
  exact foldlM_write w hg hs

/-- C154: assigning an array gives the view the array's elements in row-major order, if the array has as many elements as the view. -/
theorem C154_assign_array {dst : Strided α} (w : dst.WF) {p : List α} (f : List Nat → α)
    (hf : ∀ i, InBox i dst.dims → p[rowMajor i dst.dims]? = some (f i)) :
    ∃ d, dst.viewFromPointer p = .ok d ∧ dst.Frame d ∧ d.Represents f := by
  obtain ⟨g, hg⟩ := represents_exists w f
  unfold Strided.viewFromPointer
  rw [cartesian_eq_box, zipIdx_box, List.foldlM_map]
  exact updateAll w hg (List.Perm.refl _) (fun i _ => f i) _ (fun C' i f' hi _ _ => by
    simp only [pointerRead, hf i hi]; rfl)

/-- The corner of a 2×3 matrix, as a view: its elements are not contiguous. -/
def cornerOf (data : List Int) : Strided Int := ⟨data, 1, [2, 2], [3, 1]⟩

theorem cornerOf_wf (data : List Int) (h : data.length = 6) : (cornerOf data).WF where
  len := rfl
  bound := by
    intro i hi
    have : ∀ i ∈ box [2, 2], 1 + dot i [3, 1] < 6 := by decide
    exact h ▸ this i (mem_box.2 hi)
  inj := by
    intro i j hi hj
    have : ∀ i ∈ box [2, 2], ∀ j ∈ box [2, 2], dot i [3, 1] = dot j [3, 1] → i = j := by decide
    exact this i (mem_box.2 hi) j (mem_box.2 hj)

/-- A 2×2 matrix. -/
def tensOf : Strided Int := ⟨[10, 20, 30, 40], 0, [2, 2], [2, 1]⟩

theorem tensOf_represents : tensOf.Represents fun i => 10 * (rowMajor i [2, 2] + 1 : Nat) := by
  intro i hi
  have : ∀ i ∈ box [2, 2], tensOf.read (toIdx i) = .ok (10 * ((rowMajor i [2, 2] + 1 : Nat) : Int)) := by decide
  exact this i (mem_box.2 hi)

-- The hypotheses are met: the corner of a 2×3 matrix from a 2×2 matrix, in an order that is not the sequential one.
example : ∃ d, (cornerOf [1, 2, 3, 4, 5, 6]).viewAssign false tensOf [[1, 1], [0, 0], [1, 0], [0, 1]] = .ok d ∧
    (cornerOf [1, 2, 3, 4, 5, 6]).Frame d ∧ d.Represents fun i => 10 * (rowMajor i [2, 2] + 1 : Nat) :=
  C154_assign (cornerOf_wf _ rfl) tensOf_represents (fun _ h => h) (by decide)

example : (cornerOf [1, 2, 3, 4, 5, 6]).viewAssign false tensOf (box [2, 2]) = .ok (cornerOf [1, 10, 20, 4, 30, 40]) := by decide

/-- Row `k` of a 2×2 matrix, as a view. -/
def rowOf (k : Nat) : Strided Int := ⟨[1, 2, 3, 4], 2 * k, [2], [1]⟩

-- Two rows of one matrix: the shared storage is harmless.
example : ∃ d, (rowOf 0).viewAssign true (rowOf 1) [[1], [0]] = .ok d ∧
    (rowOf 0).Frame d ∧ d.Represents fun i => 3 + (i.getD 0 0 : Nat) :=
  C154_assign_shared (dst := rowOf 0) (src := rowOf 1) (f := fun i => (3 : Int) + (i.getD 0 0 : Nat))
    (Model.Strided.RowMajor.wf ⟨rfl, by decide⟩) (Model.Strided.RowMajor.wf ⟨rfl, by decide⟩) (by
    intro i hi
    have : ∀ i ∈ box [2], (rowOf 1).read (toIdx i) = .ok (3 + ((i.getD 0 0 : Nat) : Int)) := by decide
    exact this i (mem_box.2 hi)) rfl (fun _ h => h) (by
    intro i j hi hj _
    have : ∀ i ∈ box [2], ∀ j ∈ box [2], (rowOf 0).off + dot i (rowOf 0).strides ≠ (rowOf 1).off + dot j (rowOf 1).strides := by decide
    exact this i (mem_box.2 hi) j (mem_box.2 hj)) (by decide)

example : (cornerOf [1, 2, 3, 4, 5, 6]).viewFromPointer [10, 20, 30, 40, 50] = .ok (cornerOf [1, 10, 20, 4, 30, 40]) := by decide

/-- A loop that finishes has finished each of its iterations. -/
theorem step_of_foldlM {σ β : Type} {step : σ → β → Outcome σ} : ∀ {l : List β} {s s' : σ}, l.foldlM step s = .ok s' →
    ∀ b ∈ l, ∃ t t', step t b = .ok t'
  | [], _, _, _, b, hb => by simp at hb
  | a :: l, s, s', h, b, hb => by
    rw [List.foldlM_cons] at h
    obtain ⟨t, h1, h2⟩ := ok_of_bind h
    rcases List.mem_cons.1 hb with rfl | hb
    · exact ⟨s, t, h1⟩
    · exact step_of_foldlM h2 b hb

/-- A loop whose iterations keep a property and do not throw ends without an exception. -/
theorem foldlM_ok_or_ub {σ β : Type} {step : σ → β → Outcome σ} (I : σ → Prop) : ∀ {l : List β} {s : σ}, I s →
    (∀ t, I t → ∀ b ∈ l, (∃ t', step t b = .ok t' ∧ I t') ∨ (step t b).isUb = true) →
    (∃ s', l.foldlM step s = .ok s') ∨ (l.foldlM step s).isUb = true
  | [], s, _, _ => .inl ⟨s, rfl⟩
  | a :: l, s, hs, h => by
    rw [List.foldlM_cons]
    rcases h s hs a (by simp) with ⟨t, h1, h2⟩ | h1
    · rw [h1]
      exact foldlM_ok_or_ub I h2 fun t ht b hb => h t ht b (by simp [hb])
    · right
      cases hc : step s a with
      | ok t => rw [hc] at h1; simp [Outcome.isUb] at h1
      | error m => rw [hc] at h1; simp [Outcome.isUb] at h1
      | ub m => rfl

/-- C154: with a shorter array the assignment reads past its end, which is undefined. -/
theorem C154_assign_array_short {dst : Strided α} {p : List α} (w : dst.WF) (hp : p.length < numel dst.dims) :
    (dst.viewFromPointer p).isUb = true := by
  unfold Strided.viewFromPointer
  have hl : p.length < (box dst.dims).length := by rw [length_box]; exact hp
  have hm : ((box dst.dims)[p.length], p.length) ∈ (cartesian dst.dims).zipIdx := by
    rw [cartesian_eq_box, List.mem_zipIdx_iff_getElem?]
    exact List.getElem?_eq_getElem hl
  rcases foldlM_ok_or_ub (fun d : Strided α => d.WF ∧ d.dims = dst.dims) (l := (cartesian dst.dims).zipIdx)
    (step := fun d it => do
      let x ← pointerRead p it.2
      d.write (toIdx it.1) x) (s := dst) ⟨w, rfl⟩ (by
      intro d ⟨wd, hd⟩ b hb
      unfold pointerRead
      cases hc : p[b.2]? with
      | none => exact .inr rfl
      | some x =>
        have hbb : InBox b.1 d.dims := by
          rw [hd, ← mem_box, ← cartesian_eq_box]
          exact List.mem_of_getElem? (List.mem_zipIdx_iff_getElem?.1 hb)
        refine .inl ⟨_, write_eq (pyIndices_toIdx hbb) (wd.bound _ hbb) x, ⟨wd.len, ?_, wd.inj⟩, hd⟩
        intro idx hidx
        simpa using wd.bound idx hidx) with ⟨d, h⟩ | h
  · obtain ⟨t, t', h1⟩ := step_of_foldlM h _ hm
    simp [pointerRead] at h1
  · exact h

-- An array of three elements for a view of four.
example : (cornerOf [1, 2, 3, 4, 5, 6]).WF ∧ [10, 20, 30].length < numel (cornerOf [1, 2, 3, 4, 5, 6]).dims :=
  ⟨cornerOf_wf _ rfl, by decide⟩

/-- The loop from the `k`-th element on. -/
theorem smear (x : α) (N : Nat) (src : Strided α) (hsd : src.dims = [N]) (hss : src.strides = [1]) (hso : src.off = 0) :
    ∀ (ys : List α) (k : Nat) (d : Strided α), k + ys.length = N → d.dims = [N] → d.strides = [1] → d.off = 1 →
    d.data = List.replicate (k + 1) x ++ ys →
    d.viewAssign true src ((List.range' k ys.length).map fun i => [i])
      = .ok { d with data := List.replicate (k + 1 + ys.length) x } := by
  intro ys
  induction ys with
  | nil => intro k d _ _ _ _ h4; cases d; simp at h4; simp [Strided.viewAssign, h4]
  | cons y ys ih =>
    intro k d h0 h1 h2 h3 h4
    have hk : k < N := by simp at h0; omega
    have rd : (src.seen true d).read (toIdx [k]) = .ok x := by
      have hb : InBox [k] src.dims := by rw [hsd]; exact ⟨hk, trivial⟩
      have hl : src.off + dot [k] src.strides < d.data.length := by rw [hso, hss, h4]; simp [dot]; omega
      have e : (src.seen true d) = { src with data := d.data } := rfl
      rw [e, read_eq (t := { src with data := d.data }) (pyIndices_toIdx hb) hl]
      simp only [hso, hss, h4]
      simp [dot]
    have wr : d.write (toIdx [k]) x = .ok { d with data := List.replicate (k + 1 + 1) x ++ ys } := by
      have hb : InBox [k] d.dims := by rw [h1]; exact ⟨hk, trivial⟩
      have hl : d.off + dot [k] d.strides < d.data.length := by rw [h2, h3, h4]; simp [dot]; omega
      rw [write_eq (pyIndices_toIdx hb) hl]
      simp only [h2, h3, h4]
      have e : 1 + dot [k] [1] = (List.replicate (k + 1) x).length := by simp [dot]; omega
      rw [e, List.set_append_right _ _ (Nat.le_refl _), Nat.sub_self, List.set_cons_zero, List.replicate_succ' (n := k + 1)]
      simp
    have step := ih (k + 1) { d with data := List.replicate (k + 1 + 1) x ++ ys } (by simp at h0; omega) h1 h2 h3 rfl
    unfold Strided.viewAssign at step ⊢
    rw [List.length_cons, List.range'_succ, List.map_cons, List.foldlM_cons, rd]
    change (d.write (toIdx [k]) x >>= _) = _
    rw [wr]
    refine Eq.trans step ?_
    simp; omega

/-- C154: the elements are not copied aside first.  Shifting a vector by one, `A(1…n) = A(0…n-1)`, in order fills it with its first
element. -/
theorem C154_overlap (x : α) (ys : List α) :
    (⟨x :: ys, 1, [ys.length], [1]⟩ : Strided α).viewAssign true ⟨x :: ys, 0, [ys.length], [1]⟩ (box [ys.length])
      = .ok ⟨List.replicate (1 + ys.length) x, 1, [ys.length], [1]⟩ := by
  have := smear x ys.length ⟨x :: ys, 0, [ys.length], [1]⟩ rfl rfl rfl ys 0 ⟨x :: ys, 1, [ys.length], [1]⟩ (by simp) rfl rfl rfl rfl
  rw [← List.range_eq_range'] at this
  have e : box [ys.length] = (List.range ys.length).map fun i => [i] := by
    simp only [box, List.map_cons, List.map_nil]
    exact (List.map_eq_flatMap).symm
  rw [e, this]

/-- C154: and what it gives depends on how the iterations are distributed. -/
theorem C154_overlap_order :
    ∃ (dst src : Strided Int) (s s' : List (List Nat)), s.Perm (box dst.dims) ∧ s'.Perm (box dst.dims) ∧ dst.WF ∧ src.WF ∧
      src.data = dst.data ∧ src.dims = dst.dims ∧ dst.viewAssign true src s ≠ dst.viewAssign true src s' := by
  refine ⟨⟨[1, 2, 3], 1, [2], [1]⟩, ⟨[1, 2, 3], 0, [2], [1]⟩, [[0], [1]], [[1], [0]], by decide, by decide, ?_, ?_, rfl, rfl,
    by decide⟩
  · exact Model.Strided.RowMajor.wf ⟨rfl, by decide⟩
  · exact Model.Strided.RowMajor.wf ⟨rfl, by decide⟩

/-- C154: the extents are not compared.  From a vector shorter than the target the assignment reads outside its storage, -/
theorem C154_short_source {dst src : Strided α} {n m : Nat} (ht : src.IsTensor) (hn : src.dims = [n]) (hm : dst.dims = [m])
    (h : n < m) {sched : List (List Nat)} (hs : sched.Perm (box dst.dims)) :
    ¬ ∃ d, dst.viewAssign false src sched = .ok d := by
  rintro ⟨d, hd⟩
  have hmem : [n] ∈ sched := hs.mem_iff.2 (by rw [hm, mem_box]; simpa [InBox] using h)
  obtain ⟨t, t', h1⟩ := step_of_foldlM hd _ hmem
  obtain ⟨x, h2, -⟩ := ok_of_bind h1
  have hl : src.data.length = n := by rw [ht.length, hn]; simp [numel]
  simp [Strided.seen, Strided.read, Strided.addr, toIdx, hn, ht.off, ht.strides, hl, normIdx, innerProduct, dimsToStrides] at h2
  have h0 : ¬ ((n : Int) < 0) := by omega
  simp [h0] at h2

/-- C154: and from a shorter view it takes elements that are not part of the view. -/
theorem C154_short_view :
    ∃ (dst src d : Strided Int), dst.WF ∧ src.WF ∧ src.dims ≠ dst.dims ∧ dst.viewAssign false src (box dst.dims) = .ok d ∧
      d.read [1] = .ok 8 ∧ ∀ i, InBox i src.dims → src.read (toIdx i) ≠ .ok 8 := by
  refine ⟨⟨[1, 2], 0, [2], [1]⟩, ⟨[7, 8], 0, [1], [1]⟩, ⟨[7, 8], 0, [2], [1]⟩, ?_, ?_, by decide, by decide, by decide, ?_⟩
  · exact Model.Strided.RowMajor.wf ⟨rfl, by decide⟩
  · exact Model.Strided.RowMajor.wf ⟨rfl, by decide⟩
  · intro i hi
    rcases i with _ | ⟨a, _ | ⟨b, l⟩⟩
    · exact hi.elim
    · obtain rfl : a = 0 := by have := hi.1; omega
      decide
    · exact hi.2.elim

end Einsums.Props
