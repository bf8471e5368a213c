import Verif.Proofs.HostMemory
import Verif.Props.View

/-
C165: the memory of tensors, and what their views show.
-/
namespace Einsums.Props
open Spec Model HostMem

variable {α : Type}

/-- **C165 (memory).** After every program of declarations, copies, views, reshaping, resizing, assignments, writes and destructions that
has not run into undefined behaviour: a block of memory is allocated exactly when a tensor holds it, no two tensors hold the same, and
destroying all objects, in any order, is defined and leaves nothing allocated: nothing is lost and nothing is freed twice. -/
theorem C165_memory (grow : Nat → Nat → Nat) (prog : List (HostStmt α)) (P : HostProgram α)
    (h : HostProgram.init.run grow prog = some P) :
    (∀ b, Allocated P b ↔ ∃ x, HeldBy P b x) ∧ (∀ b x y, HeldBy P b x → HeldBy P b y → x = y) ∧
    ∀ xs : List Nat, (∀ x, x < P.objs.length → x ∈ xs) →
      ∃ P', P.run grow (destroyHost xs) = some P' ∧ ∀ b, ¬ Allocated P' b := by
  have hA := run_accounts grow prog accounts_init h
  refine ⟨fun b => ⟨?_, ?_⟩, ?_, ?_⟩
  · rintro ⟨k, hk, hl⟩
    obtain ⟨x, o, h1, h2, h3⟩ := hA.held b k hk hl
    exact ⟨x, o, h1, h2, h3⟩
  · rintro ⟨x, o, h1, h2, h3⟩
    obtain ⟨k, hk, hl, _⟩ := hA.owned x o b h1 h2 h3
    exact ⟨k, hk, hl⟩
  · rintro b x y ⟨o, h1, h2, h3⟩ ⟨p, h4, h5, h6⟩
    exact hA.once x y o p b h1 h4 h2 h5 h3 h6
  · intro xs hxs
    obtain ⟨P', e, hA', hat⟩ := destroy_all grow xs hA
    refine ⟨P', e, ?_⟩
    rintro b ⟨k, hk, hl⟩
    obtain ⟨x, o, h1, _⟩ := hA'.held b k hk hl
    rw [hat] at h1
    split at h1
    · cases h1
    · rename_i hn
      exact hn (hxs x (at_lt h1))

/-- **C165 (the elements of a tensor).** In a program without reshaping every tensor has all its elements at all times, and only those:
every in-range element can be read. -/
theorem C165_tensors (grow : Nat → Nat → Nat) (prog : List (HostStmt α)) (P : HostProgram α) (hn : NoReshape prog)
    (h : HostProgram.init.run grow prog = some P) (x : Nat) (o : HostObj) (hx : P.at' x = some o) (ho : o.owner = true) (hd : o.dims ≠ []) :
    ∃ t, P.strided o = some t ∧ t.dims = o.dims ∧ t.IsTensor ∧ ∀ i, InBox i o.dims → ∃ a, P.read x (toIdx i) = .ok a := by
  have hA := run_accounts grow prog accounts_init h
  have hF := run_full grow prog accounts_init full_init hn h
  obtain ⟨t, ht, h0, h1, h2, h3, _⟩ := strided_of_owner hA hx ho
  have hl := full_length hA hF hx ho ht
  have hI : t.IsTensor := by
    refine ⟨h0, ?_, ?_⟩
    · rw [h3, transformStrides_eq]
    · rw [hl, h3, linearSize_eq (by rw [h1]; exact hd)]
  refine ⟨t, ht, h1, hI, fun i hi => ?_⟩
  simp only [HostProgram.read, hx, ht]
  rw [← h1] at hi
  have hb := hI.wf.bound i hi
  have : Inhabited α := ⟨t.data[t.off + dot i t.strides]⟩
  exact ⟨_, read_eq (pyIndices_toIdx hi) hb⟩

/-- **C165 (statements that are always defined).** Whatever the program did before, declaring, copying, resizing and destroying tensors is
defined; without reshaping so is assigning a tensor to one of the same rank. -/
theorem C165_defined (grow : Nat → Nat → Nat) (prog : List (HostStmt α)) (P : HostProgram α) (h : HostProgram.init.run grow prog = some P) :
    (∀ z dims, ∃ P', P.step grow (.create z dims) = .returns P') ∧ (∀ y, ∃ P', P.step grow (.copy y) = .returns P') ∧
    (∀ z x dims, ∃ P', P.step grow (.resize z x dims) = .returns P') ∧ (∀ x, ∃ P', P.step grow (.destroy x) = .returns P') ∧
    (NoReshape prog → ∀ z x y o p, P.at' x = some o → P.at' y = some p → o.dims.length = p.dims.length → p.dims ≠ [] →
      ∃ P', P.step grow (.assign z x y) = .returns P') := by
  have hA := run_accounts grow prog accounts_init h
  refine ⟨?_, ?_, ?_, ?_, ?_⟩
  · intro z dims
    obtain ⟨Q, b, e, _⟩ := construct_ok grow hA (Strided.mk' z dims) rfl (.inr (length_vecResize _ _ _))
    exact ⟨Q, e⟩
  · intro y
    simp only [HostProgram.step]
    cases hy : P.at' y with
    | none => exact ⟨_, rfl⟩
    | some o =>
        simp only
        split
        · rename_i ho
          obtain ⟨t, ht, _, _, _, hs, _, hl⟩ := strided_of_owner hA hy ho
          obtain ⟨Q, b, e, _⟩ := construct_ok grow hA t hs (by rcases hl with hl | hl; exact .inr hl; exact .inl hl.2)
          simp only [ht]
          exact ⟨Q, e⟩
        · exact ⟨_, rfl⟩
  · intro z x dims
    simp only [HostProgram.step]
    cases hx : P.at' x with
    | none => exact ⟨_, rfl⟩
    | some o =>
        simp only
        split
        · rename_i ho
          obtain ⟨t, ht, _, _, _, hs, _, hl⟩ := strided_of_owner hA hx ho
          obtain ⟨f1, f2, f3⟩ := resize_facts z t dims hs
          obtain ⟨Q, b, e, _⟩ := renew_ok grow hA hx ho (t.resize z dims) f1 (by
            rcases f3 with f3 | ⟨f3, f4⟩
            · exact .inl f3
            · rcases hl with hl | ⟨hl, hl'⟩
              · left; rw [f1, f2, f4, hl, hs, f3]
              · right; exact ⟨hl, by rw [f4, hl']⟩)
          simp only [ht]
          exact ⟨Q, e⟩
        · exact ⟨_, rfl⟩
  · intro x
    obtain ⟨Q, e, _⟩ := destroy_ok grow hA x
    exact ⟨Q, e⟩
  · intro hn z x y o p hx hy hr h0
    have hF := run_full grow prog accounts_init full_init hn h
    simp only [HostProgram.step, hx, hy]
    split
    · rename_i hop
      rw [Bool.and_eq_true] at hop
      obtain ⟨t, ht, hto, htd, _, hts, _⟩ := strided_of_owner hA hx hop.1
      obtain ⟨u, hu, huo, hud, _, hus, _⟩ := strided_of_owner hA hy hop.2
      have hl := full_length hA hF hx hop.1 ht
      have hl' := full_length hA hF hy hop.2 hu
      have hd0 : o.dims ≠ [] := by
        intro e
        rw [e] at hr
        exact h0 (List.eq_nil_of_length_eq_zero hr.symm)
      have hI : t.IsTensor := ⟨hto, by rw [hts, transformStrides_eq], by rw [hl, hts, linearSize_eq (by rw [htd]; exact hd0)]⟩
      have hI' : u.IsTensor := ⟨huo, by rw [hus, transformStrides_eq], by rw [hl', hus, linearSize_eq (by rw [hud]; exact h0)]⟩
      obtain ⟨t', e, hT, hTd, _⟩ := C11_assign z t u hI hI' (by rw [htd, hud, hr]) (by rw [hud]; exact h0)
      obtain ⟨Q, b, e', _⟩ := renew_ok grow hA hx hop.1 t' (by rw [hT.strides, transformStrides_eq]) (.inl (by
        rw [hT.strides, ← transformStrides_eq, linearSize_eq (by rw [hTd, hud]; exact h0), hT.length]))
      simp only [ht, hu, e]
      exact ⟨Q, e'⟩
    · exact ⟨_, rfl⟩

/-- **C165 (views).** A view that was taken of a tensor shows, after every program that does not destroy, reshape or change the dimensions
of the tensor and does not destroy the view, the tensor as it is now: it is what taking the view again would give, element by element,
whatever was written through the tensor, through this view, through other views or by assignments in the meantime. -/
theorem C165_view_partial (grow : Nat → Nat → Nat) (before : List (HostStmt α)) (P P1 P2 : HostProgram α)
    (h0 : HostProgram.init.run grow before = some P) (x : Nat) (o : HostObj) (hx : P.at' x = some o) (ho : o.owner = true) (k : ViewKind)
    (hview : P.step grow (.view x k) = .returns P1) (prog : List (HostStmt α)) (hU : Undisturbed grow x P.objs.length prog P1)
    (h2 : P1.run grow prog = some P2) :
    P2.at' x = some o ∧ ∃ t v, P2.strided o = some t ∧ k.make t = .ok v ∧
      (∀ idx, P2.read x idx = t.read idx) ∧ ∀ idx, P2.read P.objs.length idx = v.read idx := by
  have hA := run_accounts grow before accounts_init h0
  have hA1 := step_accounts grow hA (.view x k) (.inl hview)
  simp only [HostProgram.step, hx] at hview
  obtain ⟨t, ht, ht0, htd, hts, _, htc, _⟩ := strided_of_owner hA hx ho
  simp only [ht] at hview
  cases hv : k.make t with
  | error m => rw [hv] at hview; cases hview
  | ub m => rw [hv] at hview; cases hview
  | ok v =>
      simp only [hv] at hview
      have e1 : P.declare (some ⟨false, o.block, v.off, v.dims, v.strides⟩) = P1 := by
        cases hview; rfl
      have hx1 : P1.at' x = some o := by rw [← e1]; exact keep_declare hx _
      have hv1 : P1.at' P.objs.length = some ⟨false, o.block, v.off, v.dims, v.strides⟩ := by
        rw [← e1, at_declare, if_pos rfl]
      obtain ⟨k1, k2⟩ := run_keeps grow ho rfl prog hA1 hx1 hv1 hU h2
      have hA2 := run_accounts grow prog hA1 h2
      obtain ⟨t2, ht2, ht20, ht2d, ht2s, _, ht2c, _⟩ := strided_of_owner hA2 k1 ho
      have hlen : t2.data.length = t.data.length := by
        have key : ∀ (Q : HostProgram α), Accounts Q → Q.at' x = some o → ∀ d, Q.contents o = some d →
            d.length = match o.block with | none => 0 | some _ => linearSize o.strides o.dims := by
          intro Q hQ hq d hd
          cases hb : o.block with
          | none =>
              unfold HostProgram.contents at hd
              rw [hb] at hd
              cases hd; rfl
          | some b =>
              obtain ⟨d', e, hl⟩ := contents_of_owner hQ hq ho
              rw [e] at hd; cases hd
              rcases hl with hl | ⟨hl, _⟩
              · exact hl
              · rw [hb] at hl; cases hl
        rw [key P2 hA2 k1 _ ht2c, key P hA hx _ htc]
      have et : t2 = { t with data := t2.data } := by
        obtain ⟨d2, off2, dims2, strides2⟩ := t2
        obtain ⟨d1, off1, dims1, strides1⟩ := t
        simp only at ht0 htd hts ht20 ht2d ht2s
        subst ht0; subst ht20
        rw [htd, hts, ht2d, ht2s]
      have hmake : k.make t2 = .ok { v with data := t2.data } := by
        rw [et]
        exact make_congr k hv hlen
      refine ⟨k1, t2, { v with data := t2.data }, ht2, hmake, fun idx => ?_, fun idx => ?_⟩
      · simp only [HostProgram.read, k1, ht2]
      · have hs : P2.strided ⟨false, o.block, v.off, v.dims, v.strides⟩ = some { v with data := t2.data } := by
          have hc : P2.contents ⟨false, o.block, v.off, v.dims, v.strides⟩ = P2.contents o := rfl
          unfold HostProgram.strided
          rw [hc, ht2c]
          rfl
        simp only [HostProgram.read, k2, hs]

/-- **C165 (views, element by element).** With the selections of C08: the view shows at `j` the element of the tensor that the selection
names, as it is now. -/
theorem C165_view_elements_partial (grow : Nat → Nat → Nat) (before : List (HostStmt α)) (P P1 P2 : HostProgram α) (hn : NoReshape before)
    (h0 : HostProgram.init.run grow before = some P) (x : Nat) (o : HostObj) (hx : P.at' x = some o) (ho : o.owner = true)
    (args pre post : List Sel) (vd : List Nat) (hsel : selDims o.dims args = some vd) (hne : numel vd ≠ 0) (e : args = pre ++ post)
    (hpre : ∀ k, Sel.at k ∉ pre) (hpost : ∀ a b, Sel.range a b ∉ post) (hd : o.dims ≠ [])
    (hview : P.step grow (.view x (.sub args)) = .returns P1) (prog : List (HostStmt α)) (hn' : NoReshape prog)
    (hU : Undisturbed grow x P.objs.length prog P1) (h2 : P1.run grow prog = some P2) (j : List Nat) (hj : InBox j vd) :
    ∃ a, P2.read P.objs.length (toIdx j) = .ok a ∧ P2.read x (toIdx (selIndex o.dims args j)) = .ok a := by
  obtain ⟨k1, t, v, ht, hv, hrx, hrv⟩ := C165_view_partial grow before P P1 P2 h0 x o hx ho (.sub args) hview prog hU h2
  have hA := run_accounts grow before accounts_init h0
  have hF := run_full grow before accounts_init full_init hn h0
  have hA1 := step_accounts grow hA _ (.inl hview)
  have hF1 := step_full grow hA hF (.view x (.sub args)) (fun _ _ => by simp) (.inl hview)
  have hA2 := run_accounts grow prog hA1 h2
  have hF2 := run_full grow prog hA1 hF1 hn' h2
  obtain ⟨t', ht', h0', htd, _, hts, _⟩ := strided_of_owner hA2 k1 ho
  rw [ht] at ht'; cases ht'
  have hl := full_length hA2 hF2 k1 ho ht
  have hI : t.IsTensor := ⟨h0', by rw [hts, transformStrides_eq], by rw [hl, hts, linearSize_eq (by rw [htd]; exact hd)]⟩
  obtain ⟨v', e1, _, _, _, hread⟩ := C08_sub_partial t hI.wf args pre post vd (by rw [htd]; exact hsel) hne e hpre hpost
  have e2 : v = v' := Outcome.ok.inj (hv.symm.trans e1)
  subst e2
  obtain ⟨hbox, hr⟩ := hread j hj
  rw [htd] at hbox hr
  have hb := hI.wf.bound _ (by rw [htd]; exact hbox)
  have : Inhabited α := ⟨t.data[t.off + dot (selIndex o.dims args j) t.strides]⟩
  have hok := read_eq (t := t) (pyIndices_toIdx (by rw [htd]; exact hbox)) hb
  exact ⟨_, (hrv _).trans (hr.trans hok), (hrx _).trans hok⟩

/-- **C165 (resizing, refuted).** Resizing a tensor beyond the capacity of its memory, in any program: afterwards every read through every
view of it uses memory that has been freed. -/
theorem C165_resize_refuted (grow : Nat → Nat → Nat) (before : List (HostStmt α)) (P : HostProgram α)
    (h0 : HostProgram.init.run grow before = some P) (x b v : Nat) (o w : HostObj) (k : HostBlock α) (hx : P.at' x = some o)
    (ho : o.owner = true) (hb : o.block = some b) (hk : P.blocks[b]? = some k) (hv : P.at' v = some w) (hw : w.owner = false)
    (hwb : w.block = some b) (z : Nat → α) (dims : List Nat) (hd : dims ≠ []) (hbig : k.cap < numel dims) :
    ∃ P', P.step grow (.resize z x dims) = .returns P' ∧ ∀ idx, P'.read v idx = .ub "use after free" := by
  have hA := run_accounts grow before accounts_init h0
  obtain ⟨t, ht, _, htd, _, hs, htc, hl⟩ := strided_of_owner hA hx ho
  obtain ⟨f1, f2, f3⟩ := resize_facts z t dims hs
  have hlen : (t.resize z dims).data.length = numel dims := by
    rcases f3 with f3 | ⟨f3, f4⟩
    · rw [f3, f1, f2, linearSize_eq hd]
    · rcases hl with hl | ⟨hl, _⟩
      · rw [f4, hl, hs, f3, linearSize_eq hd]
      · rw [hb] at hl; cases hl
  obtain ⟨Q, b', e, _, hat, _, _, hcap, _⟩ := renew_ok grow hA hx ho (t.resize z dims) f1
    (.inl (by rw [hlen, f1, f2, linearSize_eq hd]))
  have hc := hcap b k hb hk
  rw [if_neg (by omega)] at hc
  obtain ⟨k', hk', hdead⟩ := hc
  refine ⟨Q, by simp only [HostProgram.step, hx, ho, if_true, ht]; exact e, fun idx => ?_⟩
  have hvx : v ≠ x := by
    rintro rfl
    rw [hx] at hv; cases hv
    rw [ho] at hw; cases hw
  have hvQ : Q.at' v = some w := by rw [hat, if_neg hvx]; exact hv
  have : Q.strided w = none := by
    simp [HostProgram.strided, HostProgram.contents, hwb, hk', hdead]
  simp only [HostProgram.read, hvQ, this]

theorem read_none {P : HostProgram α} {x : Nat} {o : HostObj} (hx : P.at' x = some o) (hb : o.block = none) (idx : List Int) :
    ∃ m, P.read x idx = .ub m := by
  have hs : P.strided o = some ⟨[], o.off, o.dims, o.strides⟩ := by
    simp [HostProgram.strided, HostProgram.contents, hb]
  simp only [HostProgram.read, hx, hs, Strided.read]
  have : ∃ m, (⟨[], o.off, o.dims, o.strides⟩ : Strided α).addr idx = .ub m := by
    unfold Strided.addr
    simp only
    split
    · exact ⟨_, rfl⟩
    · rw [if_neg (by simp)]; exact ⟨_, rfl⟩
  obtain ⟨m, e⟩ := this
  rw [e]
  exact ⟨m, rfl⟩

/-- **C165 (reshaping that is rejected, refuted).** When the reshaping constructor throws, the elements of the tensor that was to be
reshaped are gone: every read of it, and of every view of it, is undefined. -/
theorem C165_reshape_refuted (grow : Nat → Nat → Nat) (before : List (HostStmt α)) (P : HostProgram α)
    (h0 : HostProgram.init.run grow before = some P) (x : Nat) (o : HostObj) (t : Strided α) (hx : P.at' x = some o)
    (ho : o.owner = true) (ht : P.strided o = some t) (req : List ReqDim) (hr : (reshape t req).isError = true) :
    ∃ P', P.step grow (.reshape x req) = .throws P' ∧ (∀ idx, ∃ m, P'.read x idx = .ub m) ∧
      ∀ v w b, P.at' v = some w → w.owner = false → w.block = some b → o.block = some b → ∀ idx, P'.read v idx = .ub "use after free" := by
  have hA := run_accounts grow before accounts_init h0
  obtain ⟨Q, e, hobj, _, _, hdead⟩ := free_ok hA hx ho
  have hat : ∀ i, Q.at' i = P.at' i := by intro i; unfold HostProgram.at'; rw [hobj]
  have hx' : Q.at' x = some o := by rw [hat]; exact hx
  cases hre : reshape t req with
  | ok t' => rw [hre] at hr; cases hr
  | ub m => rw [hre] at hr; cases hr
  | error m =>
      refine ⟨(Q.setObj x (some { o with block := none })).declare none,
        by simp only [HostProgram.step, hx, ho, if_true, ht, HostProgram.reshapeTo, hre, e], fun idx => ?_, ?_⟩
      · have : ((Q.setObj x (some { o with block := none })).declare none).at' x = some { o with block := none } :=
          keep_declare (by rw [at_setObj hx', if_pos rfl]) _
        exact read_none this rfl idx
      · intro v w b hv hw hwb hob idx
        have hvx : v ≠ x := by
          rintro rfl
          rw [hx] at hv; cases hv
          rw [ho] at hw; cases hw
        have hv' : ((Q.setObj x (some { o with block := none })).declare none).at' v = some w :=
          keep_declare (keep_set (by rw [hat]; exact hv) hx' hvx _) _
        obtain ⟨k, hk, hl⟩ := hdead b hob
        have : ((Q.setObj x (some { o with block := none })).declare none).strided w = none := by
          simp [HostProgram.strided, HostProgram.contents, hwb, HostProgram.declare, HostProgram.setObj, hk, hl]
        simp only [HostProgram.read, hv', this]

/-- **C165 (reshaping).** When it is accepted, the new tensor has the elements, the old one none, and every view of the old tensor shows
what it showed. -/
theorem C165_reshape_partial (grow : Nat → Nat → Nat) (before : List (HostStmt α)) (P : HostProgram α)
    (h0 : HostProgram.init.run grow before = some P) (x : Nat) (o : HostObj) (t t' : Strided α) (hx : P.at' x = some o)
    (ho : o.owner = true) (ht : P.strided o = some t) (req : List ReqDim) (hr : reshape t req = .ok t') :
    ∃ P', P.step grow (.reshape x req) = .returns P' ∧ (∀ idx, P'.read P.objs.length idx = t'.read idx) ∧
      (∀ idx, ∃ m, P'.read x idx = .ub m) ∧ ∀ v w, v ≠ x → P.at' v = some w → ∀ idx, P'.read v idx = P.read v idx := by
  have hA := run_accounts grow before accounts_init h0
  obtain ⟨f1, f2, f3, f4⟩ := reshape_facts hr
  have hlen : (P.setObj x (some { o with block := none })).objs.length = P.objs.length := by simp [HostProgram.setObj]
  refine ⟨(P.setObj x (some { o with block := none })).declare (some ⟨true, o.block, 0, t'.dims, t'.strides⟩),
    by simp only [HostProgram.step, hx, ho, if_true, ht, HostProgram.reshapeTo, hr], fun idx => ?_, fun idx => ?_, fun v w hne hv idx => ?_⟩
  · have hn : ((P.setObj x (some { o with block := none })).declare (some ⟨true, o.block, 0, t'.dims, t'.strides⟩)).at' P.objs.length =
        some ⟨true, o.block, 0, t'.dims, t'.strides⟩ := by
      rw [at_declare, if_pos hlen.symm]
    have hc : ((P.setObj x (some { o with block := none })).declare (some ⟨true, o.block, 0, t'.dims, t'.strides⟩)).contents
        ⟨true, o.block, 0, t'.dims, t'.strides⟩ = some t'.data := by
      rw [f3, ← (strided_eq ht).1]; rfl
    have hs : ((P.setObj x (some { o with block := none })).declare (some ⟨true, o.block, 0, t'.dims, t'.strides⟩)).strided
        ⟨true, o.block, 0, t'.dims, t'.strides⟩ = some t' := by
      unfold HostProgram.strided
      rw [hc]
      obtain ⟨d, off, dims, strides⟩ := t'
      simp only at f4
      subst f4
      rfl
    simp only [HostProgram.read, hn, hs]
  · exact read_none (keep_declare (by rw [at_setObj hx, if_pos rfl]) _) rfl idx
  · have hv' : ((P.setObj x (some { o with block := none })).declare (some ⟨true, o.block, 0, t'.dims, t'.strides⟩)).at' v = some w :=
      keep_declare (keep_set hv hx hne _) _
    simp only [HostProgram.read, hv', hv]
    rfl

/-- **C165 (moved-from tensors, refuted).** A tensor whose elements went into a reshaped one still has its dimensions: resizing it to them
does nothing, so that it stays without elements, and assigning a tensor of the same shape to it writes outside its memory. -/
theorem C165_moved_from_refuted (grow : Nat → Nat → Nat) (before : List (HostStmt α)) (P : HostProgram α)
    (h0 : HostProgram.init.run grow before = some P) (x : Nat) (o : HostObj) (hx : P.at' x = some o) (ho : o.owner = true)
    (hb : o.block = none) :
    (∀ z, ∃ P', P.step grow (.resize z x o.dims) = .returns P' ∧ ∀ idx, ∃ m, P'.read x idx = .ub m) ∧
    ∀ z y p u, P.at' y = some p → p.owner = true → P.strided p = some u → u.data ≠ [] → p.dims = o.dims → (∀ d ∈ o.dims, d ≠ 0) →
      ∃ m, P.step grow (.assign z x y) = .bad m := by
  have hA := run_accounts grow before accounts_init h0
  obtain ⟨t, ht, _, htd, _, hs, htc, hl⟩ := strided_of_owner hA hx ho
  have ht0 : t.data = [] := by
    unfold HostProgram.contents at htc
    rw [hb] at htc
    exact (Option.some.inj htc).symm
  refine ⟨fun z => ?_, ?_⟩
  · have hre : t.resize z o.dims = t := by unfold Strided.resize; rw [if_pos htd]
    obtain ⟨Q, b', e, _, hat, _, _, _, hnone⟩ := renew_ok grow hA hx ho t hs (.inr ⟨hb, ht0⟩)
    refine ⟨Q, by simp only [HostProgram.step, hx, ho, if_true, ht, hre]; exact e, fun idx => ?_⟩
    refine read_none (o := ⟨true, b', 0, t.dims, t.strides⟩) ?_ (hnone hb ht0) idx
    rw [hat, if_pos rfl]
  · intro z y p u hy hp hu hne hd h0'
    have hud : u.dims = t.dims := by rw [(strided_eq hu).2.2.1, hd, htd]
    have ha : t.assign z u = .ub "std::copy past the end" := by
      unfold Strided.assign
      simp only
      have hany : ((t.dims.zip u.dims).any fun p => p.1 == 0 || p.1 != p.2) = false := by
        rw [hud, List.any_eq_false]
        rintro ⟨a, c⟩ hm
        have hac : a = c ∧ a ∈ t.dims := by
          rw [List.mem_iff_getElem?] at hm
          obtain ⟨i, hi⟩ := hm
          rw [List.getElem?_zip_eq_some] at hi
          exact ⟨Option.some.inj (hi.1.symm.trans hi.2), List.mem_of_getElem? hi.1⟩
        obtain ⟨rfl, hm'⟩ := hac
        have := h0' a (by rw [← htd]; exact hm')
        simp [this]
      simp only [hany, Bool.false_eq_true, if_false, ht0]
      rw [if_neg]
      intro hle
      exact hne (List.eq_nil_of_length_eq_zero (Nat.le_zero.mp hle))
    refine ⟨"std::copy past the end", ?_⟩
    simp only [HostProgram.step, hx, hy, ho, hp, Bool.and_self, if_true, ht, hu, ha]

/-! ### Cases -/

/-- What a written-to object reaches afterwards, and what the objects in other memory reach. -/
theorem strided_put {P : HostProgram α} {o : HostObj} {t : Strided α} (ht : P.strided o = some t) {d : List α} (hb : o.block = none → d = []) :
    (P.put o d).strided o = some { t with data := d } ∧ ∀ w : HostObj, w.block ≠ o.block → (P.put o d).strided w = P.strided w := by
  obtain ⟨hc, e1, e2, e3⟩ := strided_eq ht
  have et : (⟨d, o.off, o.dims, o.strides⟩ : Strided α) = { t with data := d } := by rw [← e1, ← e2, ← e3]
  cases hob : o.block with
  | none =>
      have hp : P.put o d = P := by simp [HostProgram.put, hob]
      refine ⟨?_, fun w _ => by rw [hp]⟩
      rw [hp, ← et]
      simp [HostProgram.strided, HostProgram.contents, hob, hb hob]
  | some b =>
      cases hk : P.blocks[b]? with
      | none => simp [HostProgram.contents, hob, hk] at hc
      | some k =>
          have hlive : k.live = true := by
            simp only [HostProgram.contents, hob, hk] at hc
            split at hc
            · assumption
            · cases hc
          have hlt : b < P.blocks.length := (List.getElem?_eq_some_iff.mp hk).1
          have hp : P.put o d = { P with blocks := P.blocks.set b { k with data := d } } := by simp [HostProgram.put, hob, hk]
          rw [hp]
          refine ⟨?_, fun w hw => ?_⟩
          · rw [← et]
            simp [HostProgram.strided, HostProgram.contents, hob, hlt, hlive]
          · unfold HostProgram.strided HostProgram.contents
            cases hwb : w.block with
            | none => rfl
            | some c =>
                have hne : b ≠ c := by
                  intro e
                  rw [hwb, e] at hw
                  exact hw rfl
                simp only [List.getElem?_set, if_neg hne]

/-- **C165 (writing).** Whatever the program did before, an element written through a tensor or a view is the one that is read through it
afterwards with the same indices, objects in other memory are not affected, and no object changes its shape. -/
theorem C165_write (grow : Nat → Nat → Nat) (P P' : HostProgram α) (x : Nat) (o : HostObj) (hx : P.at' x = some o) (idx : List Int) (v : α)
    (hw : P.step grow (.write x idx v) = .returns P') :
    P'.read x idx = .ok v ∧ P'.objs = P.objs ∧
    ∀ y w, P.at' y = some w → w.block ≠ o.block → ∀ j, P'.read y j = P.read y j := by
  simp only [HostProgram.step, hx] at hw
  cases ht : P.strided o with
  | none => simp [ht] at hw
  | some t =>
      simp only [ht] at hw
      cases ha : t.addr idx with
      | error m => simp [Strided.write, ha, HostProgram.written] at hw
      | ub m => simp [Strided.write, ha, HostProgram.written] at hw
      | ok a =>
          have hw' : t.write idx v = .ok { t with data := t.data.set a v } := by unfold Strided.write; rw [ha]; rfl
          have hlt : a < t.data.length := by
            unfold Strided.addr at ha
            split at ha
            · cases ha
            · simp only at ha
              split at ha
              · cases ha
                omega
              · cases ha
          simp only [hw', HostProgram.written, Did.returns.injEq] at hw
          subst hw
          obtain ⟨k1, k2⟩ := strided_put (d := t.data.set a v) ht (by
            intro hn
            have := (strided_eq ht).1
            simp only [HostProgram.contents, hn, Option.some.injEq] at this
            rw [← this] at hlt
            cases hlt)
          have hobj : (P.put o (t.data.set a v)).objs = P.objs := by
            unfold HostProgram.put
            split
            · rfl
            · split <;> rfl
          have hat : ∀ y, (P.put o (t.data.set a v)).at' y = P.at' y := by intro y; unfold HostProgram.at'; rw [hobj]
          refine ⟨?_, hobj, ?_⟩
          · simp only [HostProgram.read, hat, hx, k1, Strided.read]
            have : ({ t with data := t.data.set a v } : Strided α).addr idx = .ok a := by
              rw [← ha]
              simp [Strided.addr]
            rw [this]
            simp [hlt]
          · intro y w hy hne j
            simp only [HostProgram.read, hat, hy, k2 w hne]

/-- **C165 (writing, the other elements).** Without reshaping every in-range element of a tensor can be written, and then the tensor has the new value
there and its old values everywhere else. -/
theorem C165_write_tensor (grow : Nat → Nat → Nat) (prog : List (HostStmt α)) (P : HostProgram α) (hn : NoReshape prog)
    (h : HostProgram.init.run grow prog = some P) (x : Nat) (o : HostObj) (hx : P.at' x = some o) (ho : o.owner = true) (hd : o.dims ≠ [])
    (i : List Nat) (hi : InBox i o.dims) (v : α) :
    ∃ P', P.step grow (.write x (toIdx i) v) = .returns P' ∧ P'.read x (toIdx i) = .ok v ∧
      ∀ j, InBox j o.dims → j ≠ i → P'.read x (toIdx j) = P.read x (toIdx j) := by
  obtain ⟨t, ht, htd, hI, _⟩ := C165_tensors grow prog P hn h x o hx ho hd
  rw [← htd] at hi
  have hb := hI.wf.bound i hi
  have hwr := write_eq (pyIndices_toIdx hi) hb v
  have hstep : P.step grow (.write x (toIdx i) v) = .returns (P.put o (t.data.set (t.off + dot i t.strides) v)) := by
    simp only [HostProgram.step, hx, ht, hwr, HostProgram.written]
  obtain ⟨r1, hobj, _⟩ := C165_write grow P _ x o hx (toIdx i) v hstep
  refine ⟨_, hstep, r1, fun j hj hne => ?_⟩
  rw [← htd] at hj
  have hbj := hI.wf.bound j hj
  obtain ⟨k1, _⟩ := strided_put (d := t.data.set (t.off + dot i t.strides) v) ht (by
    intro hnb
    have := (strided_eq ht).1
    simp only [HostProgram.contents, hnb, Option.some.injEq] at this
    rw [← this] at hb
    cases hb)
  have hat : (P.put o (t.data.set (t.off + dot i t.strides) v)).at' x = some o := by
    rw [← hx]; unfold HostProgram.at'; rw [hobj]
  simp only [HostProgram.read, hat, hx, k1, ht]
  rw [read_eq (t := { t with data := t.data.set (t.off + dot i t.strides) v }) (pyIndices_toIdx hj) (by simpa using hbj),
    read_eq (pyIndices_toIdx hj) hbj]
  congr 1
  show (t.data.set (t.off + dot i t.strides) v)[t.off + dot j t.strides]'(by simpa using hbj) = _
  rw [List.getElem_set_ne]
  intro e
  exact hne (hI.wf.inj j i hj hi (by omega))

/-- Writing the last element of the second of two tensors: what `C165_write_tensor` asks for holds, and the others are as before. -/
example : ∃ P P' o, HostProgram.init.run (fun _ n => n) [HostStmt.create (fun k => k) [2, 3], .copy 0] = some P ∧ P.at' 1 = some o ∧
    o.owner = true ∧ InBox [1, 2] o.dims ∧ P.step (fun _ n => n) (.write 1 (toIdx [1, 2]) 9) = .returns P' ∧ P'.read 1 [1, 2] = .ok 9 ∧
    P'.read 1 [0, 0] = .ok 0 ∧ P'.read 0 [1, 2] = .ok 5 :=
  ⟨_, _, _, rfl, rfl, rfl, by decide, rfl, by decide, by decide, by decide⟩

/-- `Tensor A("A", 2, 3); auto v = A(1, All); A(1, 2) = 7;` with a copy of `A` and an assignment back: the hypotheses hold and the view shows
the assigned elements. -/
def hostBefore : List (HostStmt Nat) := [.create (fun k => k) [2, 3], .copy 0, .write 1 [1, 0] 9]
/-- The program while the view is there. -/
def hostAfter : List (HostStmt Nat) := [.assign (fun _ => 0) 0 1, .write 2 [2] 7, .resize (fun _ => 0) 1 [8, 8], .destroy 1]

example : ∃ P P1 P2, HostProgram.init.run (fun _ n => n) hostBefore = some P ∧
    P.step (fun _ n => n) (.view 0 (.sub [.at 1, .all])) = .returns P1 ∧ P1.run (fun _ n => n) hostAfter = some P2 ∧
    P2.read 2 [0] = .ok 9 ∧ P2.read 2 [2] = .ok 7 ∧ P2.read 0 [1, 2] = .ok 7 ∧ selDims [2, 3] [.at 1, .all] = some [3] :=
  ⟨_, _, _, rfl, rfl, rfl, by decide, by decide, by decide, by decide⟩

example : ∃ P P1, HostProgram.init.run (fun _ n => n) hostBefore = some P ∧ P.objs.length = 2 ∧
    P.step (fun _ n => n) (.view 0 (.sub [.at 1, .all])) = .returns P1 ∧ Undisturbed (fun _ n => n) 0 2 hostAfter P1 := by
  refine ⟨_, _, rfl, rfl, rfl, ?_⟩
  refine ⟨fun _ o p h1 h2 => ?_, ?_⟩
  · cases h1; cases h2; rfl
  · rintro P (h | h) <;> cases h
    refine ⟨trivial, ?_⟩
    rintro P (h | h) <;> cases h
    refine ⟨fun e => (by cases e), ?_⟩
    rintro P (h | h) <;> cases h
    refine ⟨⟨by decide, by decide⟩, ?_⟩
    rintro P (h | h) <;> cases h
    trivial

/-- A view, then a resize beyond the capacity. -/
example : ∃ P, HostProgram.init.run (fun _ n => n) [HostStmt.create (fun k => k) [2], .view 0 (.sub [.all])] = some P ∧
    (∃ P', P.step (fun _ n => n) (.resize (fun _ => 0) 0 [5]) = .returns P' ∧ P'.read 1 [0] = .ub "use after free") ∧
    (∃ P', P.step (fun _ n => n) (.reshape 0 [.n 3]) = .throws P' ∧ P'.read 1 [0] = .ub "use after free" ∧
      (P'.read 0 [0]).isUb = true) ∧
    ∃ P', P.step (fun _ n => n) (.reshape 0 [.n 1, .n 2]) = .returns P' ∧ P'.read 2 [0, 1] = .ok 1 ∧ P'.read 1 [1] = .ok 1 ∧
      (P'.read 0 [0]).isUb = true :=
  ⟨_, rfl, ⟨_, rfl, rfl⟩, ⟨_, rfl, rfl, rfl⟩, ⟨_, rfl, rfl, rfl, rfl⟩⟩

end Einsums.Props
