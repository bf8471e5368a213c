import Verif.Props.PrintTensor
import Verif.Props.RuntimeTensor
import Verif.Proofs.PythonTensor
import Verif.Model.PrintRuntime
import Verif.Spec.PrintRuntime
/-
C166: a printed runtime tensor or view shows every element once, in its place.
-/
namespace Einsums.Props
open Spec Model

variable {R : Type}

/-! ### Labels -/

theorem commaFlat_eq (pre : List Nat) (h : pre ≠ []) :
    (pre.flatMap fun i => decimal i ++ ascii [',', ' ']) = commaList pre ++ [44, 32] := by
  induction pre with
  | nil => exact absurd rfl h
  | cons i is ih =>
    cases is with
    | nil => simp [commaList, ascii]
    | cons j is =>
      rw [List.flatMap_cons, ih (by simp)]
      simp [commaList, ascii]

theorem rtLabelText_eq (pre : List Nat) (h : pre ≠ []) (a b nd : Nat) : rtLabelText pre a b nd = runtimeLabel pre a b nd := by
  unfold rtLabelText runtimeLabel padRight padLeft decimalInt rightAligned
  rw [commaFlat_eq pre h, if_neg (by omega), if_neg (by omega)]
  simp only [ascii, List.map, List.append_assoc, List.cons_append, List.nil_append]
  rfl

theorem runtimeLabel_no_nl (pre : List Nat) (a b nd : Nat) : (10 : UInt8) ∉ runtimeLabel pre a b nd := by
  have hr : ∀ w n, (10 : UInt8) ∉ rightAligned w n := by
    intro w n
    unfold rightAligned
    rw [List.mem_append, List.mem_replicate]
    rintro (h | h)
    · exact absurd h.2 (by decide)
    · exact decimal_no_nl n h
  unfold runtimeLabel
  simp only [List.mem_append, List.mem_replicate, not_or]
  refine ⟨⟨⟨⟨⟨⟨⟨by decide, commaList_no_nl pre⟩, by decide⟩, hr _ _⟩, by decide⟩, hr _ _⟩, by decide⟩, ?_⟩
  exact fun h => absurd h.2 (by decide)

theorem runtimeLabel_ne_nil (pre : List Nat) (a b nd : Nat) : runtimeLabel pre a b nd ≠ [] := by
  unfold runtimeLabel; simp

/-! ### What is asked of a tensor -/

/-- The subscripts answer with the elements `f`, and there are as many as the size says. -/
structure Shows (A : RtPrinted R) (f : List Nat → R) : Prop where
  get : ∀ i, InBox i A.dims → A.get (toIdx i) = .ok (f i)
  at1 : ∀ d, A.dims = [d] → A.size = d ∧ ∀ i < d, A.at1 i = .ok (f [i])
  scalar : A.dims = [] → (A.at1 0).isError = true

theorem shows_tensor {t : Strided R} (ht : t.IsTensor) {f : List Nat → R} (hf : t.Represents f) : Shows t.printed f := by
  have key : ∀ i, InBox i t.dims → rtGet t (toIdx i) = .ok (f i) := fun i hi => rtGet_eq ht hf (pyIndices_toIdx hi)
  refine ⟨key, fun d hd => ?_, fun hd => ?_⟩
  · have hd' : t.dims = [d] := hd
    refine ⟨?_, fun i hi => ?_⟩
    · show t.data.length = d
      rw [ht.length, hd']; simp [numel]
    · have := key [i] (by rw [hd']; simpa [InBox_cons_right, InBox_nil_right] using hi)
      show rtGetInts t [(i : Int)] = _
      rw [rtGetInts, if_neg (by simp [hd']), if_neg (by simp [hd'])]
      exact this
  · have hd' : t.dims = [] := hd
    show (rtGetInts t [(0 : Int)]).isError = true
    rw [rtGetInts, if_neg (by simp [hd']), if_pos (by simp [hd'])]
    rfl

theorem shows_view {v : RtView R} (w : v.WF) {f : List Nat → R} (hf : v.view.Represents f) : Shows v.printed f := by
  have key : ∀ i, InBox i v.view.dims → rtvGet v (toIdx i) = .ok (f i) := fun i hi => rtvGet_eq w.view hf (pyIndices_toIdx hi)
  refine ⟨key, fun d hd => ?_, fun hd => ?_⟩
  · have hd' : v.view.dims = [d] := hd
    refine ⟨?_, fun i hi => ?_⟩
    · show v.size = d
      rw [w.size, hd']; simp [numel]
    · have := key [i] (by rw [hd']; simpa [InBox_cons_right, InBox_nil_right] using hi)
      show rtvGetInts v [(i : Int)] = _
      rw [rtvGetInts, if_neg (by simp [hd']), if_neg (by simp [hd'])]
      exact this
  · have hd' : v.view.dims = [] := hd
    show (rtvGetInts v [(0 : Int)]).isError = true
    rw [rtvGetInts, if_neg (by simp [hd']), if_pos (by simp [hd'])]
    rfl

/-! ### Elements -/

theorem rtPrintCell_eq {F : NumText R} {A : RtPrinted R} {f : List Nat → R} (hA : Shows A f) {w n : Nat} (hw : 0 < w)
    {pre : List Nat} (hpre : pre ≠ []) {j : Nat} (hj : j < n) (hi : InBox (pre ++ [j]) A.dims) (hr : 2 ≤ A.dims.length) :
    rtPrintCell F A w n pre j = .ok (cellTextWith (fun first last => runtimeLabel pre first last (Nat.digits 10 n).length) w n
      (fun j => elementText F A.dims.length (f (pre ++ [j]))) j) := by
  unfold rtPrintCell cellTextWith
  rw [if_neg (by omega), hA.get _ hi]
  simp only [Outcome.ok_bind]
  have hv := value_eq F A.dims.length (f (pre ++ [j]))
  rw [if_neg (by omega), if_neg (by omega)] at hv
  have e1 : ((j : Int).tmod w = 0) = (j % w = 0) := by
    rw [← Int.ofNat_tmod j w]
    exact propext (by omega)
  have e2 : ((j : Int).tmod w = (w : Int) - 1 ∧ j ≠ n - 1) = (j % w = w - 1 ∧ j ≠ n - 1) := by
    rw [← Int.ofNat_tmod j w]
    exact propext (by omega)
  have e3 : rtLabelText pre j (if notShort n j w then (j : Int) + w - 1 else n - 1) (ndigits n)
      = runtimeLabel pre j (min (j + w) n - 1) (Nat.digits 10 n).length := by
    rw [← rtLabelText_eq pre hpre, ndigits_eq n, notShort_eq]
    congr 1
    by_cases h : j + w ≤ n
    · rw [if_pos (by simpa using h)]; omega
    · rw [if_neg (by simpa using h)]; omega
  rw [e3, hv]
  simp only [e1, e2]
  rfl

theorem rtPrintElements_eq {F : NumText R} (hF : OneLine F) {k : Nat} {st : PrintState} (h : IndentInv k st)
    (hs : st.suppress = false) (par : Bool) (thread : Nat) {A : RtPrinted R} {f : List Nat → R} (hA : Shows A f) {w : Nat}
    (hw : 0 < w) (h0 : A.dims ≠ []) :
    rtPrintElements F st par thread A w = .ok ((runtimeElementLines w A.dims fun i => elementText F A.dims.length (f i)).flatMap
      (indented (threadHeader par thread) k)) := by
  unfold rtPrintElements
  match hd : A.dims with
  | [] => exact absurd hd h0
  | [d] =>
    obtain ⟨hsz, hat⟩ := hA.at1 d hd
    simp only [List.length_cons, List.length_nil, runtimeElementLines]
    rw [hsz]
    have step : ∀ (s : List UInt8), ∀ i ∈ List.range d, (do
        let v ← A.at1 (i : Nat)
        return s ++ println st .stream par thread (ascii ['('] ++ decimal i ++ ascii [')', ':', ' '] ++ F.value F.big1 v))
        = Outcome.ok (s ++ indented (threadHeader par thread) k ([40] ++ decimal i ++ [41, 58, 32] ++ elementText F 1 (f [i]))) := by
      intro s i hi
      have ht := value_eq F 1 (f [i])
      rw [if_neg (by decide), if_pos rfl] at ht
      rw [hat i (List.mem_range.1 hi)]
      simp only [Outcome.ok_bind]
      have e : ascii ['('] ++ decimal i ++ ascii [')', ':', ' '] ++ F.value F.big1 (f [i]) =
          [40] ++ decimal i ++ [41, 58, 32] ++ elementText F 1 (f [i]) := by
        rw [ht]; rfl
      rw [e, println_indented h hs par thread (isLines_one ?_ ?_)]
      · simp [Pure.pure]
      · simp only [List.mem_append, not_or]
        exact ⟨⟨⟨by decide, decimal_no_nl i⟩, by decide⟩, elementText_no_nl hF _ _⟩
      · simp
    refine (foldlM_texts _ step []).trans ?_
    rw [List.nil_append, List.flatMap_map]
  | d :: e :: ds =>
    simp only [List.length_cons, runtimeElementLines]
    have hsplit : d :: e :: ds = (d :: e :: ds).dropLast ++ [(d :: e :: ds).getLast?.getD 0] := by
      rw [List.getLast?_eq_getLast_of_ne_nil (by simp)]
      exact (List.dropLast_append_getLast (by simp)).symm
    have htake : (d :: e :: ds).take (ds.length + 1) = (d :: e :: ds).dropLast := by
      rw [List.dropLast_eq_take]; rfl
    have hget : (d :: e :: ds).getD (ds.length + 1) 0 = (d :: e :: ds).getLast?.getD 0 := by
      rw [List.getLast?_eq_getElem?, List.getD_eq_getElem?_getD]; rfl
    rw [htake, hget, box_eq_map, dimsToStrides_fst]
    generalize (d :: e :: ds).getLast?.getD 0 = n at *
    have step : ∀ (s : List UInt8), ∀ p ∈ List.range (numel (d :: e :: ds).dropLast), (do
        let row ← rtPrintCells F A w n (sentinelToIndices p (dimsToStrides (d :: e :: ds).dropLast).2)
        return s ++ println st .stream par thread row ++ blankLine st par thread) =
        Outcome.ok (s ++ (fun pre => (rowLinesWith (fun first last => runtimeLabel pre first last (Nat.digits 10 n).length) w n
          (fun j => elementText F (ds.length + 1 + 1) (f (pre ++ [j]))) ++ [[]]).flatMap
          (indented (threadHeader par thread) k)) (sentinelToIndices p (dimsToStrides (d :: e :: ds).dropLast).2)) := by
      intro s p hp
      have hmem : sentinelToIndices p (dimsToStrides (d :: e :: ds).dropLast).2 ∈ box (d :: e :: ds).dropLast := by
        rw [box_eq_map]
        exact List.mem_map_of_mem hp
      generalize sentinelToIndices p (dimsToStrides (d :: e :: ds).dropLast).2 = pre at *
      have hin := mem_box.1 hmem
      have hne : pre ≠ [] := by
        rintro rfl
        have := hin.length
        simp at this
      have cells : rtPrintCells F A w n pre = .ok ([] ++ (List.range n).flatMap
          (cellTextWith (fun first last => runtimeLabel pre first last (Nat.digits 10 n).length) w n
            fun j => elementText F (ds.length + 1 + 1) (f (pre ++ [j])))) := by
        unfold rtPrintCells
        apply foldlM_texts
        intro s j hj
        rw [rtPrintCell_eq (F := F) hA hw hne (List.mem_range.1 hj) (by
          rw [hd, hsplit]
          exact inBox_snoc hin (List.mem_range.1 hj)) (by rw [hd]; simp)]
        simp only [Outcome.ok_bind, hd, List.length_cons]
        rfl
      rw [cells]
      simp only [Outcome.ok_bind, List.nil_append]
      rw [println_indented h hs par thread (cells_linesWith _ (fun _ _ => runtimeLabel_no_nl _ _ _ _)
        (fun _ _ => runtimeLabel_ne_nil _ _ _ _) w n hw _ fun j => elementText_no_nl hF _ _), blankLine_indented h hs]
      simp [Pure.pure]
    refine (foldlM_texts _ step []).trans ?_
    rw [List.nil_append, List.flatMap_assoc, List.flatMap_map]

theorem printRuntime_eq (F : NumText R) {k : Nat} {st : PrintState} (inv : IndentInv k st) (hs : st.suppress = false) (par : Bool)
    (thread : Nat) (name kind dataType : List UInt8) (w : Nat) (full : Bool) (A : RtPrinted R) (f : List Nat → R)
    (hA : Shows A f) (hw : 0 < w) (hF : OneLine F) (h1 : (10 : UInt8) ∉ name) (h2 : (10 : UInt8) ∉ kind)
    (h3 : (10 : UInt8) ∉ dataType) (h0 : full = true → A.dims ≠ []) :
    printRuntime F st par thread name kind dataType w full A = .ok (
      indented (threadHeader par thread) k (ascii ['N', 'a', 'm', 'e', ':', ' '] ++ name) ++
      (runtimeLines F kind dataType w full A.dims A.strides f).flatMap
        (indented (threadHeader par thread) (if thread = 0 then k + 1 else k)) ++
      indented (threadHeader par thread) k []) := by
  have back := deindent_indent inv thread
  have inv' := indentInv_indent inv thread
  have hs' := suppress_indent hs thread
  generalize hk' : (if thread = 0 then k + 1 else k) = k' at *
  have one := println_one inv' hs' par thread
  have two : ∀ (a b c : List UInt8), (10 : UInt8) ∉ a → (10 : UInt8) ∉ b → (10 : UInt8) ∉ c → a ≠ [] →
      println (st.indent thread) .stream par thread (a ++ b ++ c) = indented (threadHeader par thread) k' (a ++ b ++ c) := by
    intro a b c ha hb hc h0
    rw [List.append_assoc]
    exact one a (b ++ c) ha (by simp [hb, hc]) h0
  unfold printRuntime rtPrintBody
  simp only
  rw [back, println_one inv hs par thread _ _ (by decide) h1 (by decide), one _ _ (by decide) h2 (by decide),
    one _ _ (by decide) h3 (by decide),
    two _ _ _ (by decide) (numbersText_no_nl _) (by decide) (by decide),
    two _ _ _ (by decide) (numbersText_no_nl _) (by decide) (by decide),
    blankLine_indented inv hs, blankLine_indented inv' hs']
  have e0 : (0 < A.dims.length) = ¬ A.dims = [] := by
    rw [List.length_pos_iff]
  cases full
  · by_cases hd : A.dims = []
    · simp [runtimeLines, tensorLines, hd]
    · simp [runtimeLines, tensorLines, hd, e0, numbersText, List.flatMap_def]
  · have hd := h0 rfl
    rw [rtPrintElements_eq hF inv' hs' par thread hA hw hd]
    simp [runtimeLines, tensorLines, hd, e0, numbersText, List.flatMap_def]

/-! ### The property -/

/-- **C166 (tensors, partial).** After any history of indentations, whatever the thread, `println` of a runtime tensor that shows the
elements `f` writes: the name; then, one level deeper (if the thread is the master thread), the type, the dimensions and the strides
and, if wanted, the elements; and an empty line.  The elements are those of `runtimeElementLines`: every element once, in row-major
order, in lines of `width` elements, each labelled with its indices.  The indentation is left as it was.
Missing: rank 0 with the elements (refuted below), widths that are not positive (refuted below). -/
theorem C166_tensor_partial (F : NumText R) (ops : List IndentOp) (par : Bool) (thread : Nat) (name kind dataType : List UInt8)
    (w : Nat) (full : Bool) (t : Strided R) (ht : t.IsTensor) (f : List Nat → R) (hf : t.Represents f) (hw : 0 < w)
    (hF : OneLine F) (h1 : (10 : UInt8) ∉ name) (h2 : (10 : UInt8) ∉ kind) (h3 : (10 : UInt8) ∉ dataType)
    (h0 : full = true → t.dims ≠ []) :
    ∃ (level : Nat) (header : List UInt8), (runIndent ops .init).indentLevel = 4 * level ∧ (par = false → header = []) ∧
      printRuntime F (runIndent ops .init) par thread name kind dataType w full t.printed = .ok (
        indented header level (ascii ['N', 'a', 'm', 'e', ':', ' '] ++ name) ++
        (runtimeLines F kind dataType w full t.dims t.strides f).flatMap
          (indented header (if thread = 0 then level + 1 else level)) ++
        indented header level []) ∧
      ((runIndent ops .init).indent thread).deindent thread = runIndent ops .init := by
  obtain ⟨k, inv, hsup, _⟩ := indentInv_run ops 0 _ indentInv_init
  exact ⟨k, threadHeader par thread, inv.level, by rintro rfl; rfl,
    printRuntime_eq F inv hsup par thread name kind dataType w full _ f (shows_tensor ht hf) hw hF h1 h2 h3 h0, deindent_indent inv thread⟩

/-- **C166 (views, partial).** The same for views, whatever their strides and their place in the storage. -/
theorem C166_view_partial (F : NumText R) (ops : List IndentOp) (par : Bool) (thread : Nat) (name kind dataType : List UInt8)
    (w : Nat) (full : Bool) (v : RtView R) (hv : v.WF) (f : List Nat → R) (hf : v.view.Represents f) (hw : 0 < w)
    (hF : OneLine F) (h1 : (10 : UInt8) ∉ name) (h2 : (10 : UInt8) ∉ kind) (h3 : (10 : UInt8) ∉ dataType)
    (h0 : full = true → v.view.dims ≠ []) :
    ∃ (level : Nat) (header : List UInt8), (runIndent ops .init).indentLevel = 4 * level ∧ (par = false → header = []) ∧
      printRuntime F (runIndent ops .init) par thread name kind dataType w full v.printed = .ok (
        indented header level (ascii ['N', 'a', 'm', 'e', ':', ' '] ++ name) ++
        (runtimeLines F kind dataType w full v.view.dims v.view.strides f).flatMap
          (indented header (if thread = 0 then level + 1 else level)) ++
        indented header level []) ∧
      ((runIndent ops .init).indent thread).deindent thread = runIndent ops .init := by
  obtain ⟨k, inv, hsup, _⟩ := indentInv_run ops 0 _ indentInv_init
  exact ⟨k, threadHeader par thread, inv.level, by rintro rfl; rfl,
    printRuntime_eq F inv hsup par thread name kind dataType w full _ f (shows_view hv hf) hw hF h1 h2 h3 h0, deindent_indent inv thread⟩

/-- **C166 (refuted: scalars).** A runtime tensor of rank 0, and every view of rank 0, cannot be printed with its element: the
function asks for `A(0)`, which has one index too many. -/
theorem C166_scalar_refuted (F : NumText R) (st : PrintState) (par : Bool) (thread : Nat) (name kind dataType : List UInt8)
    (width : Int) :
    (∀ t : Strided R, t.IsTensor → t.dims = [] →
      (printRuntime F st par thread name kind dataType width true t.printed).isError = true) ∧
    (∀ v : RtView R, v.WF → v.view.dims = [] →
      (printRuntime F st par thread name kind dataType width true v.printed).isError = true) := by
  have key : ∀ A : RtPrinted R, A.dims = [] → (A.at1 0).isError = true →
      (printRuntime F st par thread name kind dataType width true A).isError = true := by
    intro A hd he
    cases h : A.at1 0 with
    | ok v => rw [h] at he; simp [Outcome.isError] at he
    | ub v => rw [h] at he; simp [Outcome.isError] at he
    | error e =>
      unfold printRuntime rtPrintBody rtPrintElements
      simp [hd, h, Outcome.isError]
  refine ⟨fun t _ hd => key _ hd ?_, fun v _ hd => key _ hd ?_⟩
  · show (rtGetInts t [(0 : Int)]).isError = true
    rw [rtGetInts, if_neg (by simp [hd]), if_pos (by simp [hd])]
    rfl
  · show (rtvGetInts v [(0 : Int)]).isError = true
    rw [rtvGetInts, if_neg (by simp [hd]), if_pos (by simp [hd])]
    rfl

/-- There are such tensors: the one the constructor makes of no dimensions. -/
example : rtNew (fun _ => 7) [] = (⟨[7], 0, [], []⟩ : Strided Nat) ∧ (⟨[7], 0, [], []⟩ : Strided Nat).IsTensor :=
  ⟨by decide, ⟨rfl, rfl, rfl⟩⟩

/-- **C166 (refuted: width 0).** For every runtime tensor or view of rank two or more that has elements, `width = 0` divides by zero. -/
theorem C166_zero_width_refuted (F : NumText R) (st : PrintState) (par : Bool) (thread : Nat) (name kind dataType : List UInt8)
    (A : RtPrinted R) (hr : 2 ≤ A.dims.length) (hpos : ∀ d ∈ A.dims, 0 < d) :
    ∃ msg, printRuntime F st par thread name kind dataType 0 true A = .ub msg := by
  suffices h : ∀ st, ∃ msg, rtPrintElements F st par thread A 0 = .ub msg by
    obtain ⟨msg, h⟩ := h (st.indent thread)
    refine ⟨msg, ?_⟩
    unfold printRuntime rtPrintBody
    simp only [if_true]
    rw [h]
    rfl
  intro st
  refine ⟨"remainder of a division by zero", ?_⟩
  obtain ⟨r, hr'⟩ : ∃ r, A.dims.length = r + 2 := ⟨A.dims.length - 2, by omega⟩
  have hn : 0 < A.dims.getD (r + 1) 0 := by
    rw [List.getD_eq_getElem?_getD, List.getElem?_eq_getElem (by omega)]
    exact hpos _ (List.getElem_mem _)
  obtain ⟨n, hn⟩ : ∃ n, A.dims.getD (r + 1) 0 = n + 1 := ⟨A.dims.getD (r + 1) 0 - 1, by omega⟩
  have hm : ∀ ds : List Nat, (∀ d ∈ ds, 0 < d) → 0 < numel ds := by
    intro ds
    induction ds with
    | nil => intro _; simp [numel]
    | cons d ds ih =>
      intro h
      exact Nat.mul_pos (h d (by simp)) (ih fun e he => h e (by simp [he]))
  have hm' := hm (A.dims.take (r + 1)) fun d hd => hpos d (List.mem_of_mem_take hd)
  obtain ⟨m, hm''⟩ : ∃ m, numel (A.dims.take (r + 1)) = m + 1 := ⟨numel (A.dims.take (r + 1)) - 1, by omega⟩
  have hc : ∀ x, rtPrintCells F A 0 (n + 1) x = .ub "remainder of a division by zero" := by
    intro x
    unfold rtPrintCells
    rw [List.range_succ_eq_map, List.foldlM_cons]
    unfold rtPrintCell
    rw [if_pos rfl]
    rfl
  unfold rtPrintElements
  simp only [hr']
  rw [dimsToStrides_fst, hm'', List.range_succ_eq_map, List.foldlM_cons, hn, hc]
  rfl

/-- A 2×3 runtime tensor, two columns per line, printed at level 1 by the master thread outside parallel regions; a view of rank 0. -/
example : (∃ s, printRuntime natText (runIndent [.indent 0] .init) false 0 [65] [66] [67] 2 true
      (⟨[1, 2, 3, 4, 5, 60], 0, [2, 3], [3, 1]⟩ : Strided Nat).printed = .ok s) ∧
    runtimeElementLines 2 [2, 3] (fun i => elementText natText 2 ([1, 2, 3, 4, 5, 60].getD (rowMajor i [2, 3]) 0)) =
      [runtimeLabel [0] 0 1 1 ++ (decimal 1 ++ decimal 2), runtimeLabel [0] 2 2 1 ++ decimal 3, [],
       runtimeLabel [1] 0 1 1 ++ (decimal 4 ++ decimal 5),
       runtimeLabel [1] 2 2 1 ++ ([27, 91, 48, 59, 51, 55, 59, 52, 49, 109] ++ decimal 60 ++ [27, 91, 48, 109]), []] := by
  have t : (⟨[1, 2, 3, 4, 5, 60], 0, [2, 3], [3, 1]⟩ : Strided Nat).IsTensor := ⟨rfl, rfl, rfl⟩
  obtain ⟨_, _, _, _, h, _⟩ := C166_tensor_partial natText [.indent 0] false 0 [65] [66] [67] 2 true
    ⟨[1, 2, 3, 4, 5, 60], 0, [2, 3], [3, 1]⟩ t (fun i => [1, 2, 3, 4, 5, 60].getD (rowMajor i [2, 3]) 0)
    (t.represents_iff.2 (by decide)) (by decide) (fun v => ⟨decimal_no_nl v, decimal_no_nl v⟩) (by decide) (by decide) (by decide)
    (by decide)
  refine ⟨⟨_, h⟩, ?_⟩
  simp [runtimeElementLines, rowLinesWith, elementText, natText, rowMajor, List.range_succ, List.range', box]

/-- A row of a matrix is printed element by element. -/
example : ∃ s, printRuntime natText (runIndent [] .init) false 0 [65] [66] [67] 7 true row0.printed = .ok s := by
  obtain ⟨_, _, _, _, h, _⟩ := C166_view_partial natText [] false 0 [65] [66] [67] 7 true row0 row0_wf
    (fun i => i.getD 0 0) (by
      intro i hi
      match i, hi with
      | [a], hi =>
        have : a < 3 := hi.1
        interval_cases a <;> decide) (by decide)
    (fun v => ⟨decimal_no_nl v, decimal_no_nl v⟩) (by decide) (by decide) (by decide) (by decide)
  exact ⟨_, h⟩

end Einsums.Props
