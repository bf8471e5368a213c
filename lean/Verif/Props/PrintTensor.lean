import Verif.Props.Print
import Verif.Props.Stl
import Verif.Proofs.Tensor
import Verif.Proofs.Index
import Verif.Spec.PrintTensor
/-
C160: a printed tensor shows every element once, in its place.
-/
namespace Einsums.Props
open Spec Model

variable {R : Type}

/-! ### Texts without newlines -/

theorem decimal_no_nl (n : Nat) : (10 : UInt8) ∉ decimal n := by
  unfold decimal
  split
  · decide
  · rw [List.mem_reverse, List.mem_map]
    rintro ⟨d, hd, e⟩
    have hlt := Nat.digits_lt_base (b := 10) (by omega) hd
    have : (UInt8.ofNat (48 + d)).toNat = 48 + d := by
      rw [UInt8.toNat_ofNat']; omega
    rw [e] at this
    simp at this
    omega

theorem tupleText_eq (is : List Nat) : tupleText is = commaList is := by
  induction is with
  | nil => rfl
  | cons i is ih =>
    cases is with
    | nil => simp [tupleText, commaList]
    | cons j is =>
      rw [tupleText, ih]
      simp [commaList, ascii]

theorem commaList_no_nl (is : List Nat) : (10 : UInt8) ∉ commaList is := by
  rw [← tupleText_eq]
  induction is with
  | nil => simp [tupleText]
  | cons i is ih =>
    cases is with
    | nil => exact decimal_no_nl i
    | cons j is =>
      rw [tupleText, List.mem_append, List.mem_append]
      rintro ((h | h) | h)
      · exact decimal_no_nl i h
      · exact absurd h (by decide)
      · exact ih h

theorem labelText_eq (pre : List Nat) (a b nd : Nat) : labelText pre a b nd = lineLabel pre a b nd := by
  unfold labelText lineLabel padRight padLeft decimalInt rightAligned
  rw [tupleText_eq, if_neg (by omega), if_neg (by omega)]
  rfl

theorem lineLabel_no_nl (pre : List Nat) (a b nd : Nat) : (10 : UInt8) ∉ lineLabel pre a b nd := by
  have hr : ∀ w n, (10 : UInt8) ∉ rightAligned w n := by
    intro w n
    unfold rightAligned
    rw [List.mem_append, List.mem_replicate]
    rintro (h | h)
    · exact absurd h.2 (by decide)
    · exact decimal_no_nl n h
  unfold lineLabel
  simp only [List.mem_append, List.mem_replicate, not_or]
  refine ⟨⟨⟨⟨⟨⟨⟨by decide, commaList_no_nl pre⟩, by decide⟩, hr _ _⟩, by decide⟩, hr _ _⟩, by decide⟩, ?_⟩
  exact fun h => absurd h.2 (by decide)

theorem lineLabel_ne_nil (pre : List Nat) (a b nd : Nat) : lineLabel pre a b nd ≠ [] := by
  unfold lineLabel; simp

theorem numbersText_no_nl (ds : List Nat) : (10 : UInt8) ∉ numbersText ds := by
  unfold numbersText
  rw [List.mem_flatMap]
  rintro ⟨d, _, h⟩
  rw [List.mem_append] at h
  rcases h with h | h
  · exact decimal_no_nl d h
  · exact absurd h (by decide)

/-- Neither way to write a number contains a newline. -/
def OneLine (F : NumText R) : Prop := ∀ v, (10 : UInt8) ∉ F.fixed v ∧ (10 : UInt8) ∉ F.sci v

theorem value_eq (F : NumText R) (r : Nat) (v : R) :
    F.value (if r = 0 then fun _ => false else if r = 1 then F.big1 else F.big) v = elementText F r v := by
  unfold NumText.value elementText
  by_cases h0 : r = 0
  · simp [h0]
  · by_cases h1 : r = 1
    · simp [h1, ascii]
    · simp [h0, h1, ascii]

theorem elementText_no_nl {F : NumText R} (h : OneLine F) (r : Nat) (v : R) : (10 : UInt8) ∉ elementText F r v := by
  unfold elementText
  generalize (if r = 0 then false else if r = 1 then F.big1 v else F.big v) = b
  cases b
  · simp only [Bool.false_eq_true, if_false]
    split
    · exact (h v).2
    · exact (h v).1
  · simp only [if_true, List.mem_append, not_or]
    exact ⟨⟨by decide, (h v).1⟩, by decide⟩

/-! ### Rows -/

/-- The columns, line by line. -/
theorem range_rows (w n : Nat) (hw : 0 < w) :
    List.range n = (List.range ((n + w - 1) / w)).flatMap fun k => List.range' (k * w) (min w (n - k * w)) := by
  have key : ∀ k, List.range (min (k * w) n) = (List.range k).flatMap fun k => List.range' (k * w) (min w (n - k * w)) := by
    intro k
    induction k with
    | zero => simp
    | succ k ih =>
      rw [List.range_succ, List.flatMap_append, ← ih]
      simp only [List.flatMap_cons, List.flatMap_nil, List.append_nil]
      have e : (k + 1) * w = k * w + w := by ring
      by_cases h : k * w ≤ n
      · rw [Nat.min_eq_left h, List.range_eq_range', List.range_eq_range']
        have : min ((k + 1) * w) n = k * w + min w (n - k * w) := by omega
        rw [this]
        have := List.range'_append (s := 0) (m := k * w) (n := min w (n - k * w)) (step := 1)
        simp only [one_mul, Nat.zero_add] at this
        exact this.symm
      · have h1 : min ((k + 1) * w) n = n := by omega
        have h2 : min (k * w) n = n := by omega
        have h3 : n - k * w = 0 := by omega
        rw [h1, h2, h3]; simp
  rw [← key]
  congr 1
  have := Nat.lt_mul_div_succ (n + w - 1) hw
  have e : w * ((n + w - 1) / w + 1) = (n + w - 1) / w * w + w := by ring
  omega

/-- A label before the first and a newline after the last element of a line. -/
theorem flatMap_line (a c : Nat) (L N : List UInt8) (V cell : Nat → List UInt8)
    (h : ∀ j, a ≤ j → j < a + (c + 1) → cell j = (if j = a then L else []) ++ V j ++ (if j = a + c then N else [])) :
    (List.range' a (c + 1)).flatMap cell = L ++ (List.range' a (c + 1)).flatMap V ++ N := by
  have pass : ∀ c', c' ≤ c → (List.range' a (c' + 1)).flatMap cell =
      L ++ (List.range' a (c' + 1)).flatMap V ++ (if c' = c then N else []) := by
    intro c'
    induction c' with
    | zero =>
      intro hc
      have := h a (by omega) (by omega)
      by_cases h0 : c = 0
      · subst h0; simpa using this
      · have : cell a = L ++ V a := by
          rw [this, if_pos rfl, if_neg (by omega)]; simp
        simp [this, Ne.symm h0]
    | succ c' ih =>
      intro hc
      rw [List.range'_concat, List.flatMap_append, List.flatMap_append, ih (by omega), if_neg (by omega)]
      have := h (a + (c' + 1)) (by omega) (by omega)
      rw [if_neg (by omega)] at this
      simp only [one_mul, List.flatMap_cons, List.flatMap_nil, List.append_nil, this, List.nil_append]
      by_cases h0 : c' + 1 = c
      · rw [if_pos (by omega), if_pos h0]; simp
      · rw [if_neg (by omega), if_neg h0]; simp
  have := pass c le_rfl
  rwa [if_pos rfl] at this

theorem notShort_eq (n j w : Nat) : notShort n j w = decide (j + w ≤ n) := by
  unfold notShort
  rw [if_neg (by omega)]
  congr 1
  exact propext (by omega)

/-- What an iteration adds to the text, for a positive width. -/
def cellTextWith (label : Nat → Nat → List UInt8) (w n : Nat) (text : Nat → List UInt8) (j : Nat) : List UInt8 :=
  (if j % w = 0 then label j (min (j + w) n - 1) else []) ++ text j ++
    (if j % w = w - 1 ∧ j ≠ n - 1 then [10] else [])

/-- The same with the labels of tensors. -/
def cellText (w n : Nat) (pre : List Nat) (text : Nat → List UInt8) (j : Nat) : List UInt8 :=
  cellTextWith (fun first last => lineLabel pre first last (Nat.digits 10 n).length) w n text j

theorem ndigits_eq (n : Nat) : ndigits n = (Nat.digits 10 n).length := by
  unfold ndigits
  rw [(ndigitsLoop_eq n _).1, if_neg (by omega)]; simp

theorem printCell_eq {F : NumText R} {A : Strided R} {f : List Nat → R} (hA : A.Represents f) {w n : Nat} (hw : 0 < w)
    {pre : List Nat} {j : Nat} (hj : j < n) (hi : InBox (pre ++ [j]) A.dims) (hr : 2 ≤ A.dims.length) :
    printCell F A w n pre j = .ok (cellText w n pre (fun j => elementText F A.dims.length (f (pre ++ [j]))) j) := by
  unfold printCell cellText cellTextWith
  rw [if_neg (by omega), hA _ hi]
  simp only [Outcome.ok_bind]
  have hv := value_eq F A.dims.length (f (pre ++ [j]))
  rw [if_neg (by omega), if_neg (by omega)] at hv
  have e1 : ((j : Int).tmod w = 0) = (j % w = 0) := by
    rw [← Int.ofNat_tmod j w]
    exact propext (by omega)
  have e2 : ((j : Int).tmod w = (w : Int) - 1 ∧ j ≠ n - 1) = (j % w = w - 1 ∧ j ≠ n - 1) := by
    rw [← Int.ofNat_tmod j w]
    exact propext (by omega)
  have e3 : labelText pre j (if notShort n j w then (j : Int) + w - 1 else n - 1) (ndigits n)
      = lineLabel pre j (min (j + w) n - 1) (Nat.digits 10 n).length := by
    rw [← labelText_eq, ndigits_eq n, notShort_eq]
    congr 1
    by_cases h : j + w ≤ n
    · simp [h]; omega
    · simp [h]; omega
  rw [hv, e3]
  simp only [e1, e2]
  rfl

/-- A fold that adds texts. -/
theorem foldlM_texts {ι : Type} {step : List UInt8 → ι → Outcome (List UInt8)} {t : ι → List UInt8} (is : List ι)
    (h : ∀ s, ∀ i ∈ is, step s i = .ok (s ++ t i)) (s : List UInt8) :
    is.foldlM step s = .ok (s ++ is.flatMap t) := by
  induction is generalizing s with
  | nil => simp [Pure.pure]
  | cons i is ih =>
    rw [List.foldlM_cons, h s i (by simp)]
    simp only [Outcome.ok_bind]
    rw [List.flatMap_cons, ← List.append_assoc]
    exact ih (fun s j hj => h s j (by simp [hj])) (s ++ t i)

theorem cells_linesWith (label : Nat → Nat → List UInt8) (hlab : ∀ a b, (10 : UInt8) ∉ label a b) (hlab0 : ∀ a b, label a b ≠ [])
    (w n : Nat) (hw : 0 < w) (text : Nat → List UInt8) (ht : ∀ j, (10 : UInt8) ∉ text j) :
    IsLines ((List.range n).flatMap (cellTextWith label w n text)) (rowLinesWith label w n text) := by
  refine ⟨?_, ?_⟩
  · intro l hl
    unfold rowLinesWith at hl
    rw [List.mem_map] at hl
    obtain ⟨k, _, rfl⟩ := hl
    rw [List.mem_append]
    rintro (h | h)
    · exact hlab _ _ h
    · rw [List.mem_flatMap] at h
      obtain ⟨j, _, h⟩ := h
      exact ht j h
  · by_cases hn : n = 0
    · subst hn
      left
      rw [rowLinesWith, Nat.div_eq_of_lt (by omega)]
      rfl
    right
    obtain ⟨K, hK⟩ : ∃ K, (n + w - 1) / w = K + 1 :=
      ⟨(n + w - 1) / w - 1, by have := Nat.div_pos (a := n + w - 1) (b := w) (by omega) hw; omega⟩
    have hK1 : K * w < n := by
      have := Nat.div_mul_le_self (n + w - 1) w
      rw [hK] at this
      have e : (K + 1) * w = K * w + w := by ring
      omega
    have hK2 : n ≤ (K + 1) * w := by
      have := Nat.lt_mul_div_succ (n + w - 1) hw
      rw [hK] at this
      have e : w * (K + 1 + 1) = (K + 1) * w + w := by ring
      omega
    have row : ∀ k, k ≤ K → (List.range' (k * w) (min w (n - k * w))).flatMap (cellTextWith label w n text) =
        (label (k * w) (min ((k + 1) * w) n - 1) ++
          (List.range' (k * w) (min w (n - k * w))).flatMap text) ++ (if k = K then [] else [10]) := by
      intro k hk
      have hkw : k * w ≤ K * w := Nat.mul_le_mul_right w hk
      have ek : (k + 1) * w = k * w + w := by ring
      obtain ⟨c, hc⟩ : ∃ c, min w (n - k * w) = c + 1 := ⟨min w (n - k * w) - 1, by omega⟩
      rw [hc]
      apply flatMap_line
      intro j h1 h2
      have hm : j % w = j - k * w := by
        have : j = (j - k * w) + k * w := by omega
        rw [this, Nat.add_mul_mod_self_right, Nat.mod_eq_of_lt (by omega)]
        omega
      unfold cellTextWith
      rw [hm]
      congr 1
      · congr 1
        by_cases h : j = k * w
        · rw [if_pos (by omega), if_pos h, h, ek]
        · rw [if_neg (by omega), if_neg h]
      · by_cases hkK : k = K
        · subst hkK
          have : ¬(j - k * w = w - 1 ∧ j ≠ n - 1) := by omega
          rw [if_neg this, if_pos rfl]; simp
        · have hk1 : (k + 1) * w ≤ K * w := Nat.mul_le_mul_right w (by omega)
          rw [if_neg hkK]
          by_cases h : j = k * w + c
          · rw [if_pos (by omega), if_pos h]
          · rw [if_neg (by omega), if_neg h]
    constructor
    · rw [range_rows w n hw, hK, List.flatMap_assoc, rowLinesWith, hK, List.flatMap_map, List.range_succ, List.flatMap_append,
        List.flatMap_append]
      simp only [List.flatMap_cons, List.flatMap_nil, List.append_nil]
      rw [row K le_rfl, if_pos rfl, List.append_nil, List.append_assoc]
      congr 1
      rw [List.flatMap_def, List.flatMap_def]
      congr 1
      apply List.map_congr_left
      intro k hk
      rw [List.mem_range] at hk
      rw [row k (by omega), if_neg (by omega)]
    · refine ⟨label (K * w) (min ((K + 1) * w) n - 1) ++
          (List.range' (K * w) (min w (n - K * w))).flatMap text, ?_, ?_⟩
      · rw [rowLinesWith, hK, List.range_succ, List.map_append]
        simp
      · simp [hlab0]

theorem cells_lines (w n : Nat) (hw : 0 < w) (pre : List Nat) (text : Nat → List UInt8)
    (ht : ∀ j, (10 : UInt8) ∉ text j) :
    IsLines ((List.range n).flatMap (cellText w n pre text)) (rowLines w n pre text) :=
  cells_linesWith _ (fun _ _ => lineLabel_no_nl _ _ _ _) (fun _ _ => lineLabel_ne_nil _ _ _ _) w n hw text ht

/-! ### Indented lines -/

/-- A line as it is written: the header of the thread, the indentation, the line, a newline. -/
def indented (header : List UInt8) (level : Nat) (l : List UInt8) : List UInt8 :=
  header ++ List.replicate (4 * level) 32 ++ l ++ [10]

/-- The header of a thread. -/
def threadHeader (par : Bool) (thread : Nat) : List UInt8 :=
  lineHeader PrintState.init par thread

theorem println_indented {k : Nat} {st : PrintState} (h : IndentInv k st) (hs : st.suppress = false) (par : Bool)
    (thread : Nat) {s : List UInt8} {ls : List (List UInt8)} (hl : IsLines s ls) :
    println st .stream par thread s = ls.flatMap (indented (threadHeader par thread) k) := by
  unfold println
  rw [if_neg (by simp [hs]), printLoop_lines _ _ _ _ hl]
  rw [List.flatMap_def, List.flatMap_def]
  congr 1
  apply List.map_congr_left
  intro l _
  simp [lineOutput, indented, threadHeader, lineHeader, h.string, PrintState.init]

theorem isLines_one {s : List UInt8} (h : (10 : UInt8) ∉ s) (h0 : s ≠ []) : IsLines s [s] :=
  ⟨by simpa using h, Or.inr ⟨by simp, s, rfl, h0⟩⟩

theorem blankLine_indented {k : Nat} {st : PrintState} (h : IndentInv k st) (hs : st.suppress = false) (par : Bool)
    (thread : Nat) : blankLine st par thread = indented (threadHeader par thread) k [] := by
  unfold blankLine
  rw [println_indented h hs par thread (ls := [[]]) ⟨by simp, Or.inl (by simp)⟩]
  simp

/-! ### The whole tensor -/

theorem flatMap_indented {ι : Type} (hd : List UInt8) (k : Nat) (is : List ι) (g : ι → List (List UInt8)) :
    (is.flatMap fun i => (g i).flatMap (indented hd k)) = (is.flatMap g).flatMap (indented hd k) := by
  rw [List.flatMap_assoc]

theorem inBox_snoc {pre : List Nat} {j d : Nat} {ds : List Nat} (h : InBox pre ds) (hj : j < d) :
    InBox (pre ++ [j]) (ds ++ [d]) := by
  induction ds generalizing pre with
  | nil =>
    have : pre = [] := by simpa [InBox_nil_right] using h
    subst this
    simpa [InBox_cons_right, InBox_nil_right] using hj
  | cons e ds ih =>
    rw [InBox_cons_right] at h
    obtain ⟨x, xs, rfl, hx, hxs⟩ := h
    rw [List.cons_append, List.cons_append, InBox_cons_right]
    exact ⟨x, _, rfl, hx, ih hxs⟩

/-- The elements of a tensor. -/
theorem printElements_eq {F : NumText R} (hF : OneLine F) {k : Nat} {st : PrintState} (h : IndentInv k st)
    (hs : st.suppress = false) (par : Bool) (thread : Nat) {A : Strided R} {f : List Nat → R} (hA : A.Represents f) {w : Nat}
    (hw : 0 < w) :
    printElements F st par thread A w = .ok ((elementLines w A.dims fun i => elementText F A.dims.length (f i)).flatMap
      (indented (threadHeader par thread) k)) := by
  unfold printElements
  match hd : A.dims with
  | [] =>
    have hv : A.read [] = .ok (f []) := hA [] (by rw [hd]; simp [InBox_nil_right])
    have ht := value_eq F 0 (f [])
    rw [if_pos rfl] at ht
    simp only [List.length_nil, hv, Outcome.ok_bind, elementLines]
    rw [ht, println_indented h hs par thread (isLines_one (s := List.replicate 14 32 ++ elementText F 0 (f [])) (by
      rw [List.mem_append, List.mem_replicate]
      rintro (h | h)
      · exact absurd h.2 (by decide)
      · exact elementText_no_nl hF _ _ h) (by simp)), blankLine_indented h hs]
    simp [Pure.pure]
  | [d] =>
    simp only [List.length_cons, List.length_nil, elementLines]
    rw [cartesian_eq_box]
    have step : ∀ (s : List UInt8), ∀ i ∈ box [d], (do
        let v ← A.read (toIdx i)
        return s ++ println st .stream par thread (ascii ['('] ++ tupleText i ++ ascii [')', ':', ' '] ++ F.value F.big1 v))
        = Outcome.ok (s ++ indented (threadHeader par thread) k ([40] ++ commaList i ++ [41, 58, 32] ++ elementText F 1 (f i))) := by
      intro s i hi
      have hv := hA i (by rw [hd]; exact mem_box.1 hi)
      have ht := value_eq F 1 (f i)
      rw [if_neg (by decide), if_pos rfl] at ht
      rw [hv]
      simp only [Outcome.ok_bind]
      have e : ascii ['('] ++ tupleText i ++ ascii [')', ':', ' '] ++ F.value F.big1 (f i) =
          [40] ++ commaList i ++ [41, 58, 32] ++ elementText F 1 (f i) := by
        rw [ht, tupleText_eq]; rfl
      rw [e, println_indented h hs par thread (isLines_one ?_ ?_)]
      · simp [Pure.pure]
      · simp only [List.mem_append, not_or]
        exact ⟨⟨⟨by decide, commaList_no_nl i⟩, by decide⟩, elementText_no_nl hF _ _⟩
      · simp
    refine (foldlM_texts _ step []).trans ?_
    rw [List.nil_append]
    congr 1
    simp [box, List.flatMap_map, List.flatMap_assoc, commaList]
  | d :: e :: ds =>
    have hlen : (d :: e :: ds).length = ds.length + 2 := rfl
    simp only [List.length_cons, elementLines]
    rw [cartesian_eq_box]
    have hsplit : d :: e :: ds = (d :: e :: ds).dropLast ++ [(d :: e :: ds).getLast?.getD 0] := by
      rw [List.getLast?_eq_getLast_of_ne_nil (by simp)]
      exact (List.dropLast_append_getLast (by simp)).symm
    have htake : (d :: e :: ds).take (ds.length + 1) = (d :: e :: ds).dropLast := by
      rw [List.dropLast_eq_take]; rfl
    have hget : (d :: e :: ds).getD (ds.length + 1) 0 = (d :: e :: ds).getLast?.getD 0 := by
      rw [List.getLast?_eq_getElem?, List.getD_eq_getElem?_getD]; rfl
    rw [htake, hget]
    generalize (d :: e :: ds).getLast?.getD 0 = n at *
    have step : ∀ (s : List UInt8), ∀ pre ∈ box (d :: e :: ds).dropLast, (do
        let row ← printCells F A w n pre
        return s ++ println st .stream par thread row ++ blankLine st par thread) =
        Outcome.ok (s ++ (rowLines w n pre (fun j => elementText F (ds.length + 1 + 1) (f (pre ++ [j]))) ++ [[]]).flatMap
          (indented (threadHeader par thread) k)) := by
      intro s pre hpre
      have cells : printCells F A w n pre = .ok ([] ++ (List.range n).flatMap
          (cellText w n pre fun j => elementText F (ds.length + 1 + 1) (f (pre ++ [j])))) := by
        unfold printCells
        apply foldlM_texts
        intro s j hj
        rw [printCell_eq (F := F) hA hw (List.mem_range.1 hj) (by
          rw [hd, hsplit]
          exact inBox_snoc (mem_box.1 hpre) (List.mem_range.1 hj)) (by rw [hd]; simp)]
        simp only [Outcome.ok_bind, hd, List.length_cons]
        rfl
      rw [cells]
      simp only [Outcome.ok_bind, List.nil_append]
      rw [println_indented h hs par thread (cells_lines w n hw pre _ fun j => elementText_no_nl hF _ _),
        blankLine_indented h hs]
      simp [Pure.pure]
    refine (foldlM_texts _ step []).trans ?_
    rw [List.nil_append, ← List.flatMap_assoc]

/-- Indenting raises the level if the thread is the master thread. -/
theorem indentInv_indent {k : Nat} {st : PrintState} (inv : IndentInv k st) (thread : Nat) :
    IndentInv (if thread = 0 then k + 1 else k) (st.indent thread) := by
  by_cases ht : thread = 0
  · simp only [ht, if_true, PrintState.indent]
    apply indentInv_update
    simp only [inv.level]; push_cast; ring
  · simpa [ht, PrintState.indent] using inv

theorem suppress_indent {st : PrintState} (hs : st.suppress = false) (thread : Nat) : (st.indent thread).suppress = false := by
  by_cases ht : thread = 0 <;> simp [PrintState.indent, ht, PrintState.updateIndentString, hs]

/-- Deindenting undoes indenting. -/
theorem deindent_indent {k : Nat} {st : PrintState} (inv : IndentInv k st) (thread : Nat) :
    (st.indent thread).deindent thread = st := by
  by_cases ht : thread = 0
  · obtain ⟨hl, hstr⟩ := inv
    cases st
    simp only [PrintState.indent, ht, if_true, PrintState.deindent, PrintState.updateIndentString] at *
    subst hl hstr
    have e : ¬ ((4 : Int) * k + 4 - 4 < 0) := by omega
    simp only [if_neg e, PrintState.mk.injEq, and_true]
    refine ⟨by omega, ?_⟩
    have e2 : ((4 : Int) * k + 4 - 4).toNat = 4 * k := by omega
    rw [e2]
    by_cases hk : k = 0
    · subst hk; simp
    · rw [if_pos (by omega)]
  · simp [PrintState.indent, PrintState.deindent, ht]

/-- What `println` of a tensor writes. -/
def tensorText (F : NumText R) (header : List UInt8) (level level' : Nat) (name kind dataType : List UInt8) (w : Nat) (full : Bool)
    (dims strides : List Nat) (f : List Nat → R) : List UInt8 :=
  indented header level (ascii ['N', 'a', 'm', 'e', ':', ' '] ++ name) ++
    (tensorLines F kind dataType w full dims strides f).flatMap (indented header level') ++ indented header level []

theorem println_one {k : Nat} {st : PrintState} (inv : IndentInv k st) (hs : st.suppress = false) (par : Bool) (thread : Nat)
    (a b : List UInt8) (ha : (10 : UInt8) ∉ a) (hb : (10 : UInt8) ∉ b) (h0 : a ≠ []) :
    println st .stream par thread (a ++ b) = indented (threadHeader par thread) k (a ++ b) := by
  rw [println_indented inv hs par thread (isLines_one (by simp [ha, hb]) (by simp [h0]))]
  simp

theorem printTensor_eq (F : NumText R) {k : Nat} {st : PrintState} (inv : IndentInv k st) (hs : st.suppress = false) (par : Bool)
    (thread : Nat) (name kind dataType : List UInt8) (w : Nat) (full : Bool) (A : Strided R) (f : List Nat → R)
    (hA : A.Represents f) (hw : 0 < w) (hF : OneLine F) (h1 : (10 : UInt8) ∉ name) (h2 : (10 : UInt8) ∉ kind)
    (h3 : (10 : UInt8) ∉ dataType) :
    printTensor F st par thread name kind dataType w full A = .ok (tensorText F (threadHeader par thread) k
      (if thread = 0 then k + 1 else k) name kind dataType w full A.dims A.strides f) := by
  have back := deindent_indent inv thread
  have inv' := indentInv_indent inv thread
  have hs' := suppress_indent hs thread
  generalize hk' : (if thread = 0 then k + 1 else k) = k' at *
  have one := println_one inv' hs' par thread
  have two : ∀ (a b c : List UInt8), (10 : UInt8) ∉ a → (10 : UInt8) ∉ b → (10 : UInt8) ∉ c → a ≠ [] →
      println (st.indent thread) .stream par thread (a ++ b ++ c) = indented (threadHeader par thread) k' (a ++ b ++ c) := by
    intro a b c ha hb hc h0
    rw [List.append_assoc]
    exact one a (b ++ c) ha (by simp [hb, hc]) h0
  unfold printTensor printBody tensorText
  simp only
  rw [back, println_one inv hs par thread _ _ (by decide) h1 (by decide), one _ _ (by decide) h2 (by decide),
    one _ _ (by decide) h3 (by decide),
    two _ _ _ (by decide) (numbersText_no_nl _) (by decide) (by decide),
    two _ _ _ (by decide) (numbersText_no_nl _) (by decide) (by decide),
    blankLine_indented inv hs, blankLine_indented inv' hs', printElements_eq hF inv' hs' par thread hA hw]
  have e0 : (0 < A.dims.length) = ¬ A.dims = [] := by
    rw [List.length_pos_iff]
  cases full
  · by_cases hd : A.dims = []
    · simp [tensorLines, hd]
    · simp [tensorLines, hd, e0, numbersText, List.flatMap_def]
  · by_cases hd : A.dims = []
    · simp [tensorLines, hd]
    · simp [tensorLines, hd, e0, numbersText, List.flatMap_def]

/-- **C160 (positive width).** After any history of indentations, whatever the thread, `println` of a tensor or view that shows
the elements `f` writes: the name; then, one level deeper (if the thread is the master thread), the type, the dimensions and
the strides and, if wanted, the elements; and an empty line.  The elements are those of `elementLines`: every element once, in
row-major order, in lines of `width` elements, each labelled with its indices.  The indentation is left as it was. -/
theorem C160_print (F : NumText R) (ops : List IndentOp) (par : Bool) (thread : Nat) (name kind dataType : List UInt8)
    (w : Nat) (full : Bool) (A : Strided R) (f : List Nat → R) (hA : A.Represents f) (hw : 0 < w)
    (hF : OneLine F) (h1 : (10 : UInt8) ∉ name) (h2 : (10 : UInt8) ∉ kind) (h3 : (10 : UInt8) ∉ dataType) :
    ∃ (level : Nat) (header : List UInt8), (runIndent ops .init).indentLevel = 4 * level ∧ (par = false → header = []) ∧
      printTensor F (runIndent ops .init) par thread name kind dataType w full A = .ok (
        indented header level (ascii ['N', 'a', 'm', 'e', ':', ' '] ++ name) ++
        (tensorLines F kind dataType w full A.dims A.strides f).flatMap
          (indented header (if thread = 0 then level + 1 else level)) ++
        indented header level []) ∧
      ((runIndent ops .init).indent thread).deindent thread = runIndent ops .init := by
  obtain ⟨k, inv, hsup, _⟩ := indentInv_run ops 0 _ indentInv_init
  exact ⟨k, threadHeader par thread, inv.level, by rintro rfl; rfl,
    printTensor_eq F inv hsup par thread name kind dataType w full A f hA hw hF h1 h2 h3, deindent_indent inv thread⟩

/-- **C160 (refuted: width 0).** For every tensor of rank two or more that has elements, `width = 0` divides by zero. -/
theorem C160_zero_width_refuted (F : NumText R) (st : PrintState) (par : Bool) (thread : Nat) (name kind dataType : List UInt8)
    (A : Strided R) (hr : 2 ≤ A.dims.length) (hpos : ∀ d ∈ A.dims, 0 < d) :
    ∃ msg, printTensor F st par thread name kind dataType 0 true A = .ub msg := by
  suffices h : ∀ st, ∃ msg, printElements F st par thread A 0 = .ub msg by
    obtain ⟨msg, h⟩ := h (st.indent thread)
    refine ⟨msg, ?_⟩
    unfold printTensor printBody
    simp only [if_true]
    rw [h]
    rfl
  intro st
  refine ⟨"remainder of a division by zero", ?_⟩
  obtain ⟨r, hr'⟩ : ∃ r, A.dims.length = r + 2 := ⟨A.dims.length - 2, by omega⟩
  have hbox : ∀ ds : List Nat, (∀ d ∈ ds, 0 < d) → ∃ x xs, box ds = x :: xs := by
    intro ds hds
    have hz : ds.map (fun _ => 0) ∈ box ds := by
      rw [mem_box]
      induction ds with
      | nil => simp [InBox_nil_right]
      | cons d ds ih =>
        rw [List.map_cons, InBox_cons_right]
        exact ⟨0, _, rfl, hds d (by simp), ih fun e he => hds e (by simp [he])⟩
    cases h : box ds with
    | nil => rw [h] at hz; cases hz
    | cons x xs => exact ⟨x, xs, rfl⟩
  obtain ⟨x, xs, hx⟩ := hbox (A.dims.take (r + 1)) fun d hd => hpos d (List.mem_of_mem_take hd)
  have hn : 0 < A.dims.getD (r + 1) 0 := by
    rw [List.getD_eq_getElem?_getD, List.getElem?_eq_getElem (by omega)]
    exact hpos _ (List.getElem_mem _)
  obtain ⟨n, hn⟩ : ∃ n, A.dims.getD (r + 1) 0 = n + 1 := ⟨A.dims.getD (r + 1) 0 - 1, by omega⟩
  have hc : printCells F A 0 (n + 1) x = .ub "remainder of a division by zero" := by
    unfold printCells
    rw [List.range_succ_eq_map, List.foldlM_cons]
    unfold printCell
    rw [if_pos rfl]
    rfl
  unfold printElements
  simp only [hr']
  rw [cartesian_eq_box, hx, List.foldlM_cons, hn, hc]
  rfl

/-- **C160 (refuted: negative widths).** With a negative width the line is never broken: however many columns there are, the text
for a combination of the indices but the last is a single line. -/
theorem C160_negative_width_refuted (F : NumText R) (A : Strided R) (f : List Nat → R) (hA : A.Represents f) (hF : OneLine F)
    (width : Int) (hw : width < 0) (n : Nat) (pre : List Nat) (hpre : ∀ j < n, InBox (pre ++ [j]) A.dims) :
    ∃ s, printCells F A width n pre = .ok s ∧ (10 : UInt8) ∉ s := by
  have hint : ∀ m : Int, (10 : UInt8) ∉ decimalInt m := by
    intro m
    unfold decimalInt
    split
    · rw [List.mem_cons]
      rintro (h | h)
      · exact absurd h (by decide)
      · exact decimal_no_nl _ h
    · exact decimal_no_nl _
  have hpad : ∀ w s, (10 : UInt8) ∉ s → (10 : UInt8) ∉ padLeft w s := by
    intro w s hs
    unfold padLeft
    rw [List.mem_append, List.mem_replicate]
    rintro (h | h)
    · exact absurd h.2 (by decide)
    · exact hs h
  have hlabel : ∀ a b nd, (10 : UInt8) ∉ labelText pre a b nd := by
    intro a b nd
    unfold labelText padRight
    simp only [List.mem_append, List.mem_replicate, not_or]
    refine ⟨⟨⟨⟨⟨⟨⟨by decide, by rw [tupleText_eq]; exact commaList_no_nl pre⟩, by decide⟩, hpad _ _ (hint _)⟩, by decide⟩,
      hpad _ _ (hint _)⟩, by decide⟩, ?_⟩
    exact fun h => absurd h.2 (by decide)
  have hval : ∀ v, (10 : UInt8) ∉ F.value F.big v := by
    intro v
    have := value_eq F 2 v
    rw [if_neg (by decide), if_neg (by decide)] at this
    rw [this]
    exact elementText_no_nl hF 2 v
  have step : ∀ (s : List UInt8), ∀ j ∈ List.range n, (do
      let c ← printCell F A width n pre j
      return s ++ c) = Outcome.ok (s ++ ((if (j : Int).tmod width = 0 then
        labelText pre j (if notShort n j width then j + width - 1 else n - 1) (ndigits n) else []) ++
        F.value F.big (f (pre ++ [j])))) := by
    intro s j hj
    unfold printCell
    rw [if_neg (by omega), hA _ (hpre j (List.mem_range.1 hj))]
    have hnn : 0 ≤ (j : Int).tmod width := Int.tmod_nonneg _ (by omega)
    simp only [Outcome.ok_bind]
    rw [if_neg (c := (j : Int).tmod width = width - 1 ∧ j ≠ n - 1) (by omega), List.append_nil]
    rfl
  refine ⟨_, foldlM_texts _ step [], ?_⟩
  rw [List.nil_append, List.mem_flatMap]
  rintro ⟨j, _, h⟩
  rw [List.mem_append] at h
  rcases h with h | h
  · split at h
    · exact hlabel _ _ _ h
    · cases h
  · exact hval _ h

/-! ### A concrete case -/

/-- Numbers as their digits. -/
def natText : NumText Nat := ⟨fun v => decide (10 < v), fun v => decide (5 < v), fun _ => false, false, decimal, decimal⟩

/-- A 2×3 matrix, two columns per line, printed at level 1 by the master thread outside parallel regions. -/
example : ∃ s, printTensor natText (runIndent [.indent 0] .init) false 0 [65] [66] [67] 2 true
      ⟨[1, 2, 3, 4, 5, 60], 0, [2, 3], [3, 1]⟩ = .ok s ∧
    rowLines 2 3 [1] (fun j => elementText natText 2 ([1, 2, 3, 4, 5, 60].getD (rowMajor [1, j] [2, 3]) 0)) =
      [lineLabel [1] 0 1 (Nat.digits 10 3).length ++ (decimal 4 ++ decimal 5),
       lineLabel [1] 2 2 (Nat.digits 10 3).length ++ ([27, 91, 48, 59, 51, 55, 59, 52, 49, 109] ++ decimal 60 ++ [27, 91, 48, 109])] := by
  have t : (⟨[1, 2, 3, 4, 5, 60], 0, [2, 3], [3, 1]⟩ : Strided Nat).IsTensor := ⟨rfl, rfl, rfl⟩
  obtain ⟨_, _, _, _, h, _⟩ := C160_print natText [.indent 0] false 0 [65] [66] [67] 2 true
    ⟨[1, 2, 3, 4, 5, 60], 0, [2, 3], [3, 1]⟩ (fun i => [1, 2, 3, 4, 5, 60].getD (rowMajor i [2, 3]) 0)
    (t.represents_iff.2 (by decide)) (by decide) (fun v => ⟨decimal_no_nl v, decimal_no_nl v⟩) (by decide) (by decide)
    (by decide)
  refine ⟨_, h, ?_⟩
  simp [rowLines, rowLinesWith, elementText, natText, rowMajor, List.range_succ, List.range']

end Einsums.Props
