import Verif.Model.ElementOps
import Verif.Proofs.BlockDot
import Verif.Proofs.BlockOps
import Verif.Proofs.Schedule
import Verif.Proofs.Size
import Verif.Proofs.TensorAlgebra
import Mathlib.Order.Basic
import Mathlib.Order.OrderDual
/-
Lemmas about sum, max, min and the element-wise functions returning a new tensor.
-/
namespace Einsums
open Spec Model

/-! ### The counter -/

/-- Multi-index of the counter, first dimension fastest. -/
def decode : List Nat → Nat → List Nat
  | [], _ => []
  | d :: ds, q => q % d :: decode ds (q / d)

theorem counterOffset_eq {ds ss : List Nat} (hl : ss.length = ds.length) {q : Nat} (hq : q < numel ds) :
    counterOffset ds ss q = .ok (dot (decode ds q) ss) := by
  induction ds generalizing ss q with
  | nil => cases ss <;> simp_all [counterOffset, decode]
  | cons d ds ih =>
    cases ss with
    | nil => simp at hl
    | cons s ss =>
      simp only [numel_cons] at hq
      have hd : d ≠ 0 := by rintro rfl; simp at hq
      simp only [counterOffset, if_neg hd, decode, dot]
      rw [ih (by simpa using hl) (Nat.div_lt_of_lt_mul hq)]
      simp [Nat.mul_comm]

theorem decode_inBox {ds : List Nat} {q : Nat} (hq : q < numel ds) : InBox (decode ds q) ds := by
  induction ds generalizing q with
  | nil => trivial
  | cons d ds ih =>
    simp only [numel_cons] at hq
    have hd : 0 < d := by rcases Nat.eq_zero_or_pos d with e | e; · simp [e] at hq
                          · exact e
    exact ⟨Nat.mod_lt _ hd, ih (Nat.div_lt_of_lt_mul hq)⟩

theorem decode_inj {ds : List Nat} {p q : Nat} (hp : p < numel ds) (hq : q < numel ds) (h : decode ds p = decode ds q) :
    p = q := by
  induction ds generalizing p q with
  | nil => simp at hp hq; omega
  | cons d ds ih =>
    simp only [numel_cons] at hp hq
    simp only [decode, List.cons.injEq] at h
    have := ih (Nat.div_lt_of_lt_mul hp) (Nat.div_lt_of_lt_mul hq) h.2
    rw [← Nat.div_add_mod p d, ← Nat.div_add_mod q d, this, h.1]

theorem decode_perm (ds : List Nat) : ((List.range (numel ds)).map (decode ds)).Perm (box ds) := by
  have hn : ((List.range (numel ds)).map (decode ds)).Nodup :=
    List.Nodup.map_on (fun p hp q hq => decode_inj (List.mem_range.1 hp) (List.mem_range.1 hq)) List.nodup_range
  have hs : ((List.range (numel ds)).map (decode ds)) ⊆ box ds := by
    intro x hx
    obtain ⟨q, hq, rfl⟩ := List.mem_map.1 hx
    exact mem_box.2 (decode_inBox (List.mem_range.1 hq))
  exact (List.subperm_of_subset hn hs).perm_of_length_le (by simp [length_box])

theorem sizeMethod_small {ds : List Nat} (h : numel ds < 2 ^ 31) : sizeMethod ds = numel ds := by
  rw [sizeMethod_eq, Nat.mod_eq_of_lt (by omega), if_neg (by omega), Nat.add_zero]

section
variable {R : Type}

theorem counterRead_eq {t : Strided R} (w : t.WF) {f : List Nat → R} (hf : t.Represents f) {q : Nat}
    (hq : q < numel t.dims) : t.counterRead q = .ok (f (decode t.dims q)) := by
  unfold Strided.counterRead
  rw [counterOffset_eq w.len hq]
  simp only [Outcome.ok_bind, memGet]
  rw [(represents_iff w).1 hf _ (decode_inBox hq)]

/-! ### Sum -/

theorem sumThread_eq [AddMonoid R] {t : Strided R} (w : t.WF) {f : List Nat → R} (hf : t.Represents f) (is : List Nat)
    (hi : ∀ i ∈ is, i < numel t.dims) (r : R) :
    sumThread t is r = .ok (r + (is.map fun i => f (decode t.dims i)).sum) := by
  unfold sumThread
  induction is generalizing r with
  | nil => simp
  | cons i is ih =>
    rw [List.foldlM_cons, counterRead_eq w hf (hi i (by simp))]
    simp only [Outcome.ok_bind, pure_bind]
    rw [ih (fun j hj => hi j (by simp [hj]))]
    simp [add_assoc]

/-- A reduction over the parts of a partition. -/
theorem reduction_eq [AddMonoid R] {g : List Nat → Outcome R} {v : Nat → R} (parts : List (List Nat))
    (hg : ∀ p ∈ parts, g p = .ok (p.map v).sum) (r : R) :
    parts.foldlM (fun result is => do
      let p ← g is
      return result + p) r = Outcome.ok (r + (parts.flatten.map v).sum) := by
  induction parts generalizing r with
  | nil => simp
  | cons p parts ih =>
    rw [List.foldlM_cons, hg p (by simp)]
    simp only [Outcome.ok_bind, pure_bind]
    rw [ih (fun q hq => hg q (by simp [hq]))]
    simp [add_assoc]

theorem sumTensor_eq [AddCommMonoid R] {t : Strided R} (w : t.WF) {f : List Nat → R} (hf : t.Represents f)
    {parts : List (List Nat)} (hp : parts.flatten.Perm (List.range (numel t.dims))) :
    sumTensor t parts = .ok ((box t.dims).map f).sum := by
  have hi : ∀ p ∈ parts, ∀ i ∈ p, i < numel t.dims := fun p h i hi =>
    List.mem_range.1 (hp.mem_iff.1 (List.mem_flatten.2 ⟨p, h, hi⟩))
  unfold sumTensor
  rw [reduction_eq (v := fun i => f (decode t.dims i)) parts
    (fun p h => by rw [sumThread_eq w hf p (hi p h) 0, zero_add])]
  rw [zero_add, (hp.map _).sum_eq, ← ((decode_perm t.dims).map f).sum_eq, List.map_map]
  rfl

theorem sumBlock_eq [AddCommMonoid R] {T : Block R} {r : Nat} (hr : 0 < r) {bs : Blocks R} (h : T.Models r bs)
    {inner : Nat → List (List Nat)}
    (hin : ∀ b, b < bs.length → (inner b).flatten.Perm (List.range (bs.sizes.getD b 0 ^ r)))
    {parts : List (List Nat)} (hp : parts.flatten.Perm (List.range bs.length)) :
    sumBlock T inner parts = .ok ((box (List.replicate r bs.sizes.sum)).map bs.elem).sum := by
  have hnr : ∀ n, numel (List.replicate r n) = n ^ r := by
    intro n
    clear hr h hin hp
    induction r with
    | zero => rfl
    | succ r ih => rw [List.replicate_succ, numel_cons, ih, Nat.pow_succ, Nat.mul_comm]
  have hth : ∀ p, (∀ b ∈ p, b < bs.length) → ∀ s, sumBlockThread T inner p s =
      .ok (s + (p.map fun b => ((box (List.replicate r (bs.sizes.getD b 0))).map
        (bs.getD b (0, fun _ => 0)).2).sum).sum) := by
    intro p
    induction p with
    | nil => intro _ s; simp [sumBlockThread]
    | cons b p ih =>
      intro hb s
      have hbl := hb b (by simp)
      obtain ⟨t, ht, h1⟩ := forall₂_getElem? h.blocks (List.getElem?_eq_getElem hbl)
      obtain ⟨hT, hd, hR⟩ := h1
      have hsz : bs.sizes.getD b 0 = bs[b].1 := getD_sizes (List.getElem?_eq_getElem hbl)
      have hgd : bs.getD b (0, fun _ => 0) = bs[b] := by
        rw [List.getD_eq_getElem?_getD, List.getElem?_eq_getElem hbl]; rfl
      have hat : T.at b = .ok t := by unfold Block.at; rw [ht]
      unfold sumBlockThread at ih ⊢
      rw [List.foldlM_cons, hat]
      simp only [Outcome.ok_bind]
      have hih := ih (fun c hc => hb c (by simp [hc]))
      have hdim : t.dim 0 = bs[b].1 := by
        obtain ⟨r', rfl⟩ : ∃ r', r = r' + 1 := ⟨r - 1, by omega⟩
        simp [Strided.dim, hd, List.replicate_succ]
      have hpi : (inner b).flatten.Perm (List.range (numel t.dims)) := by
        rw [hd, hnr, ← hsz]; exact hin b hbl
      by_cases e : t.dim 0 = 0
      · rw [if_pos e]
        simp only [pure_bind]
        rw [hih s]
        have hz : bs[b].1 = 0 := hdim ▸ e
        have hbx : box (List.replicate r (bs.sizes.getD b 0)) = [] := by
          rw [hsz, hz]
          obtain ⟨r', rfl⟩ : ∃ r', r = r' + 1 := ⟨r - 1, by omega⟩
          simp [List.replicate_succ, box]
        rw [List.map_cons, List.sum_cons, hbx]
        simp
      · rw [if_neg e, sumTensor_eq hT.wf hR hpi]
        simp only [Outcome.ok_bind, pure_bind]
        rw [hih, hd]
        simp only [List.map_cons, List.sum_cons, hsz, hgd, add_assoc]
  unfold sumBlock
  rw [reduction_eq (v := fun b => ((box (List.replicate r (bs.sizes.getD b 0))).map
        (bs.getD b (0, fun _ => 0)).2).sum) parts (fun p hp' => by
      rw [hth p (fun b hb => List.mem_range.1 (hp.mem_iff.1 (List.mem_flatten.2 ⟨p, hp', hb⟩))) 0, zero_add])]
  rw [zero_add, (hp.map _).sum_eq]
  rw [sum_blocks bs.sizes hr bs.elem]
  · have hl : bs.sizes.length = bs.length := by simp [Blocks.sizes]
    rw [hl]
    unfold sumTo
    congr 2
    apply List.map_congr_left
    intro b hb
    have hbl := List.mem_range.1 hb
    congr 1
    apply List.map_congr_left
    intro l hl'
    rw [elem_shift hr hbl (mem_box.1 hl')]
    rw [List.getD_eq_getElem?_getD, List.getElem?_eq_getElem hbl]; rfl
  · intro j hj
    unfold Blocks.elem
    cases e : bs.find j with
    | none => rfl
    | some b => exact absurd (find_some e).2 (hj b)

/-! ### The counters of the threads -/

theorem mem_countersOf {size n tid i : Nat} (ht : tid < n) : i ∈ countersOf size n tid ↔ i < size ∧ i % n = tid := by
  have hn : 0 < n := by omega
  unfold countersOf
  simp only [List.mem_map, List.mem_range]
  constructor
  · rintro ⟨k, hk, rfl⟩
    have h1 : (k + 1) * n ≤ size - tid + n - 1 := (Nat.le_div_iff_mul_le hn).1 hk
    rw [Nat.add_mul, Nat.one_mul, Nat.mul_comm k n] at h1
    refine ⟨by omega, ?_⟩
    rw [Nat.add_mul_mod_self_left, Nat.mod_eq_of_lt ht]
  · rintro ⟨h1, h2⟩
    refine ⟨i / n, ?_, ?_⟩
    · apply (Nat.le_div_iff_mul_le hn).2
      have := Nat.div_add_mod i n
      rw [Nat.succ_mul, Nat.mul_comm (i / n) n]
      omega
    · rw [← h2]; have := Nat.div_add_mod i n; omega

theorem nodup_countersOf {size n tid : Nat} (hn : 0 < n) : (countersOf size n tid).Nodup := by
  unfold countersOf
  apply List.Nodup.map_on _ List.nodup_range
  intro a _ b _ h
  have : n * a = n * b := by omega
  exact Nat.eq_of_mul_eq_mul_left hn this

theorem counters_perm {size n : Nat} (hn : 0 < n) :
    ((List.range n).map (countersOf size n)).flatten.Perm (List.range size) := by
  rw [List.perm_ext_iff_of_nodup]
  · intro i
    simp only [List.mem_flatten, List.mem_map, List.mem_range]
    constructor
    · rintro ⟨l, ⟨tid, ht, rfl⟩, hi⟩
      exact ((mem_countersOf ht).1 hi).1
    · intro hi
      exact ⟨_, ⟨i % n, Nat.mod_lt _ hn, rfl⟩, (mem_countersOf (Nat.mod_lt _ hn)).2 ⟨hi, rfl⟩⟩
  · rw [List.nodup_flatten]
    constructor
    · intro l hl
      obtain ⟨tid, _, rfl⟩ := List.mem_map.1 hl
      exact nodup_countersOf hn
    · rw [List.pairwise_map]
      apply List.Pairwise.imp_of_mem _ List.nodup_range
      intro a b ha hb hab x h1 h2
      exact hab (((mem_countersOf (List.mem_range.1 ha)).1 h1).2.symm.trans ((mem_countersOf (List.mem_range.1 hb)).1 h2).2)
  · exact List.nodup_range

theorem threadCounters_eq {size n tid : Nat} (ht : tid < n) (h : size + n ≤ 2 ^ 31) :
    threadCounters size n tid = .ok (countersOf size n tid) := by
  unfold threadCounters
  rw [if_neg]
  simp only [List.any_eq_true, decide_eq_true_eq, not_exists, not_and, Nat.not_le]
  intro i hi
  have := ((mem_countersOf ht).1 hi).1
  omega

theorem collect_eq {β : Type} {f : Nat → Outcome β} {v : Nat → β} (is : List Nat) (h : ∀ i ∈ is, f i = .ok (v i)) :
    collect f is = .ok (is.map v) := by
  induction is with
  | nil => rfl
  | cons i is ih =>
    rw [collect, h i (by simp), ih (fun j hj => h j (by simp [hj]))]
    rfl

/-! ### Max -/

/-- `r` is the largest of `x` and the elements of `l`. -/
def Greatest [LinearOrder R] (l : List R) (r : R) : Prop := r ∈ l ∧ ∀ x ∈ l, x ≤ r

theorem foldl_greatest [LinearOrder R] (l : List R) (m : R) :
    Greatest (m :: l) (l.foldl (fun m x => if decide (x < m) = true then m else x) m) := by
  induction l generalizing m with
  | nil => simp [Greatest]
  | cons x l ih =>
    simp only [List.foldl_cons]
    obtain ⟨h1, h2⟩ := ih (if decide (x < m) = true then m else x)
    constructor
    · rcases List.mem_cons.1 h1 with e | e
      · rw [e]; split <;> simp
      · exact List.mem_cons_of_mem _ (List.mem_cons_of_mem _ e)
    · intro y hy
      have hx := h2 _ (List.mem_cons_self)
      rcases List.mem_cons.1 hy with rfl | hy
      · refine le_trans ?_ hx
        split
        · exact le_refl _
        · rename_i hxy; simpa using hxy
      · rcases List.mem_cons.1 hy with rfl | hy
        · refine le_trans ?_ hx
          split
          · rename_i hxy; exact le_of_lt (by simpa using hxy)
          · exact le_refl _
        · exact h2 y (by simp [hy])

theorem foldl_greatest' [LinearOrder R] (l : List R) (m : R) :
    Greatest (m :: l) (l.foldl (fun b y => if decide (b < y) = true then y else b) m) := by
  induction l generalizing m with
  | nil => simp [Greatest]
  | cons x l ih =>
    simp only [List.foldl_cons]
    obtain ⟨h1, h2⟩ := ih (if decide (m < x) = true then x else m)
    constructor
    · rcases List.mem_cons.1 h1 with e | e
      · rw [e]; split <;> simp
      · exact List.mem_cons_of_mem _ (List.mem_cons_of_mem _ e)
    · intro y hy
      have hx := h2 _ (List.mem_cons_self)
      rcases List.mem_cons.1 hy with rfl | hy
      · refine le_trans ?_ hx
        split
        · rename_i hxy; exact le_of_lt (by simpa using hxy)
        · exact le_refl _
      · rcases List.mem_cons.1 hy with rfl | hy
        · refine le_trans ?_ hx
          split
          · exact le_refl _
          · rename_i hxy; simpa using hxy
        · exact h2 y (by simp [hy])

theorem extremeThread_eq {better : R → R → Bool} {t : Strided R} (w : t.WF) {f : List Nat → R}
    (hf : t.Represents f) (is : List Nat) (hi : ∀ i ∈ is, i < numel t.dims) (m : R) :
    extremeThread better t is m =
      .ok ((is.map fun i => f (decode t.dims i)).foldl (fun m x => if better m x then m else x) m) := by
  unfold extremeThread
  induction is generalizing m with
  | nil => rfl
  | cons i is ih =>
    rw [List.foldlM_cons, counterRead_eq w hf (hi i (by simp))]
    simp only [Outcome.ok_bind, pure_bind]
    rw [ih (fun j hj => hi j (by simp [hj]))]
    rfl

theorem maxTensor_eq [LinearOrder R] {t : Strided R} (w : t.WF) {f : List Nat → R} (hf : t.Represents f) (ninf : R)
    {maxThreads n : Nat} (hn : 0 < n) (hm : n ≤ maxThreads) (hs : numel t.dims + n ≤ 2 ^ 31) :
    ∃ r, extremeTensor (fun a b => decide (b < a)) ninf maxThreads n t = .ok r ∧
      Greatest (ninf :: (box t.dims).map f) r := by
  have hsz : sizeMethod t.dims = numel t.dims := sizeMethod_small (by omega)
  have hth : ∀ tid ∈ List.range maxThreads,
      (if tid < n then (do
        let is ← threadCounters (sizeMethod t.dims) n tid
        extremeThread (fun a b => decide (b < a)) t is ninf) else Outcome.ok ninf) =
      .ok (if tid < n then ((countersOf (numel t.dims) n tid).map fun i => f (decode t.dims i)).foldl
        (fun m x => if decide (x < m) = true then m else x) ninf else ninf) := by
    intro tid _
    by_cases h : tid < n
    · rw [if_pos h, if_pos h, hsz, threadCounters_eq h hs]
      simp only [Outcome.ok_bind]
      exact extremeThread_eq w hf _ (fun i hi => ((mem_countersOf h).1 hi).1) ninf
    · rw [if_neg h, if_neg h]
  unfold extremeTensor
  rw [collect_eq _ hth]
  simp only [Outcome.ok_bind, if_neg (show ¬ maxThreads < n by omega)]
  generalize harr : (List.range maxThreads).map _ = arr
  have hne : arr ≠ [] := by rw [← harr]; simp; omega
  obtain ⟨x, xs, rfl⟩ := List.exists_cons_of_ne_nil hne
  obtain ⟨h1, h2⟩ := foldl_greatest' xs x
  refine ⟨_, rfl, ?_, ?_⟩
  · rw [← harr] at h1
    obtain ⟨tid, _, e⟩ := List.mem_map.1 h1
    rw [← e]
    split
    · rename_i ht
      have h3 := (foldl_greatest ((countersOf (numel t.dims) n tid).map fun i => f (decode t.dims i)) ninf).1
      rcases List.mem_cons.1 h3 with h3 | h3
      · rw [h3]; simp
      · obtain ⟨i, hi, e⟩ := List.mem_map.1 h3
        rw [← e]
        exact List.mem_cons_of_mem _ (List.mem_map_of_mem (mem_box.2 (decode_inBox ((mem_countersOf ht).1 hi).1)))
    · simp
  · intro y hy
    have hex : ∃ tid, tid < n ∧ y ∈ ninf :: (countersOf (numel t.dims) n tid).map fun i => f (decode t.dims i) := by
      rcases List.mem_cons.1 hy with e | e
      · exact ⟨0, hn, by simp [e]⟩
      · obtain ⟨j, hj, rfl⟩ := List.mem_map.1 e
        obtain ⟨i, hi, rfl⟩ := List.mem_map.1 ((decode_perm t.dims).mem_iff.2 hj)
        refine ⟨i % n, Nat.mod_lt _ hn, List.mem_cons_of_mem _ (List.mem_map.2 ⟨i, ?_, rfl⟩)⟩
        exact (mem_countersOf (Nat.mod_lt _ hn)).2 ⟨List.mem_range.1 hi, rfl⟩
    obtain ⟨tid, ht, hy'⟩ := hex
    refine le_trans ((foldl_greatest _ ninf).2 y hy') (h2 _ ?_)
    rw [← harr]
    refine List.mem_map.2 ⟨tid, List.mem_range.2 (by omega), ?_⟩
    rw [if_pos ht]

theorem maxBlock_eq [LinearOrder R] {T : Block R} {r : Nat} (hr : 0 < r) {bs : Blocks R} (h : T.Models r bs)
    (hne : bs ≠ []) (ninf : R) {maxThreads : Nat} {n : Nat → Nat}
    (hn : ∀ b, b < bs.length → 0 < n b ∧ n b ≤ maxThreads ∧ bs.sizes.getD b 0 ^ r + n b ≤ 2 ^ 31) :
    ∃ v, extremeBlock (fun a b => decide (b < a)) ninf maxThreads n T = .ok v ∧
      Greatest (ninf :: bs.flatMap fun p => (box (List.replicate r p.1)).map p.2) v := by
  have hnr : ∀ n, numel (List.replicate r n) = n ^ r := by
    intro n
    clear hr h hn
    induction r with
    | zero => rfl
    | succ r ih => rw [List.replicate_succ, numel_cons, ih, Nat.pow_succ, Nat.mul_comm]
  have hlen : T.blocks.length = bs.length := h.blocks.length_eq
  have hblk : ∀ b, ∃ v, b < bs.length → (do
      let t ← T.at b
      if t.dim 0 = 0 then return ninf
      else extremeTensor (fun a b => decide (b < a)) ninf maxThreads (n b) t) = Outcome.ok v ∧
      Greatest (ninf :: (box (List.replicate r (bs.getD b (0, fun _ => ninf)).1)).map
        (bs.getD b (0, fun _ => ninf)).2) v := by
    intro b
    by_cases hbl : b < bs.length
    · obtain ⟨t, ht, hT, hd, hR⟩ := forall₂_getElem? h.blocks (List.getElem?_eq_getElem hbl)
      have hsz : bs.sizes.getD b 0 = bs[b].1 := getD_sizes (List.getElem?_eq_getElem hbl)
      have hgd : bs.getD b (0, fun _ => ninf) = bs[b] := by
        rw [List.getD_eq_getElem?_getD, List.getElem?_eq_getElem hbl]; rfl
      have hat : T.at b = .ok t := by unfold Block.at; rw [ht]
      have hdim : t.dim 0 = bs[b].1 := by
        obtain ⟨r', rfl⟩ : ∃ r', r = r' + 1 := ⟨r - 1, by omega⟩
        simp [Strided.dim, hd, List.replicate_succ]
      rw [hat, hgd]
      simp only [Outcome.ok_bind]
      by_cases e : t.dim 0 = 0
      · refine ⟨ninf, fun _ => ⟨by rw [if_pos e]; rfl, ?_⟩⟩
        have hbx : box (List.replicate r bs[b].1) = [] := by
          rw [← hdim, e]
          obtain ⟨r', rfl⟩ : ∃ r', r = r' + 1 := ⟨r - 1, by omega⟩
          simp [List.replicate_succ, box]
        simp [hbx, Greatest]
      · obtain ⟨h1, h2, h3⟩ := hn b hbl
        obtain ⟨v, hv, hg⟩ := maxTensor_eq hT.wf hR ninf h1 h2 (by rw [hd, hnr, ← hsz]; exact h3)
        refine ⟨v, fun _ => ⟨by rw [if_neg e]; exact hv, ?_⟩⟩
        rw [hd] at hg
        exact hg
    · exact ⟨ninf, fun h => absurd h hbl⟩
  obtain ⟨v, hv⟩ := Classical.axiomOfChoice hblk
  unfold extremeBlock
  rw [hlen, collect_eq (v := v) _ (fun b hb => (hv b (List.mem_range.1 hb)).1)]
  simp only [Outcome.ok_bind]
  generalize harr : (List.range bs.length).map v = arr
  have hne' : arr ≠ [] := by rw [← harr]; simpa using hne
  obtain ⟨x, xs, rfl⟩ := List.exists_cons_of_ne_nil hne'
  obtain ⟨h1, h2⟩ := foldl_greatest' xs x
  refine ⟨_, rfl, ?_, ?_⟩
  · rw [← harr] at h1
    obtain ⟨b, hb, e⟩ := List.mem_map.1 h1
    have hbl := List.mem_range.1 hb
    rw [← e]
    rcases List.mem_cons.1 (hv b hbl).2.1 with h3 | h3
    · rw [h3]; simp
    · refine List.mem_cons_of_mem _ (List.mem_flatMap.2 ⟨bs[b], List.getElem_mem hbl, ?_⟩)
      rwa [List.getD_eq_getElem?_getD, List.getElem?_eq_getElem hbl] at h3
  · intro y hy
    have hex : ∃ b, b < bs.length ∧ y ∈ ninf :: (box (List.replicate r (bs.getD b (0, fun _ => ninf)).1)).map
        (bs.getD b (0, fun _ => ninf)).2 := by
      rcases List.mem_cons.1 hy with e | e
      · exact ⟨0, List.length_pos_of_ne_nil hne, by simp [e]⟩
      · obtain ⟨p, hp, hy'⟩ := List.mem_flatMap.1 e
        obtain ⟨b, hb, rfl⟩ := List.getElem_of_mem hp
        refine ⟨b, hb, List.mem_cons_of_mem _ ?_⟩
        rwa [List.getD_eq_getElem?_getD, List.getElem?_eq_getElem hb]
    obtain ⟨b, hb, hy'⟩ := hex
    refine le_trans ((hv b hb).2.2 y hy') (h2 _ ?_)
    rw [← harr]
    exact List.mem_map.2 ⟨b, List.mem_range.2 hb, rfl⟩

/-! ### New tensors -/

theorem mapStep_eq (op : R → R) {t C : Strided R} (w : t.WF) {f : List Nat → R} (hf : t.Represents f) (wC : C.WF)
    (hd : C.dims = t.dims) {i : Nat} (hi : i < numel t.dims) :
    mapStep op t C i = C.write (toIdx (decode t.dims i)) (op (f (decode t.dims i))) := by
  have hb := decode_inBox hi
  have hb' : InBox (decode t.dims i) C.dims := hd ▸ hb
  unfold mapStep
  rw [counterOffset_eq w.len hi, counterOffset_eq (by rw [wC.len, hd]) hi]
  simp only [Outcome.ok_bind, memGet]
  rw [(represents_iff w).1 hf _ hb, write_eq (pyIndices_toIdx hb') (wC.bound _ hb')]
  simp only [Outcome.ok_bind, memUpd]
  rw [List.getElem?_eq_getElem (wC.bound _ hb')]
  rfl

theorem mapTensor_eq (op : R → R) (z : Nat → R) {t : Strided R} (w : t.WF) (h0 : t.dims ≠ []) {f : List Nat → R}
    (hf : t.Represents f) {n : Nat} (hn : 0 < n) (hs : numel t.dims + n ≤ 2 ^ 31) {sched : List Nat}
    (hp : sched.Perm (List.range (numel t.dims))) :
    ∃ t', mapTensor op z t n sched = .ok t' ∧ t'.IsTensor ∧ t'.dims = t.dims ∧ t'.Represents fun i => op (f i) := by
  have hT := isTensor_mk' z h0
  have : Inhabited R := ⟨z 0⟩
  obtain ⟨f0, hf0⟩ := exists_represents hT.wf
  have hlt : ∀ i ∈ sched, i < numel t.dims := fun i hi => List.mem_range.1 (hp.mem_iff.1 hi)
  obtain ⟨C', f', h1, fr, r', h2, _⟩ := updateLoop hT.wf hf0 (decode t.dims) (mapStep op t)
    (fun b _ => op (f (decode t.dims b))) sched
    (List.Nodup.map_on (fun p hp q hq => decode_inj (hlt p hp) (hlt q hq)) (hp.nodup_iff.2 List.nodup_range))
    (by
      intro i hi C1 f1 hd w1 r1
      rw [mapStep_eq op w hf w1 hd (hlt i hi)]
      exact write_represents w1 r1 (by rw [hd]; exact decode_inBox (hlt i hi)) _)
  refine ⟨C', ?_, ⟨by rw [fr.off]; rfl, by rw [fr.strides, fr.dims]; exact hT.strides,
    by rw [fr.length, fr.dims]; exact hT.length⟩, fr.dims, ?_⟩
  · unfold mapTensor
    rw [sizeMethod_small (by omega), collect_eq _ (fun tid ht => threadCounters_eq (List.mem_range.1 ht) hs)]
    exact h1
  · intro i hi
    rw [r' i hi]
    have hi' : InBox i t.dims := fr.dims ▸ hi
    obtain ⟨q, hq, rfl⟩ := List.mem_map.1 ((decode_perm t.dims).mem_iff.2 (mem_box.2 hi'))
    rw [h2 q (hp.mem_iff.2 hq)]

theorem numel_replicate (r n : Nat) : numel (List.replicate r n) = n ^ r := by
  induction r with
  | zero => rfl
  | succ r ih => rw [List.replicate_succ, numel_cons, ih, Nat.pow_succ, Nat.mul_comm]

theorem mapBlockLoop (op : R → R) (z z' : Nat → R) {T U0 : Block R} {r : Nat} (hr : 0 < r) {bs us : Blocks R}
    (h : T.Models r bs) (hU : U0.Models r us) (hs : us.sizes = bs.sizes) {n : Nat → Nat} {inner : Nat → List Nat}
    (hn : ∀ b, b < bs.length → 0 < n b ∧ bs.sizes.getD b 0 ^ r + n b ≤ 2 ^ 31 ∧
      (inner b).Perm (List.range (bs.sizes.getD b 0 ^ r)))
    {sched : List Nat} (hp : sched.Perm (List.range bs.length)) :
    ∃ T', sched.foldlM (mapBlockStep op z z' T n inner) U0 = .ok T' ∧
      T'.Models r (mapBlocks bs fun _ f l => op (f l)) := by
  have hlen : us.length = bs.length := by simpa [Blocks.sizes] using congrArg List.length hs
  refine blockLoop hU (by rw [mapBlocks_length, hlen]) ?_ (hlen.symm ▸ hp)
  intro U cur b hb hUc hcb
  have hbb : b < bs.length := by omega
  obtain ⟨u, hu1, hu2, hu3⟩ := hUc.at hcb
  obtain ⟨t, ht1, ht2, ht3⟩ := h.at (List.getElem?_eq_getElem hbb)
  have hsz : bs.sizes.getD b 0 = bs[b].1 := getD_sizes (List.getElem?_eq_getElem hbb)
  have hne : t.dims ≠ [] := by
    rw [ht3.2.1]
    intro e
    have := congrArg List.length e
    simp at this
    omega
  have hnum : numel t.dims = bs.sizes.getD b 0 ^ r := by rw [ht3.2.1, numel_replicate, hsz]
  obtain ⟨n1, n2, n3⟩ := hn b hbb
  obtain ⟨w, hw1, hw2, hw3, hw4⟩ := mapTensor_eq op z ht3.1.wf hne ht3.2.2 n1 (by rw [hnum]; exact n2)
    (sched := inner b) (by rw [hnum]; exact n3)
  have hwl : w.dims.length = r := by rw [hw3, ht3.2.1]; simp
  have has : u.assign z' w = .ok w := assign_block z' hr (Or.inr ⟨hu3.1, by rw [hu3.2.1]; simp⟩) hw2 hwl
  have hsz2 : us[b].1 = bs[b].1 := by
    have h1 := getD_sizes (List.getElem?_eq_getElem hb)
    rw [hs, hsz] at h1
    exact h1.symm
  refine ⟨{ U with blocks := U.blocks.set b w }, ?_, ?_⟩
  · unfold mapBlockStep
    rw [hu2, ht2]
    simp only [Outcome.ok_bind]
    rw [hw1]
    simp only [Outcome.ok_bind]
    rw [has]
    rfl
  · rw [mapBlocks_getElem _ _ _ hbb, ← hsz2]
    refine hUc.setBlock (f := us[b].2) hcb ⟨hw2, ?_, hw4⟩
    rw [hw3, ht3.2.1, hsz2]

theorem elem_map [Zero R] (op : R → R) (h0 : op 0 = 0) {bs : Blocks R} {r : Nat} (hr : 0 < r) {j : List Nat}
    (hj : InBox j (List.replicate r bs.sizes.sum)) :
    (mapBlocks bs fun _ f l => op (f l)).elem j = op (bs.elem j) :=
  elem_mapBlocks rfl hr (fun x _ => op x) h0 hj

end
end Einsums
