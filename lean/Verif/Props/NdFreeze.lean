import Verif.Model.NdFreeze
import Verif.Props.NdArray
import Verif.Lemmas.NdOps
import Mathlib.Data.List.Sort

/-!
# C97: replacing a region, freezing and reducing axes
-/

namespace Verif.Nd
open Verif

variable {R : Nat} {α β : Type}

/-! ## Lists of positions -/

theorem insertLoop_eq (idx : List Nat) (j : Nat → Nat) (l : List Nat) :
    insertLoop idx l ((l.filter fun n => n ∉ idx).map j) ((l.filter fun n => n ∈ idx).map j) = .ok (l.map j) := by
  induction l with
  | nil => rfl
  | cons n l ih =>
    by_cases h : n ∈ idx
    · have e1 : ((n :: l).filter fun n => n ∉ idx) = l.filter fun n => n ∉ idx := List.filter_cons_of_neg (by simpa using h)
      have e2 : ((n :: l).filter fun n => n ∈ idx) = n :: l.filter fun n => n ∈ idx := List.filter_cons_of_pos (by simpa using h)
      rw [e1, e2, List.map_cons]
      show (if n ∈ idx then _ else _) = _
      rw [if_pos h]
      show (insertLoop idx l _ _).map _ = _
      rw [ih]
      rfl
    · have e1 : ((n :: l).filter fun n => n ∉ idx) = n :: l.filter fun n => n ∉ idx := List.filter_cons_of_pos (by simpa using h)
      have e2 : ((n :: l).filter fun n => n ∈ idx) = l.filter fun n => n ∈ idx := List.filter_cons_of_neg (by simpa using h)
      rw [e1, e2, List.map_cons]
      show (if n ∈ idx then _ else _) = _
      rw [if_neg h]
      show (insertLoop idx l _ _).map _ = _
      rw [ih]
      rfl

theorem keepFrom_eq (idx : List Nat) (j : Nat → Nat) (len n : Nat) :
    keepFrom idx n ((List.range' n len).map j) = ((List.range' n len).filter fun n => n ∉ idx).map j := by
  induction len generalizing n with
  | zero => rfl
  | succ len ih =>
    rw [List.range'_succ, List.map_cons, keepFrom]
    by_cases h : n ∈ idx
    · rw [if_pos h, ih, List.filter_cons_of_neg (by simpa using h)]
    · rw [if_neg h, ih, List.filter_cons_of_pos (by simpa using h), List.map_cons]

theorem ofFn_eq_filter {k T : Nat} (e : Fin k → Fin T) (he : StrictMono e) (q : Nat → Bool) (h : ∀ t : Fin T, q t = true ↔ ∃ n, e n = t) :
    List.ofFn (fun n => (e n : Nat)) = (List.range T).filter q := by
  refine List.SortedLT.eq_of_mem_iff ?_ ?_ ?_
  · exact List.sortedLT_ofFn_iff.2 fun a b hab => he hab
  · exact (List.pairwise_lt_range.filter _).sortedLT
  · intro t
    simp only [List.mem_ofFn, List.mem_filter, List.mem_range]
    constructor
    · rintro ⟨n, rfl⟩
      exact ⟨(e n).2, (h (e n)).2 ⟨n, rfl⟩⟩
    · rintro ⟨ht, hq⟩
      obtain ⟨n, hn⟩ := (h ⟨t, ht⟩).1 hq
      exact ⟨n, by rw [hn]⟩

/-- The axes `axes` and `others` are all axes, both in increasing order, and none is in both. -/
structure Split {k S T : Nat} (axes : Fin k → Fin T) (others : Fin S → Fin T) : Prop where
  axes_mono : StrictMono axes
  others_mono : StrictMono others
  all : ∀ t, (∃ n, axes n = t) ∨ ∃ m, others m = t
  disjoint : ∀ n m, axes n ≠ others m

variable {k S T : Nat} {axes : Fin k → Fin T} {others : Fin S → Fin T}

theorem Split.mem (h : Split axes others) (t : Fin T) : (t : Nat) ∈ List.ofFn (fun n => (axes n : Nat)) ↔ ∃ n, axes n = t := by
  rw [List.mem_ofFn]
  exact ⟨fun ⟨n, hn⟩ => ⟨n, Fin.ext hn⟩, fun ⟨n, hn⟩ => ⟨n, by rw [hn]⟩⟩

theorem Split.axes_eq (h : Split axes others) :
    List.ofFn (fun n => (axes n : Nat)) = (List.range T).filter fun t => t ∈ List.ofFn (fun n => (axes n : Nat)) :=
  ofFn_eq_filter axes h.axes_mono _ fun t => by rw [decide_eq_true_iff]; exact h.mem t

theorem Split.others_eq (h : Split axes others) :
    List.ofFn (fun n => (others n : Nat)) = (List.range T).filter fun t => t ∉ List.ofFn (fun n => (axes n : Nat)) :=
  ofFn_eq_filter others h.others_mono _ fun t => by
    rw [decide_eq_true_iff, h.mem t]
    constructor
    · intro hn
      exact (h.all t).resolve_left hn
    · rintro ⟨m, rfl⟩ ⟨n, hn⟩
      exact h.disjoint n m hn

/-- A sequence as a function of all numbers. -/
def extendIx (j : Ix T) (t : Nat) : Nat := if h : t < T then j ⟨t, h⟩ else 0

theorem extendIx_val (j : Ix T) (t : Fin T) : extendIx j t = j t := by
  unfold extendIx
  rw [dif_pos t.2]

theorem map_extendIx (j : Ix T) : (List.range T).map (extendIx j) = List.ofFn j := by
  refine List.ext_getElem (by simp) fun n h1 h2 => ?_
  rw [List.getElem_map, List.getElem_range, List.getElem_ofFn]
  exact extendIx_val j ⟨n, by simpa using h1⟩

theorem map_axes {m : Nat} (e : Fin m → Fin T) (j : Ix T) : (List.ofFn fun n => (e n : Nat)).map (extendIx j) = List.ofFn fun n => j (e n) := by
  rw [List.map_ofFn]
  refine congrArg List.ofFn (funext fun n => extendIx_val j (e n))

theorem getD_ofFn (j : Ix T) (t : Fin T) : (List.ofFn j).getD t 0 = j t := by
  simp [List.getD]

/-- `insert_elements` puts the values at the axes, and the elements of the sequence at the other axes. -/
theorem insertElements_eq (h : Split axes others) (j : Ix T) :
    insertElements T (fun m => j (others m)) (fun n => (axes n : Nat)) (fun n => j (axes n)) = .ok j := by
  unfold insertElements
  rw [← map_axes axes j, ← map_axes others j, h.others_eq]
  conv_lhs =>
    arg 2
    arg 4
    rw [h.axes_eq]
  rw [insertLoop_eq, Outcome.map_ok, map_extendIx]
  exact congrArg Outcome.ok (funext fun t => getD_ofFn j t)

/-- `remove_elements` keeps the elements at the other axes. -/
theorem removeElements_eq (h : Split axes others) (j : Ix T) : removeElements S j (fun n => (axes n : Nat)) = .ok fun m => j (others m) := by
  have e : keepFrom (List.ofFn fun n => (axes n : Nat)) 0 (List.ofFn j) = List.ofFn fun m => j (others m) := by
    rw [← map_extendIx j, List.range_eq_range', keepFrom_eq, ← List.range_eq_range', ← h.others_eq, map_axes]
  unfold removeElements
  rw [e, if_neg (by simp)]
  exact congrArg Outcome.ok (funext fun m => getD_ofFn _ m)

/-! ## C97 -/

/-- Freezing axes, given in increasing order, at an index: the shape of the result is that of the other axes, and its value is that of the array at the
frozen index on the frozen axes. -/
theorem freeze_axes_partial (h : Split axes others) (A : Arr T α) (s : Ix T) (f : Ix T → α) (hA : Denotes A s f) (v : Ix k) (hv : ∀ n, v n < s (axes n)) :
    ∃ B g, freezeAxes S (fun n => (axes n : Nat)) v A = .ok B ∧ Denotes B (fun m => s (others m)) g ∧
      ∀ j, InShape s j → (∀ n, j (axes n) = v n) → g (fun m => j (others m)) = f j := by
  obtain ⟨rfl, hf⟩ := hA
  have hmerge : ∀ i : Ix S, ∃ j : Ix T, (∀ n, j (axes n) = v n) ∧ ∀ m, j (others m) = i m := by
    intro i
    classical
    refine ⟨fun t => if ht : ∃ n, axes n = t then v ht.choose else if ht : ∃ m, others m = t then i ht.choose else 0, fun n => ?_, fun m => ?_⟩
    · have ht : ∃ n', axes n' = axes n := ⟨n, rfl⟩
      beta_reduce
      rw [dif_pos ht, h.axes_mono.injective ht.choose_spec]
    · have hn : ¬ ∃ n, axes n = others m := fun ⟨n, hn⟩ => h.disjoint n m hn
      have ht : ∃ m', others m' = others m := ⟨m, rfl⟩
      beta_reduce
      rw [dif_neg hn, dif_pos ht, h.others_mono.injective ht.choose_spec]
  choose J hJ1 hJ2 using hmerge
  have hb : ((List.ofFn fun n => (axes n : Nat)).any fun a => decide (a ≥ T)) = false := by
    rw [List.any_eq_false]
    intro a ha
    obtain ⟨n, rfl⟩ := List.mem_ofFn.1 ha
    simpa using (axes n).2
  have hJ : ∀ j : Ix T, (∀ n, j (axes n) = v n) → J (fun m => j (others m)) = j := by
    intro j hj
    funext t
    rcases h.all t with ⟨n, rfl⟩ | ⟨m, rfl⟩
    · rw [hJ1, hj]
    · rw [hJ2]
  refine ⟨⟨fun m => A.shape (others m), fun i => (insertElements T i (fun n => (axes n : Nat)) v).bind A.get⟩, fun i => f (J i), ?_, ⟨rfl, fun i hi => ?_⟩,
    fun j hj h1 => ?_⟩
  · unfold freezeAxes
    rw [hb, removeElements_eq h]
    rfl
  · show (insertElements T i _ v).bind A.get = _
    have := insertElements_eq h (J i)
    rw [show (fun m => J i (others m)) = i from funext (hJ2 i), show (fun n => J i (axes n)) = v from funext (hJ1 i)] at this
    rw [this, Outcome.bind_ok]
    refine hf _ fun t => ?_
    rcases h.all t with ⟨n, rfl⟩ | ⟨m, rfl⟩
    · rw [hJ1]; exact hv n
    · rw [hJ2]; exact hi m
  · show f (J _) = f j
    rw [hJ j h1]

/-- An axis that does not exist is refused. -/
theorem freeze_axes_throws (S : Nat) (axes v : Ix k) (A : Arr T α) (n : Fin k) (h : T ≤ axes n) : freezeAxes S axes v A = .throws .logicError := by
  unfold freezeAxes
  rw [if_pos]
  rw [List.any_eq_true]
  exact ⟨axes n, List.mem_ofFn.2 ⟨n, rfl⟩, by simpa using h⟩

example : freezeAxes 1 ![3] ![0] (indexArray ![2, 3]) = .throws .logicError := freeze_axes_throws 1 _ _ _ 0 (by decide)

/-- VIOLATION: the values are given to the axes in increasing order, whatever the order in which the axes were named.  Freezing axis 1 at 0 and axis 0 at 1
reads the element at `(0, 1)`. -/
theorem freeze_order_violated : ∃ B : Arr 0 (Nat × Nat), freezeAxes 0 (![1, 0] : Ix 2) ![0, 1] (⟨![2, 2], fun i => .ok (i 0, i 1)⟩ : Arr 2 (Nat × Nat)) = .ok B ∧
    B.get Fin.elim0 = .ok (0, 1) := ⟨_, rfl, rfl⟩

theorem split_one (a : Fin (S + 1)) : Split (fun _ : Fin 1 => a) (Fin.succAbove a) where
  axes_mono := fun x y hxy => absurd hxy (by rw [Subsingleton.elim x y]; exact lt_irrefl _)
  others_mono := Fin.strictMono_succAbove a
  all := fun t => by
    by_cases h : t = a
    · exact Or.inl ⟨0, h.symm⟩
    · obtain ⟨m, hm⟩ := Fin.exists_succAbove_eq h
      exact Or.inr ⟨m, hm⟩
  disjoint := fun _ m => (Fin.succAbove_ne a m).symm

theorem split_rest (a : Fin (S + 1)) : Split (Fin.succAbove a) (fun _ : Fin 1 => a) where
  axes_mono := (split_one a).others_mono
  others_mono := (split_one a).axes_mono
  all := fun t => ((split_one a).all t).symm
  disjoint := fun n m => ((split_one a).disjoint m n).symm

/-- Freezing one axis at an index in range. -/
theorem freeze_axis (a : Fin (S + 1)) (v : Nat) (A : Arr (S + 1) α) (s : Ix (S + 1)) (f : Ix (S + 1) → α) (hA : Denotes A s f) (hv : v < s a) :
    ∃ B, freezeAxis a v A = .ok B ∧ Denotes B (fun m => s (a.succAbove m)) fun i => f (a.insertNth v i) := by
  obtain ⟨B, g, hB, hg, hj⟩ := freeze_axes_partial (split_one a) A s f hA (fun _ => v) fun _ => hv
  refine ⟨B, hB, hg.1, fun i hi => (hg.2 i hi).trans (congrArg Outcome.ok ?_)⟩
  beta_reduce
  rw [← hj (a.insertNth v i) (fun t => ?_) fun _ => Fin.insertNth_apply_same (α := fun _ => Nat) a v i]
  · simp only [Fin.insertNth_apply_succAbove]
  · rcases (split_one a).all t with ⟨_, rfl⟩ | ⟨m, rfl⟩
    · simpa using hv
    · simpa using hi m

example : ∃ B, freezeAxis 1 2 (indexArray ![2, 3, 4]) = .ok B ∧ Denotes B (fun m => (![2, 3, 4] : Ix 3) ((1 : Fin 3).succAbove m)) fun i => (1 : Fin 3).insertNth (α := fun _ => Nat) 2 i :=
  freeze_axis 1 2 (indexArray ![2, 3, 4]) ![2, 3, 4] id ⟨rfl, fun _ _ => rfl⟩ (by decide)

/-- Reducing an axis with an operator: the value at an index is what the operator makes of the line of the array along the axis through it. -/
theorem reduce_axis (op : Arr 1 α → Outcome β) (a : Fin (S + 1)) (A : Arr (S + 1) α) (s : Ix (S + 1)) (f : Ix (S + 1) → α) (hA : Denotes A s f) :
    ∃ B, reduceAxis op a A = .ok B ∧ B.shape = (fun m => s (a.succAbove m)) ∧
      ∀ i, InShape B.shape i → ∃ L, Denotes L (fun _ => s a) (fun n => f (a.insertNth (n 0) i)) ∧ B.get i = op L := by
  unfold reduceAxis
  rw [if_neg (by have := a.2; omega), removeElements_eq (split_one a), Outcome.bind_ok, removeElements_eq (split_one a), Outcome.bind_ok]
  refine ⟨_, rfl, by rw [hA.1], fun i hi => ?_⟩
  have hi' : ∀ m, i m < s (a.succAbove m) := fun m => by
    have := hi m
    rwa [hA.1] at this
  obtain ⟨L, g, hL, hg, hj⟩ := freeze_axes_partial (split_rest a) A s f hA i hi'
  refine ⟨L, ⟨hg.1, fun n hn => (hg.2 n hn).trans (congrArg Outcome.ok ?_)⟩, ?_⟩
  · beta_reduce
    rw [← hj (a.insertNth (n 0) i) (fun t => ?_) fun m => Fin.insertNth_apply_succAbove (α := fun _ => Nat) a (n 0) i m]
    · refine congrArg g (funext fun m => ?_)
      rw [Subsingleton.elim m 0]
      exact (Fin.insertNth_apply_same (α := fun _ => Nat) a (n 0) i).symm
    · rcases (split_one a).all t with ⟨_, rfl⟩ | ⟨m, rfl⟩
      · simpa using hn 0
      · simpa using hi' m
  · show (freezeAxes 1 _ i A).bind op = _
    rw [hL, Outcome.bind_ok]

/-- The sums of the columns of a table of two rows. -/
example : ∃ B, reduceAxis sum 0 (⟨![2, 3], fun i => .ok (10 * i 0 + i 1)⟩ : Arr 2 Nat) = .ok B ∧ B.shape = (fun m => (![2, 3] : Ix 2) ((0 : Fin 2).succAbove m)) :=
  (reduce_axis sum 0 _ ![2, 3] (fun i => 10 * i 0 + i 1) ⟨rfl, fun _ _ => rfl⟩).imp fun _ h => ⟨h.1, h.2.1⟩

/-- Replacing a region: the elements of the region are those of the replacement, in its order, and all others are as they were. A replacement of another
shape than the region is refused. -/
theorem replace_region (p : AccessPattern R) (h : Regular p) (A B : Arr R α) (s : Ix R) (f g : Ix R → α) (hA : Denotes A s f) (hs : ∀ a, s a ≤ 2 ^ 64)
    (hB : Denotes B p.shape g) :
    ∃ C c, replace p B A = .ok C ∧ Denotes C s c ∧ (∀ i, InShape s i → ¬ InRegion p i → c i = f i) ∧
      ∀ n, InShape p.shape n → InShape s (fun a => p.start a + n a * p.jumps a) → c (fun a => p.start a + n a * p.jumps a) = g n := by
  obtain ⟨h1, h2, h3⟩ := region_index_maps p h
  obtain ⟨rfl, hf⟩ := hA
  have hb : ∀ i, InShape A.shape i → ∀ a, i a < 2 ^ 64 := fun i hi a => lt_of_lt_of_le (hi a) (hs a)
  have hj : p.JumpsOk = true := jumpsOk_iff.2 fun a => by have := (h a).2.1; omega
  unfold replace
  rw [hj, if_neg (by simp), if_neg (by simp [hB.1])]
  refine ⟨_, fun i => if p.generates i then g (p.inverseMapIndex i) else f i, rfl, ⟨rfl, fun i hi => ?_⟩, fun i hi hr => ?_, fun n hn hi => ?_⟩
  · simp only
    by_cases hr : p.generates i = true
    · rw [if_pos hr, if_pos hr, hB.2 _ (h3 i ((h1 i (hb i hi)).1 hr)).1]
    · rw [if_neg hr, if_neg hr, hf i hi]
  · exact if_neg fun hg => hr ((h1 i (hb i hi)).1 hg)
  · have hr : InRegion p (fun a => p.start a + n a * p.jumps a) := by
      intro a
      refine ⟨n a, ?_, ?_⟩
      · rfl
      · have := hn a
        rw [AccessPattern.shape_eq h a, AccessPattern.lt_len (h a).1 (h a).2.1] at this
        exact this
    show (if p.generates _ then _ else _) = _
    rw [if_pos ((h1 _ (hb _ hi)).2 hr)]
    refine congrArg g (funext fun a => ?_)
    unfold AccessPattern.inverseMapIndex
    rw [wsub_eq (by omega) (hb _ hi a), Nat.add_sub_cancel_left, Nat.mul_div_cancel _ (h a).2.1]

/-- A replacement of another shape than the region is refused. -/
theorem replace_throws (p : AccessPattern R) (A B : Arr R α) (h : ∀ a, p.jumps a ≠ 0) (hs : p.shape ≠ B.shape) : replace p B A = .throws .logicError := by
  unfold replace
  rw [jumpsOk_iff.2 h, if_neg (by simp), if_pos hs]

/-- What was put into a region is what is read from it. -/
theorem select_replace (p : AccessPattern R) (h : Regular p) (A B : Arr R α) (s : Ix R) (f g : Ix R → α) (hA : Denotes A s f) (hs : ∀ a, s a ≤ 2 ^ 64)
    (hB : Denotes B p.shape g) (hp : ∀ a, p.start a + p.jumps a * p.shape a ≤ s a) :
    ∃ C D, replace p B A = .ok C ∧ select p C = .ok D ∧ Denotes D p.shape g := by
  obtain ⟨C, c, h1, h2, -, h4⟩ := replace_region p h A B s f g hA hs hB
  obtain ⟨D, h5, h6, h7⟩ := (select_partial p h C s c h2).1 hp
  refine ⟨C, D, h1, h5, h6.1, fun n hn => (h6.2 n hn).trans (congrArg Outcome.ok ?_)⟩
  have := h4 n hn (by simpa only [mul_comm] using h7 n hn)
  simpa only [mul_comm] using this

/-- VIOLATION: a region that is not in the array is not refused: the elements for it are dropped. -/
theorem replace_outside_violated : ∃ C : Arr 1 Nat,
    replace (⟨fun _ => 5, fun _ => 7, fun _ => 1⟩ : AccessPattern 1) ⟨fun _ => 2, fun _ => .ok 9⟩ ⟨fun _ => 3, fun _ => .ok 0⟩ = .ok C ∧
    C.shape = (fun _ => 3) ∧ ∀ i, i 0 < 3 → C.get i = .ok 0 := by
  have hr : Regular (⟨fun _ => 5, fun _ => 7, fun _ => 1⟩ : AccessPattern 1) := fun a => ⟨by norm_num, by norm_num, by norm_num⟩
  have hs : (⟨fun _ => 5, fun _ => 7, fun _ => 1⟩ : AccessPattern 1).shape = fun _ => 2 := by
    funext a
    rw [AccessPattern.shape_eq hr a]
    norm_num [AccessPattern.len]
  obtain ⟨C, c, h1, h2, h3, -⟩ := replace_region _ hr ⟨fun _ => 3, fun _ => .ok 0⟩ ⟨fun _ => 2, fun _ => .ok 9⟩ (fun _ => 3) (fun _ => 0) (fun _ => 9)
    ⟨rfl, fun _ _ => rfl⟩ (fun _ => by norm_num) ⟨hs.symm, fun _ _ => rfl⟩
  refine ⟨C, h1, h2.1, fun i hi => ?_⟩
  have hi' : InShape (fun _ => 3) i := fun a => by rw [Subsingleton.elim a 0]; exact hi
  rw [h2.2 i hi', h3 i hi' fun hreg => ?_]
  obtain ⟨k, hk, -⟩ := hreg 0
  simp only at hk
  omega

/-- `all` and `any` of an array of truth values with an element on every axis. -/
theorem all_any (A : Arr (R + 1) Bool) (s : Ix (R + 1)) (f : Ix (R + 1) → Bool) (hA : Denotes A s f) (h0 : ∀ a, 0 < s a) (hb : ∀ a, s a < 2 ^ 64) :
    (∃ b, all A = .ok b ∧ (b = true ↔ ∀ i, InShape s i → f i = true)) ∧ ∃ b, any A = .ok b ∧ (b = true ↔ ∃ i, InShape s i ∧ f i = true) := by
  obtain ⟨l, h1, h2, -⟩ := elements_denotes hA (Or.inl h0) hb
  refine ⟨⟨_, by unfold all; rw [h1]; rfl, ?_⟩, ⟨_, by unfold any; rw [h1]; rfl, ?_⟩⟩
  · simp only [List.all_map, List.all_eq_true, Function.comp, id, h2]
  · simp only [List.any_map, List.any_eq_true, Function.comp, id, h2]

/-! ## Examples -/

example : Split (![0, 2] : Fin 2 → Fin 3) (![1] : Fin 1 → Fin 3) := ⟨by decide, by decide, by decide, by decide⟩

/-- An array of shape (2, 3, 4), frozen at index 1 on axis 0 and at index 3 on axis 2. -/
example : ∃ B g, freezeAxes 1 (fun n => ((![0, 2] : Fin 2 → Fin 3) n : Nat)) ![1, 3] (indexArray ![2, 3, 4]) = .ok B ∧
    Denotes B (fun m => (![2, 3, 4] : Ix 3) ((![1] : Fin 1 → Fin 3) m)) g ∧ g (fun _ => 2) = ![1, 2, 3] := by
  obtain ⟨B, g, h1, h2, h3⟩ := freeze_axes_partial (axes := ![0, 2]) (others := ![1]) ⟨by decide, by decide, by decide, by decide⟩
    (indexArray ![2, 3, 4]) ![2, 3, 4] id ⟨rfl, fun _ _ => rfl⟩ ![1, 3] (by decide)
  refine ⟨B, g, h1, h2, ?_⟩
  rw [← show id (![1, 2, 3] : Ix 3) = ![1, 2, 3] from rfl, ← h3 ![1, 2, 3] (show ∀ a, _ by decide) (by decide)]
  exact congrArg g (funext fun m => by rw [Subsingleton.elim m 0]; rfl)

example : Regular (⟨![1, 0], ![4, 2], ![2, 1]⟩ : AccessPattern 2) := by
  intro a
  fin_cases a <;> norm_num

example : ∃ b, any (⟨![2, 2], fun i => .ok (i 0 == i 1)⟩ : Arr 2 Bool) = .ok b ∧ b = true := by
  obtain ⟨-, b, h1, h2⟩ := all_any (⟨![2, 2], fun i => .ok (i 0 == i 1)⟩ : Arr 2 Bool) ![2, 2] (fun i => i 0 == i 1) ⟨rfl, fun _ _ => rfl⟩
    (fun a => by fin_cases a <;> norm_num) (fun a => by fin_cases a <;> norm_num)
  exact ⟨b, h1, h2.2 ⟨![0, 0], show ∀ a, _ by decide, rfl⟩⟩

/-- Every other row of a table of four rows, replaced. -/
example : ∃ C D, replace (⟨![1, 0], ![5, 2], ![2, 1]⟩ : AccessPattern 2) ⟨(⟨![1, 0], ![5, 2], ![2, 1]⟩ : AccessPattern 2).shape, fun i => .ok (100 + i 0)⟩
      (⟨![6, 2], fun i => .ok (10 * i 0 + i 1)⟩ : Arr 2 Nat) = .ok C ∧ select (⟨![1, 0], ![5, 2], ![2, 1]⟩ : AccessPattern 2) C = .ok D ∧
    Denotes D (⟨![1, 0], ![5, 2], ![2, 1]⟩ : AccessPattern 2).shape fun i => 100 + i 0 :=
  select_replace _ (by intro a; fin_cases a <;> norm_num) _ _ ![6, 2] (fun i => 10 * i 0 + i 1) _ ⟨rfl, fun _ _ => rfl⟩ (by intro a; fin_cases a <;> norm_num)
    ⟨rfl, fun _ _ => rfl⟩ (by decide)

example : replace (⟨![1, 0], ![5, 2], ![2, 1]⟩ : AccessPattern 2) ⟨![7, 7], fun _ => .ok 0⟩ (⟨![6, 2], fun i => .ok (10 * i 0 + i 1)⟩ : Arr 2 Nat) = .throws .logicError :=
  replace_throws _ _ _ (by decide) (by decide)

end Verif.Nd
