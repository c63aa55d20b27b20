import Verif.Lemmas.NdIter
import Mathlib.Data.Fin.VecNotation
import Mathlib.Tactic.FinCases

/-!
# C20-C25, C29: shapes, offsets, iteration, evaluation, selection
-/

namespace Verif.Nd
open Verif

variable {R : Nat} {α β γ : Type}

/-! ## C20 offsets -/

/-- For every shape with fewer than `2^64` elements the memory offset maps the indexes of the shape one
to one onto the numbers below the number of elements. -/
theorem offset_bijection (s : Ix R) (hc : count s < 2 ^ 64) :
    (∀ i, InShape s i → computeOffset (strides s) i < count s) ∧
    (∀ i j, InShape s i → InShape s j → computeOffset (strides s) i = computeOffset (strides s) j → i = j) ∧
    (∀ n, n < count s → ∃ i, InShape s i ∧ computeOffset (strides s) i = n) := by
  refine ⟨fun i hi => ?_, fun i j hi hj h => ?_, fun n hn => ?_⟩
  · rw [computeOffset_off s i hi hc]; exact off_lt s i hi
  · rw [computeOffset_off s i hi hc, computeOffset_off s j hj hc] at h
    exact off_inj s i j hi hj h
  · obtain ⟨i, hi, ho⟩ := off_surj s n hn
    exact ⟨i, hi, by rw [computeOffset_off s i hi hc, ho]⟩

example : ∀ n, n < count (![3, 4] : Ix 2) → ∃ i, InShape ![3, 4] i ∧ computeOffset (strides ![3, 4]) i = n :=
  (offset_bijection (![3, 4] : Ix 2) (by decide)).2.2

/-- The offsets increase in row-major order. -/
theorem offset_row_major (s : Ix R) (hc : count s < 2 ^ 64) (i j : Ix R) (hi : InShape s i) (hj : InShape s j) :
    RowMajor i j ↔ computeOffset (strides s) i < computeOffset (strides s) j := by
  have mono : ∀ {R : Nat} (s i j : Ix R), InShape s i → InShape s j → RowMajor i j → off s i < off s j := by
    intro R
    induction R with
    | zero => rintro s i j _ _ ⟨a, _⟩; exact a.elim0
    | succ R ih =>
      intro s i j hi hj ⟨a, h1, h2⟩
      obtain ⟨hi0, hi'⟩ := inShape_cons.1 hi
      obtain ⟨hj0, hj'⟩ := inShape_cons.1 hj
      unfold off
      by_cases ha : a = 0
      · subst ha
        have l1 := off_lt _ _ hi'
        have : (i 0 + 1) * count (Fin.tail s) ≤ j 0 * count (Fin.tail s) := Nat.mul_le_mul_right _ h2
        rw [Nat.add_mul, Nat.one_mul] at this
        omega
      · obtain ⟨b, rfl⟩ := Fin.exists_succ_eq_of_ne_zero ha
        rw [h1 0 (Fin.succ_pos b)]
        have := ih (Fin.tail s) (Fin.tail i) (Fin.tail j) hi' hj'
          ⟨b, fun c hc => h1 c.succ (Fin.succ_lt_succ_iff.2 hc), h2⟩
        omega
  have total : ∀ {R : Nat} (i j : Ix R), i = j ∨ RowMajor i j ∨ RowMajor j i := by
    intro R
    induction R with
    | zero => intro i j; exact Or.inl (funext fun a => a.elim0)
    | succ R ih =>
      intro i j
      rcases Nat.lt_trichotomy (i 0) (j 0) with h | h | h
      · exact Or.inr (Or.inl ⟨0, fun b hb => absurd hb (by simp), h⟩)
      · have lift : ∀ i j : Ix (R + 1), i 0 = j 0 → RowMajor (Fin.tail i) (Fin.tail j) → RowMajor i j := by
          rintro i j h ⟨a, h1, h2⟩
          refine ⟨a.succ, fun b => Fin.cases (fun _ => h) (fun b hb => ?_) b, h2⟩
          exact h1 b (Fin.succ_lt_succ_iff.1 hb)
        rcases ih (Fin.tail i) (Fin.tail j) with e | e | e
        · left; rw [← Fin.cons_self_tail i, ← Fin.cons_self_tail j, h, e]
        · exact Or.inr (Or.inl (lift i j h e))
        · exact Or.inr (Or.inr (lift j i h.symm e))
      · exact Or.inr (Or.inr ⟨0, fun b hb => absurd hb (by simp), h⟩)
  rw [computeOffset_off s i hi hc, computeOffset_off s j hj hc]
  refine ⟨mono s i j hi hj, fun h => ?_⟩
  rcases total i j with e | e | e
  · subst e; omega
  · exact e
  · have := mono s j i hj hi e; omega

example : computeOffset (strides (![3, 4] : Ix 2)) ![1, 3] < computeOffset (strides (![3, 4] : Ix 2)) ![2, 1] :=
  (offset_row_major (![3, 4] : Ix 2) (by decide) ![1, 3] ![2, 1] (by unfold InShape; decide)
    (by unfold InShape; decide)).1 ⟨0, by decide, by decide⟩

/-! ## C29 volume -/

/-- The reported volume is the number of elements, as long as this fits an `int`. -/
theorem volume_partial (s : Ix R) (h : count s < 2 ^ 31) : volume s = count s := volume_small h

example : volume (![40, 30, 20] : Ix 3) = 24000 := (volume_partial _ (by decide)).trans (by decide)

/-- VIOLATION: a shape of 65536 x 65536 reports the volume 0, a buffer without elements passes the size
check for it, and reading any in-bounds index is undefined behaviour. -/
theorem volume_violated : ∃ (s : Ix 2) (A : Arr 2 Nat), (∀ a, s a = 65536) ∧ volume s = 0 ∧
    ofBuffer s [] = .ok A ∧ ∀ i, InShape s i → A.get i = .ub :=
  ⟨fun _ => 65536, ⟨fun _ => 65536, fun _ => .ub⟩, fun _ => rfl, by decide +kernel, by
    unfold ofBuffer
    rw [if_neg (by decide +kernel)]
    simp, fun _ _ => rfl⟩

/-- An accepted buffer is large enough for every in-bounds index, as long as the number of elements fits
an `int`. -/
theorem buffer_large_enough_partial (s : Ix R) (buf : List α) (A : Arr R α) (h : count s < 2 ^ 31)
    (hA : ofBuffer s buf = .ok A) (i : Ix R) (hi : InShape s i) : ∃ v, A.get i = .ok v ∧ v ∈ buf := by
  unfold ofBuffer at hA
  split at hA
  · cases hA
  · rename_i hv
    injection hA with hA
    subst hA
    rw [volume_small h, not_not] at hv
    have hlt : computeOffset (strides s) i < buf.length := by
      rw [← hv]; exact (offset_bijection s (by omega)).1 i hi
    simp only
    rw [List.getElem?_eq_getElem hlt]
    exact ⟨_, rfl, List.getElem_mem hlt⟩

example : ∃ A, ofBuffer (![2, 2] : Ix 2) [5, 6, 7, 8] = .ok A ∧
    ∀ i, InShape ![2, 2] i → ∃ v, A.get i = .ok v ∧ v ∈ [5, 6, 7, 8] :=
  ⟨_, rfl, fun i hi => buffer_large_enough_partial ![2, 2] [5, 6, 7, 8] _ (by decide) rfl i hi⟩

/-! ## C21 iteration -/

/-- Iterating a region visits exactly its indexes, each once, in row-major order; there are as many as
the shape of the region says. -/
theorem iterate_region (p : AccessPattern (R + 1)) (h : Regular p) :
    ∃ l, p.indexes = .ok l ∧ (∀ i, i ∈ l ↔ InRegion p i) ∧ l.Pairwise RowMajor ∧ l.Nodup ∧
      l.length = count p.shape := by
  refine ⟨_, AccessPattern.indexes_eq p h, fun i => AccessPattern.mem_grid h, AccessPattern.sorted_grid h, ?_, ?_⟩
  · apply (AccessPattern.sorted_grid h).imp
    rintro i j ⟨a, _, h⟩ rfl
    omega
  · rw [AccessPattern.length_grid]
    unfold count
    exact Finset.prod_congr rfl fun a _ => (AccessPattern.shape_eq h a).symm

example : ∃ l, (⟨![0, 1], ![5, 3], ![2, 1]⟩ : AccessPattern 2).indexes = .ok l ∧
    (∀ i, i ∈ l ↔ InRegion (⟨![0, 1], ![5, 3], ![2, 1]⟩ : AccessPattern 2) i) ∧ l.Pairwise RowMajor ∧ l.Nodup ∧
    l.length = count (⟨![0, 1], ![5, 3], ![2, 1]⟩ : AccessPattern 2).shape :=
  iterate_region _ (by unfold Regular; decide)

/-- An empty region of rank one, and one with `start = final` on every axis, is not iterated. -/
theorem iterate_empty_partial (p : AccessPattern (R + 1)) (h : p.start = p.final) : p.indexes = .ok [] := by
  unfold AccessPattern.indexes
  rw [AccessPattern.visit, if_pos h]

example : (⟨![2, 1], ![2, 1], ![1, 1]⟩ : AccessPattern 2).indexes = .ok [] := iterate_empty_partial _ rfl

/-- VIOLATION: an empty region with `start ≠ final` on some axis is iterated; if the loop ends at all then
it has visited `start`, which is not in the region. -/
theorem iterate_empty_violated (p : AccessPattern (R + 1)) (h : p.start ≠ p.final) (l)
    (hl : p.indexes = .ok l) : p.start ∈ l := by
  unfold AccessPattern.indexes at hl
  rw [AccessPattern.visit, if_neg h, Outcome.bind_eq_ok] at hl
  obtain ⟨m, _, hm⟩ := hl
  injection hm with hm
  subst hm
  simp

/-- The 0 x 3 shape has no index, and iterating it visits three. -/
theorem iterate_empty_witness : (∀ i, ¬ InShape (![0, 3] : Ix 2) i) ∧
    (makeAccessPattern (![0, 3] : Ix 2)).indexes = .ok [![0, 0], ![0, 1], ![0, 2]] :=
  ⟨fun i h => absurd (h 0) (by simp), by decide +kernel⟩

/-- `generates` decides membership in the region, `contains` membership in its shape; `map_index` is a
bijection from the shape to the region with inverse `inverse_map_index`. -/
theorem region_index_maps (p : AccessPattern R) (h : Regular p) :
    (∀ i, (∀ a, i a < 2 ^ 64) → (p.generates i = true ↔ InRegion p i)) ∧
    (∀ i, InShape p.shape i → InRegion p (p.mapIndex i) ∧ p.inverseMapIndex (p.mapIndex i) = i) ∧
    (∀ i, InRegion p i → InShape p.shape (p.inverseMapIndex i) ∧ p.mapIndex (p.inverseMapIndex i) = i) := by
  have hlen : ∀ i, InShape p.shape i → ∀ a, p.start a + p.jumps a * i a < p.final a := by
    intro i hi a
    obtain ⟨h1, h2, h3⟩ := h a
    have := hi a
    rw [AccessPattern.shape_eq h a, AccessPattern.lt_len h1 h2, mul_comm] at this
    exact this
  have hinv : ∀ i, InRegion p i → ∀ a, ∃ k, i a = p.start a + p.jumps a * k ∧ p.inverseMapIndex i a = k ∧
      k < p.shape a := by
    intro i hi a
    obtain ⟨k, hk, hlt⟩ := hi a
    obtain ⟨h1, h2, h3⟩ := h a
    refine ⟨k, by rw [mul_comm]; exact hk, ?_, ?_⟩
    · unfold AccessPattern.inverseMapIndex
      rw [wsub_eq (by omega) (by omega), hk, Nat.add_sub_cancel_left, Nat.mul_div_cancel _ h2]
    · rw [AccessPattern.shape_eq h a, AccessPattern.lt_len h1 h2]
      omega
  refine ⟨fun i hb => ?_, fun i hi => ?_, fun i hi => ?_⟩
  · unfold AccessPattern.generates InRegion
    simp only [List.all_eq_true, List.mem_finRange, forall_true_left, Bool.not_eq_true', Bool.or_eq_false_iff,
      decide_eq_false_iff_not]
    refine forall_congr' fun a => ?_
    obtain ⟨h1, h2, h3⟩ := h a
    constructor
    · rintro ⟨⟨g1, g2⟩, g3⟩
      rw [wsub_eq (by omega) (hb a), not_not] at g3
      obtain ⟨k, hk⟩ := Nat.dvd_of_mod_eq_zero g3
      exact ⟨k, by rw [mul_comm, ← hk]; omega, by omega⟩
    · rintro ⟨k, hk, hlt⟩
      refine ⟨⟨by omega, by omega⟩, ?_⟩
      rw [wsub_eq (by omega) (hb a), not_not, hk, Nat.add_sub_cancel_left, Nat.mul_mod_left]
  · have e := mapIndex_eq p i (fun a => by have := hlen i hi a; have := (h a).2.2; omega)
    have hr : InRegion p (p.mapIndex i) := by
      rw [e]
      exact fun a => ⟨i a, by rw [mul_comm], hlen i hi a⟩
    refine ⟨hr, ?_⟩
    funext a
    obtain ⟨k, h1, h2, _⟩ := hinv _ hr a
    rw [h2]
    rw [e] at h1
    exact (Nat.eq_of_mul_eq_mul_left (h a).2.1 (Nat.add_left_cancel h1)).symm
  · refine ⟨fun a => ?_, ?_⟩
    · obtain ⟨k, _, h2, h3⟩ := hinv i hi a
      rw [h2]; exact h3
    · have e : ∀ a, p.start a + p.jumps a * p.inverseMapIndex i a = i a := by
        intro a
        obtain ⟨k, h1, h2, _⟩ := hinv i hi a
        rw [h2, h1]
      rw [mapIndex_eq p _ (fun a => by
        rw [e a]
        obtain ⟨_, _, h2⟩ := hi a
        have := (h a).2.2
        omega)]
      exact funext e

example (i : Ix 2) (hi : InRegion (⟨![0, 1], ![5, 3], ![2, 1]⟩ : AccessPattern 2) i) :
    (⟨![0, 1], ![5, 3], ![2, 1]⟩ : AccessPattern 2).mapIndex
      ((⟨![0, 1], ![5, 3], ![2, 1]⟩ : AccessPattern 2).inverseMapIndex i) = i :=
  ((region_index_maps _ (by unfold Regular; decide)).2.2 i hi).2

/-! ## C22 evaluation -/

/-- Evaluating an array to memory gives an array of the same shape with the same values: if every axis has
an element, or the rank is one, and the number of elements fits an `int`. -/
theorem evaluate_partial [Inhabited α] (A : Arr (R + 1) α) (s : Ix (R + 1)) (f : Ix (R + 1) → α)
    (hA : Denotes A s f) (hp : (∀ a, 0 < s a) ∨ R = 0) (hc : count s < 2 ^ 31) :
    ∃ B, evaluate A = .ok B ∧ Denotes B s f := evaluate_ok hA hp hc

example : ∃ B, evaluate (indexArray (![2, 3] : Ix 2)) = .ok B ∧ Denotes B ![2, 3] id :=
  evaluate_partial _ _ _ ⟨rfl, fun _ _ => rfl⟩ (.inl (by decide)) (by decide)

/-- VIOLATION: evaluating an array with an empty axis and a non-empty one never succeeds, although there is
no element to compute. -/
theorem evaluate_empty_violated [Inhabited α] (A : Arr (R + 1) α) (a b : Fin (R + 1)) (ha : A.shape a = 0)
    (hb : A.shape b ≠ 0) : ∀ B, evaluate A ≠ .ok B := by
  intro B h
  have hc : count A.shape = 0 := Finset.prod_eq_zero (Finset.mem_univ a) ha
  have hv : volume A.shape = 0 := by rw [volume_small (by omega), hc]
  unfold evaluate at h
  rw [hv, if_neg (by norm_num), Outcome.bind_eq_ok] at h
  obtain ⟨l, hl, h⟩ := h
  have hm := iterate_empty_violated (makeAccessPattern A.shape) (fun e => hb (congrFun e b).symm) l hl
  rw [Outcome.bind_eq_ok] at h
  obtain ⟨buf, h, _⟩ := h
  cases l with
  | nil => simp at hm
  | cons i l =>
    unfold writeAll at h
    rw [Outcome.bind_eq_ok] at h
    obtain ⟨v, _, h⟩ := h
    rw [if_neg (by simp)] at h
    cases h

/-- Evaluating the 0 x 3 array with all elements 7 writes out of bounds. -/
theorem evaluate_empty_witness : evaluate (promote 7 (![0, 3] : Ix 2)) = .ub := by
  unfold evaluate
  have hv : volume (promote 7 (![0, 3] : Ix 2)).shape = 0 := by decide +kernel
  rw [hv, if_neg (by norm_num)]
  have h2 := iterate_empty_witness.2
  rw [show (promote 7 (![0, 3] : Ix 2)).shape = ![0, 3] from rfl, h2, Outcome.bind_ok]
  rfl

/-- Bounds checking: in range the same value, otherwise `out_of_range`. -/
theorem bounds_check (A : Arr R α) (i : Ix R) :
    (boundsCheck A).shape = A.shape ∧ (InShape A.shape i → (boundsCheck A).get i = A.get i) ∧
    (¬ InShape A.shape i → (boundsCheck A).get i = .throws .outOfRange) := by
  refine ⟨rfl, fun h => ?_, fun h => ?_⟩
  · simp only [boundsCheck]
    rw [if_pos (contains_eq.2 h)]
  · simp only [boundsCheck]
    rw [if_neg (fun e => h (contains_eq.1 e))]

example : (boundsCheck (indexArray (![2, 3] : Ix 2))).get ![1, 2] = .ok ![1, 2] ∧
    (boundsCheck (indexArray (![2, 3] : Ix 2))).get ![1, 3] = .throws .outOfRange :=
  ⟨(bounds_check _ _).2.1 (by unfold InShape; decide), (bounds_check _ _).2.2 (by unfold InShape; decide)⟩

/-- Elementwise operators. -/
theorem elementwise (A : Arr R α) (B : Arr R β) (s : Ix R) (f : Ix R → α) (g : Ix R → β) (hA : Denotes A s f)
    (hB : Denotes B s g) (u : α → γ) (v : α → β → γ) :
    Denotes (A.map u) s (fun i => u (f i)) ∧
    (∃ C, binaryOp v A B = .ok C ∧ Denotes C s (fun i => v (f i) (g i))) ∧
    (∀ B' : Arr R β, B'.shape ≠ s → binaryOp v A B' = .throws .logicError) := by
  obtain ⟨rfl, hf⟩ := hA
  obtain ⟨hs, hg⟩ := hB
  refine ⟨⟨rfl, fun i hi => ?_⟩, ?_, fun B' h => ?_⟩
  · simp [Arr.map, hf i hi]
  · unfold binaryOp
    rw [if_neg (by simp [hs])]
    refine ⟨_, rfl, rfl, fun i hi => ?_⟩
    simp only
    rw [hf i hi, Outcome.bind_ok, hg i hi, Outcome.bind_ok]
  · unfold binaryOp
    rw [if_pos (fun e => h e.symm)]

example : ∃ C, binaryOp (fun (x y : Nat) => x + y) (arange 3) (arange 3) = .ok C ∧
    Denotes C (fun _ => 3) (fun i => i 0 + i 0) :=
  (elementwise (arange 3) (arange 3) (fun _ => 3) (fun i => i 0) (fun i => i 0) ⟨rfl, fun _ _ => rfl⟩
    ⟨rfl, fun _ _ => rfl⟩ (fun x => x) (fun x y => x + y)).2.1

/-! ## C23 selection -/

/-- For a region with an index on every axis: selecting succeeds exactly if `start + jump * count` does not
exceed the extent on any axis, and throws otherwise.  If it succeeds, every index of the result reads the
in-bounds parent element `start + jump * index`. -/
theorem select_partial (p : AccessPattern R) (h : Regular p) (A : Arr R α) (s : Ix R) (f : Ix R → α)
    (hA : Denotes A s f) :
    ((∀ a, p.start a + p.jumps a * p.shape a ≤ s a) →
      ∃ B, select p A = .ok B ∧ Denotes B p.shape (fun i => f fun a => p.start a + p.jumps a * i a) ∧
        ∀ i, InShape p.shape i → InShape s (fun a => p.start a + p.jumps a * i a)) ∧
    (¬ (∀ a, p.start a + p.jumps a * p.shape a ≤ s a) → select p A = .throws .logicError) := by
  obtain ⟨rfl, hf⟩ := hA
  have hj : p.JumpsOk = true := jumpsOk_iff.2 fun a => by have := (h a).2.1; omega
  have e : p.shape = p.len := funext fun a => AccessPattern.shape_eq h a
  constructor
  · intro hw
    rw [e] at hw
    unfold select
    rw [hj, (within_iff h A.shape).2 hw]
    refine ⟨_, rfl, ⟨rfl, fun i hi => ?_⟩, fun i hi a => ?_⟩
    · have hin : InShape A.shape (fun a => p.start a + p.jumps a * i a) := by
        intro a
        have h1 := hi a
        rw [e] at h1
        have := Nat.mul_lt_mul_of_pos_left h1 (h a).2.1
        have := hw a
        show p.start a + p.jumps a * i a < A.shape a
        omega
      simp only
      rw [mapIndex_eq p i, hf _ hin]
      intro a
      have h1 := hi a
      rw [e] at h1
      have := Nat.mul_lt_mul_of_pos_left h1 (h a).2.1
      have := len_mul_le h a
      have := (h a).2.2
      omega
    · have h1 := hi a
      rw [e] at h1
      have := Nat.mul_lt_mul_of_pos_left h1 (h a).2.1
      have := hw a
      show p.start a + p.jumps a * i a < A.shape a
      omega
  · intro hw
    rw [e] at hw
    unfold select
    rw [hj, Bool.eq_false_iff.2 (fun h' => hw ((within_iff h A.shape).1 h'))]
    rfl

example : ∃ B, select (⟨![0, 1], ![4, 2], ![2, 1]⟩ : AccessPattern 2) (indexArray ![4, 3]) = .ok B ∧
    Denotes B (⟨![0, 1], ![4, 2], ![2, 1]⟩ : AccessPattern 2).shape
      fun i => id fun a => (![0, 1] : Ix 2) a + (![2, 1] : Ix 2) a * i a := by
  obtain ⟨B, h1, h2, _⟩ := (select_partial (⟨![0, 1], ![4, 2], ![2, 1]⟩ : AccessPattern 2)
    (by unfold Regular; decide) (indexArray ![4, 3]) ![4, 3] id ⟨rfl, fun _ _ => rfl⟩).1 (by decide +kernel)
  exact ⟨B, h1, h2⟩

/-- A selection that would leave the parent array throws. -/
theorem select_outside_throws (p : AccessPattern R) (h : Regular p) (A : Arr R α) (s : Ix R) (f : Ix R → α)
    (hA : Denotes A s f) (i : Ix R) (hi : InRegion p i) (ho : ¬ InShape s i) :
    select p A = .throws .logicError := by
  refine (select_partial p h A s f hA).2 fun hw => ho fun a => ?_
  obtain ⟨h1, h2⟩ := (region_index_maps p h).2.2 i hi
  have := h1 a
  have h3 := Nat.mul_lt_mul_of_pos_left this (h a).2.1
  have h4 := hw a
  rw [← h2]
  unfold AccessPattern.mapIndex
  refine lt_of_le_of_lt (Nat.mod_le _ _) ?_
  have : w (p.jumps a * p.inverseMapIndex i a) ≤ p.jumps a * p.inverseMapIndex i a := Nat.mod_le _ _
  omega

example : select (⟨![0, 1], ![4, 2], ![2, 1]⟩ : AccessPattern 2) (indexArray ![2, 3]) = .throws .logicError :=
  select_outside_throws _ (by unfold Regular; decide) _ ![2, 3] id ⟨rfl, fun _ _ => rfl⟩ ![2, 1]
    (fun a => by
      fin_cases a
      · exact ⟨1, by decide⟩
      · exact ⟨0, by decide⟩) (by unfold InShape; decide)

/-- VIOLATION: a region whose start lies beyond its end is accepted, and its elements are not in the parent. -/
theorem select_reversed_violated : ∃ (p : AccessPattern 1) (A B : Arr 1 Nat) (i : Ix 1),
    ofList [0, 10, 20, 30, 40, 50] = .ok A ∧ p.start 0 = 5 ∧ p.final 0 = 3 ∧ p.jumps 0 = 1 ∧
    select p A = .ok B ∧ InShape B.shape i ∧ B.get i = .ub :=
  ⟨⟨fun _ => 5, fun _ => 3, fun _ => 1⟩, ⟨fun _ => 6, _⟩, ⟨_, _⟩, fun _ => 7, rfl, rfl, rfl, rfl, rfl, by
    intro a; simp [AccessPattern.shape]; decide, by decide +kernel⟩

/-- VIOLATION: an empty selection with a stride of two has `2^63` elements, almost all of which are outside
of the parent. -/
theorem select_empty_stride_violated : ∃ (p : AccessPattern 1) (A B : Arr 1 Nat) (i : Ix 1),
    ofList [0, 10, 20] = .ok A ∧ p.start 0 = 1 ∧ p.final 0 = 1 ∧ p.jumps 0 = 2 ∧
    select p A = .ok B ∧ InShape B.shape i ∧ B.get i = .ub :=
  ⟨⟨fun _ => 1, fun _ => 1, fun _ => 2⟩, ⟨fun _ => 3, _⟩, ⟨_, _⟩, fun _ => 7, rfl, rfl, rfl, rfl, rfl, by
    intro a; simp [AccessPattern.shape]; decide, by decide +kernel⟩

/-- VIOLATION: selecting every other element of an array of odd size throws, although all of them are in
the array. -/
theorem select_rejects_inside : ∃ (p : AccessPattern 1) (A : Arr 1 Nat),
    ofList [0, 10, 20, 30, 40] = .ok A ∧ Regular p ∧ (∀ i, InRegion p i → InShape A.shape i) ∧
    select p A = .throws .logicError := by
  refine ⟨⟨fun _ => 0, fun _ => 5, fun _ => 2⟩, ⟨fun _ => 5, _⟩, rfl, fun a => ⟨?_, ?_, ?_⟩, ?_, ?_⟩
  · simp
  · simp
  · simp
  · intro i hi a
    obtain ⟨k, _, h⟩ := hi a
    exact h
  · unfold select
    rw [if_neg (by decide +kernel), if_pos (by decide +kernel)]

/-! ## C24 shifts -/

/-- Shifting by a negative amount `-d`: the result has `d` elements fewer on the axis and reads `d` elements
further; a shift by at least the extent throws. -/
theorem shift_down_partial (a : Fin R) (d : Nat) (A : Arr R α) (s : Ix R) (f : Ix R → α) (hA : Denotes A s f)
    (hb : s a < 2 ^ 64) :
    (d < s a → ∃ B, shiftBy a (-(d : Int)) A = .ok B ∧
      Denotes B (Function.update s a (s a - d)) (fun i => f (Function.update i a (i a + d))) ∧
      ∀ i, InShape B.shape i → InShape s (Function.update i a (i a + d))) ∧
    (s a ≤ d → shiftBy a (-(d : Int)) A = .throws .logicError) := by
  obtain ⟨rfl, hf⟩ := hA
  have hin : d < A.shape a → ∀ i, InShape (Function.update A.shape a (A.shape a - d)) i →
      InShape A.shape (Function.update i a (i a + d)) := by
    intro hd i hi b
    have := hi b
    by_cases hba : b = a
    · subst hba; simp only [Function.update_self] at this ⊢; omega
    · rw [Function.update_of_ne hba] at this ⊢; exact this
  refine ⟨fun hd => ?_, fun hd => ?_⟩
  · unfold shiftBy
    rw [dif_pos a.2, if_neg (by simp; omega)]
    refine ⟨_, rfl, ⟨by simp, fun i hi => ?_⟩, fun i hi => hin hd i (by simpa using hi)⟩
    have e : wsub (i a) (ofInt (-(d : Int))) = i a + d := by
      have := hi a
      rw [Function.update_self] at this
      unfold wsub ofInt
      rcases Nat.eq_zero_or_pos d with rfl | hd0
      · simp; omega
      · have : (-(d : Int)) % 2 ^ 64 = 2 ^ 64 - d := by
          rw [Int.emod_eq_iff]  <;> omega
        omega
    simp only [Fin.eta]
    rw [e]
    exact hf _ (hin hd i hi)
  · unfold shiftBy
    rw [dif_pos a.2, if_pos (by simp; omega)]

example : ∃ B, shiftBy 0 (-2) (indexArray (![5, 3] : Ix 2)) = .ok B ∧
    Denotes B (Function.update ![5, 3] 0 3) (fun i => Function.update i 0 (i 0 + 2)) := by
  obtain ⟨B, h1, h2, _⟩ := (shift_down_partial (0 : Fin 2) 2 (indexArray (![5, 3] : Ix 2)) ![5, 3] id
    ⟨rfl, fun _ _ => rfl⟩ (by decide)).1 (by decide)
  exact ⟨B, h1, h2⟩

/-- VIOLATION: shifting by a positive amount below the extent succeeds, and the first elements of the result
read the parent outside of its bounds (at an index close to `2^64`). -/
theorem shift_up_violated (a : Fin R) (d : Nat) (A : Arr R α) (h0 : 0 < d) (hd : d < A.shape a)
    (hp : ∀ b, 0 < A.shape b) (hb : A.shape a ≤ 2 ^ 63) :
    ∃ B, shiftBy a (d : Int) A = .ok B ∧ InShape B.shape (fun _ => 0) ∧
      ∃ j, B.get (fun _ => 0) = A.get j ∧ A.shape a ≤ j a := by
  unfold shiftBy
  rw [dif_pos a.2, if_neg (by simp; omega)]
  refine ⟨_, rfl, fun b => ?_, _, rfl, ?_⟩
  · by_cases hba : b = a
    · subst hba; simp; omega
    · simp only [Fin.eta]; rw [Function.update_of_ne hba]; exact hp b
  · simp only [Fin.eta, Function.update_self]
    have : ofInt (d : Int) = d := ofInt_nat (by omega)
    rw [this]
    unfold wsub
    omega

/-- Shifting three elements up by one: the first element of the result is outside of the buffer. -/
theorem shift_up_witness : ∃ A B, ofList [10, 20, 30] = .ok A ∧ shiftBy 0 1 A = .ok B ∧
    B.get (fun _ => 0) = .ub := ⟨_, _, rfl, rfl, by decide +kernel⟩

/-! ## Instances -/

/-- The hypotheses of the offset theorems. -/
example : count (![4, 0, 7] : Ix 3) < 2 ^ 64 ∧ count (![3, 4] : Ix 2) < 2 ^ 31 ∧
    computeOffset (strides (![3, 4] : Ix 2)) ![2, 1] = 9 ∧ InShape (![3, 4] : Ix 2) ![2, 1] ∧
    RowMajor (![1, 3] : Ix 2) ![2, 1] :=
  ⟨by decide, by decide, by decide +kernel, by unfold InShape; decide, 0, by decide, by decide⟩

/-- A regular region: 0, 2, 4 by 1. -/
example : Regular (⟨![0, 1], ![5, 2], ![2, 1]⟩ : AccessPattern 2) ∧
    (⟨![0, 1], ![5, 2], ![2, 1]⟩ : AccessPattern 2).indexes = .ok [![0, 1], ![2, 1], ![4, 1]] :=
  ⟨by unfold Regular; decide, by decide +kernel⟩

/-- An array that meets the hypotheses of evaluation. -/
example : Denotes (indexArray (![2, 3] : Ix 2)) ![2, 3] id ∧ (∀ a, 0 < (![2, 3] : Ix 2) a) ∧
    count (![2, 3] : Ix 2) < 2 ^ 31 := ⟨⟨rfl, fun _ _ => rfl⟩, by decide, by decide⟩

/-- A selection that is accepted, one that leaves the array. -/
example : Regular (⟨![0, 1], ![4, 2], ![2, 1]⟩ : AccessPattern 2) ∧
    (∀ a, (⟨![0, 1], ![4, 2], ![2, 1]⟩ : AccessPattern 2).start a +
      (⟨![0, 1], ![4, 2], ![2, 1]⟩ : AccessPattern 2).jumps a *
      (⟨![0, 1], ![4, 2], ![2, 1]⟩ : AccessPattern 2).shape a ≤ (![4, 3] : Ix 2) a) ∧
    InRegion (⟨![0, 1], ![4, 2], ![2, 1]⟩ : AccessPattern 2) ![2, 1] ∧ ¬ InShape (![2, 3] : Ix 2) ![2, 1] :=
  ⟨by unfold Regular; decide, by decide +kernel, fun a => by
    fin_cases a
    · exact ⟨1, by decide⟩
    · exact ⟨0, by decide⟩, by unfold InShape; decide⟩

/-- A shift down by two of a 5 x 3 array on the first axis. -/
example : (2 : Nat) < (![5, 3] : Ix 2) 0 ∧ (![5, 3] : Ix 2) 0 < 2 ^ 63 ∧ ∀ b, 0 < (![5, 3] : Ix 2) b := by decide

end Verif.Nd
