import Verif.Model.Shock
import Verif.Props.NdOps
import Verif.Props.NdArray
import Mathlib.Tactic.Linarith
import Mathlib.Tactic.NormNum
import Mathlib.Tactic.IntervalCases
import Mathlib.Algebra.Order.Ring.Rat
import Mathlib.Algebra.Field.Rat

/-!
# C71: finding the shock
-/

namespace Verif.Shock

open Verif.Nd

variable {K : Type} [Field K] [LinearOrder K] [IsStrictOrderedRing K]

theorem min_fold (l : List K) (hl : l ≠ []) : ∃ m ∈ l, (∀ x ∈ l, m ≤ x) ∧
    l.foldl (fun r x => match r with
      | none => some x
      | some m => if decide (x < m) then some x else some m) none = some m := by
  obtain ⟨x, l, rfl⟩ := List.exists_cons_of_ne_nil hl
  rw [List.foldl_cons]
  dsimp only
  clear hl
  induction l generalizing x with
  | nil => exact ⟨x, by simp, by simp, rfl⟩
  | cons y l ih =>
    rw [List.foldl_cons]
    dsimp only
    by_cases h : y < x
    · obtain ⟨m, h1, h2, h3⟩ := ih y
      refine ⟨m, List.mem_cons_of_mem _ h1, ?_, ?_⟩
      · intro z hz
        rcases List.mem_cons.mp hz with rfl | hz
        · exact (h2 y (by simp)).trans h.le
        · exact h2 z hz
      · rw [if_pos (by simpa using h)]
        exact h3
    · obtain ⟨m, h1, h2, h3⟩ := ih x
      refine ⟨m, ?_, ?_, ?_⟩
      · rcases List.mem_cons.mp h1 with rfl | h1
        · simp
        · exact List.mem_cons_of_mem _ (List.mem_cons_of_mem _ h1)
      · intro z hz
        rcases List.mem_cons.mp hz with rfl | hz
        · exact h2 z (by simp)
        · rcases List.mem_cons.mp hz with rfl | hz
          · exact (h2 x (by simp)).trans (not_lt.mp h)
          · exact h2 z (List.mem_cons_of_mem _ hz)
      · rw [if_neg (by simpa using h)]
        exact h3

/-- Indexes of a one-dimensional array. -/
def at1 (k : Nat) : Ix 1 := fun _ => k

theorem ix1 (i : Ix 1) : i = at1 (i 0) := by
  funext a
  rw [Fin.fin_one_eq_zero a]
  rfl

/-- The first element of an array made of a list. -/
theorem ofList_first {α : Type} (L : List α) (hL : L.length < 2 ^ 31) :
    ∃ W, ofList L = .ok W ∧ W.get (fun _ => 0) = L.head?.elim .ub .ok := by
  have hv : volume (fun _ : Fin 1 => L.length) = L.length := by
    rw [volume_small (by simpa [count] using hL)]
    simp [count]
  have e : ofList L = .ok ⟨fun _ => L.length, fun i => match L[computeOffset (strides fun _ : Fin 1 => L.length) i]? with
    | some v => .ok v
    | none => .ub⟩ := by
    unfold ofList ofBuffer
    exact if_neg (not_not.mpr hv)
  refine ⟨_, e, ?_⟩
  have h0 : computeOffset (strides fun _ : Fin 1 => L.length) (fun _ => 0) = 0 := by
    unfold computeOffset strides
    simp [w, List.finRange_succ]
  dsimp only
  rw [h0]
  cases L <;> rfl

/-- The list of indexes where an array is true, in order. -/
theorem where_denotes {A : Arr 1 Bool} {n : Nat} {f : Ix 1 → Bool} (hA : Denotes A (at1 n) f) (hn : n < 2 ^ 31) :
    ∃ L : List (Ix 1), ∃ W, whereTrue A = .ok W ∧ (∀ i, i ∈ L ↔ i 0 < n ∧ f i = true) ∧ L.Pairwise RowMajor
      ∧ W.get (fun _ => 0) = L.head?.elim .ub .ok := by
  obtain ⟨rfl', hf⟩ := hA
  obtain ⟨l, e1, h1, h2⟩ := indexes_shape_sorted (s := at1 n) (R := 0) (Or.inr rfl) (fun _ => by unfold at1; omega)
  have hmem : ∀ i, i ∈ l ↔ i 0 < n := by
    intro i
    rw [h1]
    constructor
    · intro h
      exact h 0
    · intro h a
      rw [Fin.fin_one_eq_zero a]
      exact h
  have hlen : l.length ≤ n := by
    have hnd : (l.map fun i => i 0).Nodup := by
      rw [List.nodup_iff_pairwise_ne, List.pairwise_map]
      refine h2.imp ?_
      rintro a b ⟨c, _, hc⟩
      rw [Fin.fin_one_eq_zero c] at hc
      omega
    have hsub : (l.map fun i => i 0) ⊆ List.range n := by
      intro k hk
      obtain ⟨i, hi, rfl⟩ := List.mem_map.mp hk
      exact List.mem_range.mpr ((hmem i).mp hi)
    have := (hnd.subperm hsub).length_le
    simpa using this
  have hz : ((l.zip (l.map f)).filter fun x => x.2).map (fun x => x.1) = l.filter f := by
    clear h1 h2 hmem hlen e1
    induction l with
    | nil => rfl
    | cons i l ih =>
      rw [List.map_cons, List.zip_cons_cons, List.filter_cons, List.filter_cons]
      dsimp only
      split_ifs
      · rw [List.map_cons, ih]
      · exact ih
  have hl' : (l.filter f).length < 2 ^ 31 := lt_of_le_of_lt (List.length_filter_le _ _) (by omega)
  obtain ⟨W, hW, hW0⟩ := ofList_first (l.filter f) hl'
  refine ⟨l.filter f, W, ?_, ?_, h2.filter _, hW0⟩
  · unfold whereTrue
    rw [rfl', e1, Outcome.bind_ok, readAll_ok l fun i hi => hf i ((h1 i).mp hi), Outcome.bind_ok, hz, hW]
  · intro i
    rw [List.mem_filter, hmem]

attribute [local irreducible] wsub w

/-- **C71, shock index.** The shock index is the first index at which the entropy drops the most.  Missing: profiles with less
than two cells, see `shock_index_violated`. -/
theorem shock_index_partial (A : Arr 1 K) (n : Nat) (s : Nat → K) (hA : Denotes A (at1 n) (fun i => s (i 0))) (h2 : 2 ≤ n)
    (hn : n < 2 ^ 31) : ∃ k, findShockIndex A = .ok (at1 k) ∧ k + 1 < n
      ∧ (∀ j, j + 1 < n → s (k + 1) - s k ≤ s (j + 1) - s j) ∧ (∀ j, j < k → s (k + 1) - s k < s (j + 1) - s j) := by
  obtain ⟨D, d, e1, hD, hd, _⟩ := difference_partial A (at1 n) (fun i => s (i 0)) hA (fun _ => by unfold at1; omega) 0
    (by unfold at1; omega)
  have hD' : Denotes D (at1 (n - 1)) d := by
    refine hD.congr ?_ fun _ _ => rfl
    funext a
    rw [Fin.fin_one_eq_zero a]
    simp [at1]
  have hd' : ∀ k, d (at1 k) = s (k + 1) - s k := by
    intro k
    rw [hd]
    simp [at1]
  obtain ⟨l, e2, h1, h3⟩ := elements_denotes (R := 0) hD' (Or.inr rfl) (fun _ => by unfold at1; omega)
  have hmem : ∀ k, at1 k ∈ l ↔ k < n - 1 := by
    intro k
    rw [h1]
    constructor
    · intro h
      exact h 0
    · intro h a
      exact h
  have hne : l.map d ≠ [] := by
    intro h
    rw [List.map_eq_nil_iff] at h
    have := (hmem 0).mpr (by omega)
    rw [h] at this
    simp at this
  obtain ⟨m, hm, hmin, efold⟩ := min_fold (l.map d) hne
  have e3 : minBy (fun x y => decide (x < y)) 0 D = .ok m := by
    unfold minBy
    rw [e2, Outcome.map_ok]
    exact congrArg (fun o => Outcome.ok (o.getD 0)) efold
  obtain ⟨L, W, e4, hL, hsort, hget⟩ := where_denotes (A := D.map fun x => decide (x = m)) (n := n - 1)
    (f := fun i => decide (d i = m)) (hD'.map _) (by omega)
  have e : findShockIndex A = W.get fun _ => 0 := by
    unfold findShockIndex
    rw [show difference 0 A = .ok D from e1, Outcome.bind_ok, e3, Outcome.bind_ok, e4, Outcome.bind_ok]
  obtain ⟨i0, hi0, hdi0⟩ := List.mem_map.mp hm
  have hi0L : i0 ∈ L := (hL i0).mpr ⟨by rw [ix1 i0] at hi0; exact (hmem _).mp hi0, by simpa using hdi0⟩
  cases hLe : L with
  | nil =>
    rw [hLe] at hi0L
    simp at hi0L
  | cons k0 L' =>
    rw [hLe] at hget hsort hi0L
    have hk0 := (hL k0).mp (by rw [hLe]; simp)
    obtain ⟨hk1, hk2⟩ := hk0
    have hk2' : d k0 = m := by simpa using hk2
    rw [ix1 k0, hd'] at hk2'
    refine ⟨k0 0, ?_, by omega, ?_, ?_⟩
    · rw [e, hget]
      exact congrArg _ (ix1 k0)
    · intro j hj
      rw [hk2', ← hd' j]
      exact hmin _ (List.mem_map_of_mem ((hmem j).mpr (by omega)))
    · intro j hj
      rw [hk2', ← hd' j]
      have hjl : d (at1 j) ∈ l.map d := List.mem_map_of_mem ((hmem j).mpr (by omega))
      refine lt_of_le_of_ne (hmin _ hjl) fun heq => ?_
      have hjL : at1 j ∈ L := (hL (at1 j)).mpr ⟨by unfold at1; omega, by simpa using heq.symm⟩
      rw [hLe] at hjL
      rcases List.mem_cons.mp hjL with h | h
      · rw [← h] at hj
        unfold at1 at hj
        omega
      · obtain ⟨c, _, hc⟩ := (List.pairwise_cons.mp hsort).1 _ h
        rw [Fin.fin_one_eq_zero c] at hc
        unfold at1 at hc
        omega

/-- **C71 fails for a single cell.** Reading the first of no indexes is undefined behaviour. -/
theorem shock_index_violated (A : Arr 1 K) (s : Nat → K) (hA : Denotes A (at1 1) (fun i => s (i 0))) :
    findShockIndex A = .ub := by
  obtain ⟨D, d, e1, hD, hd, _⟩ := difference_partial A (at1 1) (fun i => s (i 0)) hA (fun _ => by unfold at1; omega) 0
    (by unfold at1; omega)
  have hD' : Denotes D (at1 0) d := by
    refine hD.congr ?_ fun _ _ => rfl
    funext a
    rw [Fin.fin_one_eq_zero a]
    simp [at1]
  obtain ⟨l, e2, h1, _⟩ := elements_denotes (R := 0) hD' (Or.inr rfl) (fun _ => by unfold at1; omega)
  have hl : l = [] := by
    rw [List.eq_nil_iff_forall_not_mem]
    intro i hi
    have := (h1 i).mp hi 0
    unfold at1 at this
    omega
  have e3 : minBy (fun x y => decide (x < y)) 0 D = .ok 0 := by
    unfold minBy
    rw [e2, hl]
    rfl
  obtain ⟨L, W, e4, hL, _, hget⟩ := where_denotes (A := D.map fun x => decide (x = (0 : K))) (n := 0)
    (f := fun i => decide (d i = 0)) (hD'.map _) (by omega)
  have hL' : L = [] := by
    rw [List.eq_nil_iff_forall_not_mem]
    intro i hi
    have := ((hL i).mp hi).1
    omega
  rw [hL'] at hget
  unfold findShockIndex
  rw [show difference 0 A = .ok D from e1, Outcome.bind_ok, e3, Outcome.bind_ok, e4, Outcome.bind_ok, hget]
  rfl

/-- An array of `n` elements, as a function of the only index. -/
def Reads (A : Arr 1 K) (n : Nat) (y : Nat → K) : Prop := Denotes A (at1 n) (fun i => y (i 0))

/-- Reading with a check of bounds. -/
theorem checked_inside {A : Arr 1 K} {n : Nat} {y : Nat → K} (hA : Reads A n y) {k : Nat} (hk : k < n) :
    (boundsCheck A).get (fun _ => k) = .ok (y k) := by
  have hin : InShape (at1 n) (fun _ => k) := fun _ => hk
  rw [(bounds_check A _).2.1 (by rw [hA.1]; exact hin), hA.2 _ hin]

theorem checked_outside {A : Arr 1 K} {n : Nat} {y : Nat → K} (hA : Reads A n y) {k : Nat} (hk : n ≤ k) :
    (boundsCheck A).get (fun _ => k) = .throws .outOfRange := by
  refine (bounds_check A _).2.2 ?_
  rw [hA.1]
  intro h
  exact absurd (show k < n from h 0) (by omega)

theorem checked {A : Arr 1 K} {n : Nat} {y : Nat → K} (hA : Reads A n y) (k : Nat) :
    (boundsCheck A).get (fun _ => k) = .throws .outOfRange ∨ ∃ a, (boundsCheck A).get (fun _ => k) = .ok a := by
  rcases Nat.lt_or_ge k n with h | h
  · exact Or.inr ⟨_, checked_inside hA h⟩
  · exact Or.inl (checked_outside hA h)

theorem wsub_le {i k : Nat} (h : k ≤ i) (hi : i < 2 ^ 64) : wsub i k = i - k := by
  unfold wsub
  omega

theorem le_wsub {n i k : Nat} (h : i < k) (hk : k ≤ 2) (hn : n < 2 ^ 63) : n ≤ wsub i k := by
  unfold wsub
  omega

theorem behind_inside {A : Arr 1 K} {n : Nat} {y : Nat → K} (hA : Reads A n y) {i : Nat} (hi : i + 1 < n)
    (hn : n < 2 ^ 63) : behindStep (boundsCheck A) (i + 1) = if y i > y (i + 1) then .ok (.inl i) else .ok (.inr (i + 1)) := by
  have e : wsub (i + 1) 1 = i := wsub_le (by omega) (by omega)
  unfold behindStep
  rw [e, checked_inside hA (show i < n by omega), checked_inside hA hi]
  rfl

theorem behind_outside {A : Arr 1 K} {n : Nat} {y : Nat → K} (hA : Reads A n y) {i : Nat}
    (h : n ≤ i ∨ n ≤ wsub i 1) : behindStep (boundsCheck A) i = .throws .outOfRange := by
  unfold behindStep
  generalize wsub i 1 = k at h
  rcases checked hA k with hk | ⟨a, hk⟩
  · rw [hk]
    rfl
  · rw [hk]
    rcases h with h | h
    · rw [checked_outside hA h]
      rfl
    · rw [checked_outside hA h] at hk
      simp at hk

theorem ahead_inside {A : Arr 1 K} {n : Nat} {y : Nat → K} (hA : Reads A n y) {i : Nat} (h2 : 2 ≤ i)
    (hi : i ≤ n) (hn : n < 2 ^ 63) : aheadStep (boundsCheck A) i
      = if y (i - 1) < 1 / 2 * y (i - 2) then .ok (.inl (i + 1)) else .ok (.inr i) := by
  have e1 : wsub i 1 = i - 1 := wsub_le (by omega) (by omega)
  have e2 : wsub i 2 = i - 2 := wsub_le (by omega) (by omega)
  have e3 : w (i + 1) = i + 1 := by
    unfold w
    omega
  unfold aheadStep
  rw [e1, e2, e3, checked_inside hA (show i - 1 < n by omega), checked_inside hA (show i - 2 < n by omega)]
  rfl

theorem ahead_outside {A : Arr 1 K} {n : Nat} {y : Nat → K} (hA : Reads A n y) {i : Nat}
    (h : n ≤ wsub i 1 ∨ n ≤ wsub i 2) : aheadStep (boundsCheck A) i = .throws .outOfRange := by
  unfold aheadStep
  generalize wsub i 1 = k at h
  generalize wsub i 2 = j at h
  generalize w (i + 1) = c
  rcases checked hA k with hk | ⟨a, hk⟩
  · rw [hk]
    rfl
  · rw [hk]
    rcases h with h | h
    · rw [checked_outside hA h] at hk
      simp at hk
    · rw [checked_outside hA h]
      rfl

/-- **C71, uphill.** From an index of the array, the search behind it ends at an index that is reached by climbing all the way
and from which it does not go up any further. -/
theorem maximum_behind (A : Arr 1 K) (n : Nat) (y : Nat → K) (hA : Denotes A (at1 n) (fun i => y (i 0))) (hn : n < 2 ^ 63)
    (index : Nat) (hi : index < n) : ∃ r, maximumBehind A index = .ok r ∧ r ≤ index
      ∧ (∀ k, r < k → k ≤ index → y k < y (k - 1)) ∧ (0 < r → y (r - 1) ≤ y r) := by
  unfold maximumBehind
  induction index with
  | zero =>
    refine ⟨0, ?_, le_rfl, by omega, by omega⟩
    rw [Loop.whileLoop_unfold, behind_outside (y := y) hA (Or.inr (le_wsub (by omega) (by omega) hn))]
    rfl
  | succ k ih =>
    rw [Loop.whileLoop_unfold, behind_inside (y := y) hA hi hn]
    by_cases h : y k > y (k + 1)
    · rw [if_pos h]
      dsimp only
      obtain ⟨r, h1, h2, h3, h4⟩ := ih (by omega)
      refine ⟨r, h1, by omega, ?_, h4⟩
      intro j hj hj'
      rcases Nat.lt_or_ge k j with h5 | h5
      · obtain rfl : j = k + 1 := by omega
        exact h
      · exact h3 j hj h5
    · rw [if_neg h]
      exact ⟨k + 1, rfl, le_rfl, by omega, fun _ => not_lt.mp h⟩

/-- **C71, range.** From an index outside of the array the search gives zero. -/
theorem maximum_behind_outside (A : Arr 1 K) (n : Nat) (y : Nat → K) (hA : Denotes A (at1 n) (fun i => y (i 0)))
    (index : Nat) (hi : n ≤ index) : maximumBehind A index = .ok 0 := by
  unfold maximumBehind
  rw [Loop.whileLoop_unfold, behind_outside (y := y) hA (Or.inl hi)]
  rfl

/-- **C71, plateau.** The search ahead of an index, not among the first two, ends at the first index at which the logarithm of
the pressure drops by less than half of what it does before; zero if there is none. -/
theorem plateau_ahead (A : Arr 1 K) (n : Nat) (p : Nat → K) (hA : Denotes A (at1 n) (fun i => p (i 0))) (h1 : 1 ≤ n)
    (hn : n < 2 ^ 63) (index : Nat) (hi : index < 2 ^ 63) : ∃ r, plateauAhead A index = .ok r ∧
      ((2 ≤ index ∧ index ≤ r ∧ r < n ∧ 1 / 2 * (p (r - 1) - p (r - 2)) ≤ p r - p (r - 1)
        ∧ ∀ k, index ≤ k → k < r → p k - p (k - 1) < 1 / 2 * (p (k - 1) - p (k - 2)))
      ∨ r = 0 ∧ (index < 2 ∨ ∀ k, index ≤ k → k < n → p k - p (k - 1) < 1 / 2 * (p (k - 1) - p (k - 2)))) := by
  obtain ⟨D, d, e1, hD, hd, _⟩ := difference_partial A (at1 n) (fun i => p (i 0)) hA (fun _ => by unfold at1; omega) 0
    (by unfold at1; omega)
  have hD' : Denotes D (at1 (n - 1)) (fun i => p (i 0 + 1) - p (i 0)) := by
    refine hD.congr ?_ fun i _ => ?_
    · funext a
      rw [Fin.fin_one_eq_zero a]
      simp [at1]
    · rw [hd]
      simp
  unfold plateauAhead
  rw [show difference 0 A = .ok D from e1, Outcome.bind_ok]
  rcases Nat.lt_or_ge index 2 with h2 | h2
  · refine ⟨0, ?_, Or.inr ⟨rfl, Or.inl h2⟩⟩
    rw [Loop.whileLoop_unfold, ahead_outside (y := fun k => p (k + 1) - p k) hD' (Or.inr (le_wsub h2 le_rfl (by omega)))]
    rfl
  · induction hk : n - index generalizing index with
    | zero =>
      refine ⟨0, ?_, Or.inr ⟨rfl, Or.inr (by omega)⟩⟩
      have e2 : wsub index 1 = index - 1 := wsub_le (by omega) (by omega)
      rw [Loop.whileLoop_unfold, ahead_outside (y := fun k => p (k + 1) - p k) hD' (Or.inl (by rw [e2]; omega))]
      rfl
    | succ m ih =>
      have s1 : index - 1 + 1 = index := by omega
      have s2 : index - 2 + 1 = index - 1 := by omega
      rw [Loop.whileLoop_unfold, ahead_inside (y := fun k => p (k + 1) - p k) hD' h2 (by omega) (by omega), s1, s2]
      by_cases h : p index - p (index - 1) < 1 / 2 * (p (index - 1) - p (index - 2))
      · rw [if_pos h]
        dsimp only
        obtain ⟨r, h3, h4⟩ := ih (index + 1) (by omega) (by omega) (by omega)
        refine ⟨r, h3, ?_⟩
        have ext : ∀ b, (∀ k, index + 1 ≤ k → k < b → p k - p (k - 1) < 1 / 2 * (p (k - 1) - p (k - 2))) →
            ∀ k, index ≤ k → k < b → p k - p (k - 1) < 1 / 2 * (p (k - 1) - p (k - 2)) := by
          intro b hb k hk1 hk2
          rcases Nat.lt_or_ge index k with h5 | h5
          · exact hb k h5 hk2
          · obtain rfl : k = index := by omega
            exact h
        rcases h4 with ⟨_, a1, a2, a3, a4⟩ | ⟨a1, a2⟩
        · exact Or.inl ⟨h2, by omega, a2, a3, ext r a4⟩
        · rcases a2 with a2 | a2
          · omega
          · exact Or.inr ⟨a1, Or.inr (ext n a2)⟩
      · rw [if_neg h]
        exact ⟨index, rfl, Or.inl ⟨h2, le_rfl, by omega, not_lt.mp h, by omega⟩⟩

/-- A profile with a maximum. -/
def profile : Nat → ℚ := fun k => if k = 1 then 3 else if k = 2 then 2 else 1

/-- Non-vacuity: a profile of four cells. -/
example : ∃ A : Arr 1 ℚ, Denotes A (at1 4) (fun i => profile (i 0)) := ⟨⟨at1 4, fun i => .ok (profile (i 0))⟩, rfl, fun _ _ => rfl⟩

example : ∃ A : Arr 1 ℚ, Denotes A (at1 4) (fun i => profile (i 0)) ∧ maximumBehind A 3 = .ok 1 := by
  refine ⟨⟨at1 4, fun i => .ok (profile (i 0))⟩, ⟨rfl, fun _ _ => rfl⟩, ?_⟩
  obtain ⟨r, h1, h2, h3, h4⟩ := maximum_behind (⟨at1 4, fun i => .ok (profile (i 0))⟩ : Arr 1 ℚ) 4 profile ⟨rfl, fun _ _ => rfl⟩
    (by norm_num) 3 (by norm_num)
  rw [h1]
  congr 1
  interval_cases r
  · have := h3 1 (by norm_num) (by norm_num)
    norm_num [profile] at this
  · rfl
  · have := h4 (by norm_num)
    norm_num [profile] at this
  · have := h4 (by norm_num)
    norm_num [profile] at this

example : maximumBehind (⟨at1 4, fun i => .ok (profile (i 0))⟩ : Arr 1 ℚ) 7 = .ok 0 :=
  maximum_behind_outside _ 4 profile ⟨rfl, fun _ _ => rfl⟩ 7 (by norm_num)

example : ∃ k, findShockIndex (⟨at1 4, fun i => .ok (profile (i 0))⟩ : Arr 1 ℚ) = .ok (at1 k) ∧ k + 1 < 4 := by
  obtain ⟨k, h1, h2, _⟩ := shock_index_partial (⟨at1 4, fun i => .ok (profile (i 0))⟩ : Arr 1 ℚ) 4 profile ⟨rfl, fun _ _ => rfl⟩ (by norm_num) (by norm_num)
  exact ⟨k, h1, h2⟩

end Verif.Shock
