import Verif.Model.Sequence
import Mathlib.Algebra.BigOperators.Fin
import Mathlib.Order.Lattice
import Mathlib.Order.Defs.LinearOrder

/-!
# C72: fixed-length sequences

Stated against the list of elements `List.ofFn x`, element lookups and finite sums.
-/

namespace Verif.Seq
open Verif

variable {n m : Nat} {α β γ : Type}

/-- Reading a position: the element, or `out_of_range`. -/
theorem seq_at (x : Seq n α) (k : Nat) :
    at? x k = (match (List.ofFn x)[k]? with | some a => .ok a | none => .throws .outOfRange) := by
  unfold at?
  by_cases h : k < n <;> simp [h]

/-- Setting or updating a position changes exactly that element; an out-of-range position changes
nothing. -/
theorem seq_set_update (x : Seq n α) (k : Nat) (v : α) (f : α → α) :
    List.ofFn (set x k v) = (List.ofFn x).set k v ∧
    List.ofFn (update x k f) = (List.ofFn x).modify k f ∧
    (n ≤ k → set x k v = x ∧ update x k f = x) := by
  refine ⟨?_, ?_, ?_⟩
  · apply List.ext_getElem
    · simp
    · intro i h1 h2
      simp [set, List.getElem_set]
  · apply List.ext_getElem
    · simp
    · intro i h1 h2
      simp [update, List.getElem_modify]
  · intro h
    constructor <;> funext i <;> have := i.2 <;> simp only [set, update] <;> rw [if_neg (by omega)]

/-- `map`, `apply_to` and the operators act element by element. -/
theorem seq_elementwise (f : α → β) (g : α → β → γ) (fs : Seq n (α → β)) (x : Seq n α) (y : Seq n β)
    (b : β) :
    List.ofFn (map f x) = (List.ofFn x).map f ∧
    List.ofFn (applyTo fs x) = List.zipWith (fun h a => h a) (List.ofFn fs) (List.ofFn x) ∧
    List.ofFn (binaryOp g x y) = List.zipWith g (List.ofFn x) (List.ofFn y) ∧
    List.ofFn (binaryScalar g x b) = (List.ofFn x).map (fun a => g a b) := by
  refine ⟨?_, ?_, ?_, ?_⟩ <;> apply List.ext_getElem <;>
    simp [map, applyTo, binaryOp, binaryScalar]

/-- `sum` is the sum of the elements, for any addition with a zero. -/
theorem seq_sum [AddMonoid α] (x : Seq n α) : sum x = (List.ofFn x).sum := by
  unfold sum
  induction n with
  | zero => rfl
  | succ n ih =>
    rw [Fin.foldl_succ_last, List.ofFn_succ']
    simp only [List.concat_eq_append, List.sum_append, List.sum_singleton]
    rw [ih (fun i => x i.castSucc)]

/-- `all` and `any` are the quantifiers. -/
theorem seq_all_any (x : Seq n Bool) :
    (all x = true ↔ ∀ i, x i = true) ∧ (any x = true ↔ ∃ i, x i = true) := by
  constructor
  · simp [all, List.forall_mem_ofFn_iff]
  · simp [any, List.mem_ofFn]

/-- `min` and `max` are attained and bound every element. -/
theorem seq_min_max [LinearOrder α] (x : Seq (n + 1) α) :
    (∃ i, min x = x i) ∧ (∀ i, min x ≤ x i) ∧ (∃ i, max x = x i) ∧ (∀ i, x i ≤ max x) := by
  induction n with
  | zero =>
    have h : ∀ i : Fin 1, i = 0 := fun i => by omega
    refine ⟨⟨0, rfl⟩, fun i => ?_, ⟨0, rfl⟩, fun i => ?_⟩ <;> rw [h i] <;> exact le_rfl
  | succ n ih =>
    obtain ⟨⟨i, hi⟩, hl, ⟨j, hj⟩, hu⟩ := ih (fun i => x i.castSucc)
    have e1 : min x = stdMin (min (fun i : Fin (n + 1) => x i.castSucc)) (x (Fin.last (n + 1))) := by
      unfold min; rw [Fin.foldl_succ_last]; rfl
    have e2 : max x = stdMax (max (fun i : Fin (n + 1) => x i.castSucc)) (x (Fin.last (n + 1))) := by
      unfold max; rw [Fin.foldl_succ_last]; rfl
    rw [e1, e2]
    unfold stdMin stdMax
    refine ⟨?_, ?_, ?_, ?_⟩
    · split
      · exact ⟨_, rfl⟩
      · exact ⟨i.castSucc, hi⟩
    · intro k
      rcases Fin.eq_castSucc_or_eq_last k with ⟨k, rfl⟩ | rfl
      · split
        · rename_i h; exact (le_of_lt h).trans (hl k)
        · exact hl k
      · split
        · exact le_rfl
        · rename_i h; exact not_lt.mp h
    · split
      · exact ⟨_, rfl⟩
      · exact ⟨j.castSucc, hj⟩
    · intro k
      rcases Fin.eq_castSucc_or_eq_last k with ⟨k, rfl⟩ | rfl
      · split
        · rename_i h; exact (hu k).trans (le_of_lt h)
        · exact hu k
      · split
        · exact le_rfl
        · rename_i h; exact not_lt.mp h

/-- Rearrangements. -/
theorem seq_rearrange (x : Seq n α) (y : Seq m α) (v : α) :
    List.ofFn (reverse x) = (List.ofFn x).reverse ∧
    List.ofFn (concat x y) = List.ofFn x ++ List.ofFn y ∧
    List.ofFn (append x v) = List.ofFn x ++ [v] ∧
    List.ofFn (prepend x v) = v :: List.ofFn x := by
  have hc : ∀ {n m : Nat} (x : Seq n α) (y : Seq m α),
      List.ofFn (concat x y) = List.ofFn x ++ List.ofFn y := by
    intro n m x y
    apply List.ext_getElem
    · simp
    · intro i h1 h2
      simp only [List.getElem_ofFn, concat, List.getElem_append, List.length_ofFn]
  refine ⟨?_, hc x y, ?_, ?_⟩
  · apply List.ext_getElem
    · simp
    · intro i h1 h2
      simp only [List.getElem_ofFn, reverse, List.getElem_reverse, List.length_ofFn]
      congr 2; omega
  · unfold append; rw [hc]; simp
  · unfold prepend; rw [hc]; simp

/-- Splitting off an end. -/
theorem seq_ends (x : Seq (n + 1) α) :
    List.ofFn x = head x :: List.ofFn (tail x) ∧ List.ofFn x = List.ofFn (init x) ++ [last x] := by
  constructor
  · rw [List.ofFn_succ]; rfl
  · rw [List.ofFn_succ']; simp only [List.concat_eq_append]; rfl

/-- `transpose` exchanges the two positions. -/
theorem seq_transpose (x : Seq n (Seq m α)) (i : Fin n) (j : Fin m) :
    transpose x j i = x i j ∧ transpose (transpose x) = x := ⟨rfl, rfl⟩

example : List.ofFn (set ![5, 6, 7] 1 0) = [5, 0, 7] ∧ List.ofFn (set ![5, 6, 7] 3 0) = [5, 6, 7] ∧
    sum ![5, 6, 7] = 18 ∧ min ![5, 3, 7] = 3 := by decide

example : all ![true, false, true] = false ∧ any ![true, false, true] = true ∧ at? ![5, 6, 7] 2 = .ok 7 ∧ at? ![5, 6, 7] 3 = .throws .outOfRange := by decide

example : List.ofFn (map (· + 1) ![5, 6, 7]) = [6, 7, 8] ∧ List.ofFn (binaryOp (· - ·) ![5, 6, 7] ![1, 2, 3]) = [4, 4, 4] ∧
    List.ofFn (binaryScalar (· * ·) ![5, 6, 7] 2) = [10, 12, 14] := by decide

example : head ![5, 6, 7] = 5 ∧ List.ofFn (tail ![5, 6, 7]) = [6, 7] ∧ last ![5, 6, 7] = 7 ∧ List.ofFn (init ![5, 6, 7]) = [5, 6] := by decide

example : List.ofFn (reverse ![5, 6, 7]) = [7, 6, 5] ∧ List.ofFn (concat ![5, 6, 7] ![1, 2]) = [5, 6, 7, 1, 2] ∧
    List.ofFn (append ![5, 6] 7) = [5, 6, 7] ∧ List.ofFn (prepend ![5, 6] 7) = [7, 5, 6] := by decide

end Verif.Seq
