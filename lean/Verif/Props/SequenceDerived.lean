import Verif.Model.SequenceDerived
import Mathlib.Algebra.Field.Basic
import Mathlib.Data.Fin.Tuple.Basic
import Mathlib.Data.Fin.VecNotation
import Mathlib.Data.Rat.Defs
import Mathlib.Tactic.Ring
import Mathlib.Tactic.NormNum
/-! C150: states (types derived from sequences) compare and combine like vectors. -/

namespace Verif.Seq

variable {n : Nat} {α : Type}

/-- **C150** Equality of states is equality of all elements, whatever equality of elements is (for doubles, NaN is
not equal to itself). -/
theorem derived_eq (eq : α → α → Bool) (x y : Seq n α) :
    derivedEq eq x y = true ↔ ∀ i, eq (x i) (y i) = true := by
  simp [derivedEq, all, binaryOp, List.all_eq_true, List.mem_ofFn]

/-- **C150** If elements differ exactly when they are not equal, as doubles do, so do states. -/
theorem derived_ne (eq ne : α → α → Bool) (h : ∀ a b, ne a b = !eq a b) (x y : Seq n α) :
    derivedNe ne x y = !derivedEq eq x y := by
  rw [Bool.eq_iff_iff, Bool.not_eq_true', ← Bool.not_eq_true, derived_eq]
  simp [derivedNe, any, binaryOp, List.any_eq_true, List.mem_ofFn, h]

/-- **C150** For elements with an equality that means it, states are equal if and only if they are the same. -/
theorem derived_eq_same (eq : α → α → Bool) (h : ∀ a b, eq a b = true ↔ a = b) (x y : Seq n α) :
    derivedEq eq x y = true ↔ x = y := by
  rw [derived_eq]
  simp only [h]
  exact ⟨funext, fun e i => by rw [e]⟩

/-- **C150** In exact arithmetic states are a vector space under their operators. -/
theorem derived_space [Field α] (x y z : Seq n α) (a b : α) :
    derivedAdd x y = derivedAdd y x ∧ derivedAdd (derivedAdd x y) z = derivedAdd x (derivedAdd y z) ∧
      derivedSub (derivedAdd x y) y = x ∧ derivedAdd x (derivedNeg y) = derivedSub x y ∧
      derivedNeg (derivedNeg x) = x ∧
      derivedMul (derivedAdd x y) a = derivedAdd (derivedMul x a) (derivedMul y a) ∧
      derivedMul x (a + b) = derivedAdd (derivedMul x a) (derivedMul x b) ∧
      derivedMul (derivedMul x a) b = derivedMul x (a * b) ∧ derivedMul x 1 = x ∧
      (a ≠ 0 → derivedDiv (derivedMul x a) a = x) ∧ derivedDiv x a = derivedMul x (1 / a) := by
  simp only [derivedAdd, derivedSub, derivedNeg, derivedMul, derivedDiv, binaryOp, binaryScalar, map, funext_iff]
  refine ⟨fun i => by ring, fun i => by ring, fun i => by ring, fun i => by ring, fun i => by ring, fun i => by ring,
    fun i => by ring, fun i => by ring, fun i => by ring, fun h i => ?_, fun i => by ring⟩
  exact mul_div_cancel_right₀ _ h

theorem lift_fold (g : Seq n α) (r : Seq n α) :
    ∀ k (hk : k ≤ n), Fin.foldl k (fun r i => set r i (g ⟨i, by omega⟩)) r =
      fun i : Fin n => if i.val < k then g i else r i := by
  intro k
  induction k with
  | zero => intro _; simp
  | succ k ih =>
    intro hk
    rw [Fin.foldl_succ_last]
    have := ih (by omega)
    simp only [Fin.val_castSucc, Fin.val_last] at this ⊢
    rw [this]
    funext i
    unfold set
    by_cases h : k = i.val
    · subst h
      simp
    · by_cases h2 : i.val < k
      · simp [h, h2, Nat.lt_succ_of_lt h2]
      · simp [h, h2, show ¬ i.val < k + 1 by omega]

/-- **C150** A lifted function acts on each element, and none keeps its default. -/
theorem lift_elementwise (f : α → α → α) (zero : α) (x y : Seq n α) :
    lift2 f zero x y = fun i => f (x i) (y i) := by
  have := lift_fold (fun i => f (x i) (y i)) (fun _ => zero) n le_rfl
  unfold lift2
  simp only [Fin.eta] at this
  rw [this]
  funext i
  simp

/-- `derived_eq`, `derived_eq_same`, `derived_ne` -/
example : derivedEq (fun a b => decide (a = b)) ![(1 : Int), 2, 3] ![1, 2, 3] = true :=
  (derived_eq_same _ (by simp) _ _).2 rfl
example : derivedNe (fun a b => decide (a ≠ b)) ![(1 : Int), 2, 3] ![1, 5, 3] = true := by
  rw [derived_ne (fun a b => decide (a = b)) _ (by simp)]
  decide
/-- An element that is not equal to itself: `derived_eq` -/
example : derivedEq (fun a b : Option Int => a.isSome && b.isSome && decide (a = b)) ![some 1, none] ![some 1, none] ≠ true := by
  rw [Ne, derived_eq]
  intro h
  exact absurd (h 1) (by decide)
/-- `derived_space`, `lift_elementwise` -/
example : derivedDiv (derivedMul ![(1 : ℚ), 2] 3) 3 = ![1, 2] :=
  (derived_space ![(1 : ℚ), 2] ![0, 0] ![0, 0] 3 0).2.2.2.2.2.2.2.2.2.1 (by norm_num)
example : lift2 Nat.max 0 ![1, 7, 3] ![4, 2, 5] = ![4, 7, 5] := by
  rw [lift_elementwise]; funext i; revert i; decide

end Verif.Seq
