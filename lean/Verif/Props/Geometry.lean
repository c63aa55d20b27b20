import Verif.Model.Geometry
import Mathlib.Algebra.BigOperators.Fin
import Mathlib.Algebra.BigOperators.Ring.Finset
import Mathlib.Algebra.BigOperators.Group.Finset.Sigma
import Mathlib.Data.List.FinRange
import Mathlib.Tactic.Ring
import Mathlib.Tactic.NormNum
import Mathlib.Tactic.LinearCombination
import Mathlib.Algebra.Order.Ring.Rat
import Mathlib.Algebra.Field.Rat
import Mathlib.Data.Fin.VecNotation

/-!
# Unit vectors (C62) and matrix algebra (C63)
-/

namespace Verif.Geometry

variable {K : Type} [Field K]

/-- The vector has length one. -/
def UnitVec.HasUnitLength (n : UnitVec K) : Prop := n.n1 ^ 2 + n.n2 ^ 2 + n.n3 ^ 2 = 1

/-- **C62, as far as it holds.** Unit vectors made by default or by axis have length one, and projecting on
them and scaling them fit together; an axis other than the three throws.  What is missing: `unit_length_violated`. -/
theorem unit_length_partial (axis : Nat) :
    (UnitVec.default : UnitVec K).HasUnitLength ∧
      (axis < 3 → ∃ n : UnitVec K, UnitVec.onAxis axis = .ok n ∧ n.HasUnitLength ∧
        (∀ i < 3, n.get i = .ok (if i = axis then 1 else 0)) ∧
        ∀ s : K, n.project (n.scale s).1 (n.scale s).2.1 (n.scale s).2.2 = s) ∧
      (3 ≤ axis → (UnitVec.onAxis axis : Outcome (UnitVec K)) = .throws .invalidArgument) := by
  refine ⟨by simp [UnitVec.HasUnitLength, UnitVec.default], fun h => ?_, fun h => ?_⟩
  · have : axis = 0 ∨ axis = 1 ∨ axis = 2 := by omega
    rcases this with rfl | rfl | rfl
    all_goals
      refine ⟨_, rfl, by simp [UnitVec.HasUnitLength, UnitVec.make], fun i hi => ?_, fun s => by
        simp [UnitVec.project, UnitVec.scale, UnitVec.make]⟩
      have : i = 0 ∨ i = 1 ∨ i = 2 := by omega
      rcases this with rfl | rfl | rfl <;> simp [UnitVec.get, UnitVec.make]
  · match axis, h with
    | n + 3, _ => rfl

/-- **C62 is violated**: the constructor from components does not normalise; a non-zero triple gives a vector
that is not of length one. -/
theorem unit_length_violated :
    ∃ a b c : ℚ, (a, b, c) ≠ (0, 0, 0) ∧ ¬(UnitVec.make a b c).HasUnitLength :=
  ⟨3, 4, 0, by simp, by simp only [UnitVec.HasUnitLength, UnitVec.make]; norm_num⟩

/-- Projecting on such a vector gives 25, not 5. -/
example : (UnitVec.make 3 4 0 : UnitVec ℚ).project 3 4 0 = 25 := by
  simp only [UnitVec.project, UnitVec.make]; norm_num

end Verif.Geometry

namespace Verif.Matrices

variable {K : Type}

theorem product_eq [CommRing K] (A : Mat n k K) (B : Mat k m K) (i : Fin n) (j : Fin m) :
    A.product B i j = ∑ l, A i l * B l j := by
  have h : ∀ (L : List (Fin k)) (s : K), L.foldl (fun e l => e + A i l * B l j) s =
      s + (L.map fun l => A i l * B l j).sum := by
    intro L
    induction L with
    | nil => simp
    | cons a L ih =>
      intro s
      rw [List.foldl_cons, ih, List.map_cons, List.sum_cons]
      ring
  rw [Mat.product, h, zero_add, Fin.sum_univ_def]

/-- **C63**: the product of matrices of any sizes is associative. -/
theorem product_assoc [CommRing K] (A : Mat n k K) (B : Mat k l K) (C : Mat l m K) :
    (A.product B).product C = A.product (B.product C) := by
  funext i j
  simp only [product_eq, Finset.sum_mul, Finset.mul_sum]
  rw [Finset.sum_comm]
  exact Finset.sum_congr rfl fun _ _ => Finset.sum_congr rfl fun _ _ => by ring

/-- **C63**: it distributes over sums and differences, and factors can be pulled out. -/
theorem product_distrib [CommRing K] (A A' : Mat n k K) (B B' : Mat k m K) (s : K) :
    (A.add A').product B = (A.product B).add (A'.product B) ∧
      A.product (B.add B') = (A.product B).add (A.product B') ∧
      (A.sub A').product B = (A.product B).sub (A'.product B) ∧
      A.product (B.sub B') = (A.product B).sub (A.product B') ∧
      (A.smul s).product B = (A.product B).smul s ∧ A.product (B.smul s) = (A.product B).smul s := by
  refine ⟨?_, ?_, ?_, ?_, ?_, ?_⟩ <;> funext i j <;>
    simp only [product_eq, Mat.add, Mat.sub, Mat.smul, ← Finset.sum_add_distrib, ← Finset.sum_sub_distrib,
      Finset.sum_mul] <;>
    exact Finset.sum_congr rfl fun _ _ => by ring

/-- **C63**: the identity matrix is neutral, the zero matrix absorbs, and diagonal matrices scale the rows
and columns. -/
theorem product_identity [CommRing K] (A : Mat n m K) (d : Fin n → K) (e : Fin m → K) :
    (Mat.identity n).product A = A ∧ A.product (Mat.identity m) = A ∧
      (Mat.zeros k n).product A = Mat.zeros k m ∧ A.product (Mat.zeros m k) = Mat.zeros n k ∧
      (Mat.diagonal d).product A = (fun i j => d i * A i j) ∧
      A.product (Mat.diagonal e) = fun i j => A i j * e j := by
  refine ⟨?_, ?_, ?_, ?_, ?_, ?_⟩ <;> funext i j <;>
    simp [product_eq, Mat.identity, Mat.zeros, Mat.diagonal]

/-- **C63**: a row times a column is the scalar product, a column times a row has all products, and a matrix
times a column is the matrix applied to the vector. -/
theorem product_vectors [CommRing K] (v w : Fin n → K) (u : Fin m → K) (A : Mat m n K) :
    ((Mat.row v).product (Mat.column w) 0 0 = ∑ i, v i * w i) ∧
      (∀ i j, (Mat.column v).product (Mat.row u) i j = v i * u j) ∧
      (∀ i, A.product (Mat.column w) i 0 = ∑ j, A i j * w j) ∧
      ∀ j, (Mat.row u).product A 0 j = ∑ i, u i * A i j := by
  refine ⟨?_, fun i j => ?_, fun i => ?_, fun j => ?_⟩ <;> simp [product_eq, Mat.row, Mat.column]

/-- Matrices compare equal when all elements do, and different otherwise. -/
theorem equal_iff [DecidableEq K] (A B : Mat n m K) :
    (A.equal B = true ↔ A = B) ∧ (A.notEqual B = true ↔ A ≠ B) := by
  have h : A = B ↔ ∀ i j, A i j = B i j :=
    ⟨fun h i j => by rw [h], fun h => funext fun i => funext fun j => h i j⟩
  constructor
  · simp [Mat.equal, h]
  · simp [Mat.notEqual, h]

/-- A product with a rectangular matrix. -/
example : Mat.product (![![1, 2, 3], ![4, 5, 6]] : Mat 2 3 ℚ) (![![1], ![0], ![2]] : Mat 3 1 ℚ) 1 0 = 16 := by
  rw [product_eq]
  simp [Fin.sum_univ_succ]
  norm_num

def exA : Mat 2 3 ℚ := ![![1, 2, 3], ![4, 5, 6]]
def exB : Mat 3 1 ℚ := ![![1], ![0], ![2]]
def exC : Mat 1 2 ℚ := ![![7, 8]]

/-- `product_assoc`, `product_distrib`, `product_identity`, `product_vectors` on matrices of different shapes. -/
example : (Mat.product (Mat.product exA exB) exC) = Mat.product exA (Mat.product exB exC) := product_assoc _ _ _
example : Mat.product exA (Mat.smul exB 5) = Mat.smul (Mat.product exA exB) 5 :=
  (product_distrib exA (Mat.zeros 2 3) exB (Mat.zeros 3 1) 5).2.2.2.2.2
example : Mat.product exA (Mat.identity 3) = exA := (product_identity (k := 1) exA (fun _ => 0) (fun _ => 0)).2.1
example : (Mat.row ![1, 2, 3] : Mat 1 3 ℚ).product (Mat.column ![4, 5, 6]) 0 0 = 32 := by
  rw [(product_vectors ![1, 2, 3] ![4, 5, 6] (fun _ : Fin 1 => (0 : ℚ)) (Mat.zeros 1 3)).1]
  simp [Fin.sum_univ_succ]
  norm_num
/-- `unit_length_partial`: the three axes, and no fourth. -/
example : (Geometry.UnitVec.onAxis 3 : Outcome (Geometry.UnitVec ℚ)) = .throws .invalidArgument :=
  (Geometry.unit_length_partial 3).2.2 (by decide)

end Verif.Matrices
