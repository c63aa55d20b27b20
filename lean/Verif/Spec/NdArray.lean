import Verif.Model.NdArray
import Mathlib.Algebra.BigOperators.Fin
import Mathlib.Data.Fintype.Pi

/-!
# Specification vocabulary for N-dimensional arrays
-/

namespace Verif.Nd
open Verif

variable {R : Nat} {α : Type}

/-- The index lies in the shape. -/
def InShape (s i : Ix R) : Prop := ∀ a, i a < s a

/-- The number of indexes in a shape. -/
def count (s : Ix R) : Nat := ∏ a, s a

/-- Row-major (lexicographic) order of indexes. -/
def RowMajor (i j : Ix R) : Prop := ∃ a, (∀ b, b < a → i b = j b) ∧ i a < j a

/-- The array has the given shape and yields the value `f i` at every index `i` of the shape. -/
def Denotes (A : Arr R α) (s : Ix R) (f : Ix R → α) : Prop :=
  A.shape = s ∧ ∀ i, InShape s i → A.get i = .ok (f i)

/-- The indexes of a region: on every axis `start`, `start + jump`, ... below `final`. -/
def InRegion (p : AccessPattern R) (i : Ix R) : Prop :=
  ∀ a, ∃ k, i a = p.start a + k * p.jumps a ∧ i a < p.final a

/-- The region has an index on every axis and its bounds stay clear of the end of `size_t`. -/
def Regular (p : AccessPattern R) : Prop :=
  ∀ a, p.start a < p.final a ∧ 0 < p.jumps a ∧ p.final a + p.jumps a ≤ 2 ^ 64

/-- The sum of the values at all indexes of the shape. -/
def total [AddCommMonoid α] (s : Ix R) (f : Ix R → α) : α :=
  ∑ i ∈ Fintype.piFinset (fun a => Finset.range (s a)), f i

end Verif.Nd
