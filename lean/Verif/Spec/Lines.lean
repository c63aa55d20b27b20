import Verif.Model.NdArray
import Mathlib.Data.Fin.VecNotation

/-!
# One- and two-dimensional arrays, read as functions of numbers
-/

namespace Verif.Nd

variable {α : Type}

/-- The array has `n` elements, the one at `k` being `y k`. -/
def Line (A : Arr 1 α) (n : Nat) (y : Nat → α) : Prop := A.shape 0 = n ∧ ∀ k, k < n → A.get (fun _ => k) = .ok (y k)

/-- The array has `m` rows of `n` elements, the one at `i`, `j` being `f i j`. -/
def Grid (A : Arr 2 α) (m n : Nat) (f : Nat → Nat → α) : Prop :=
  A.shape 0 = m ∧ A.shape 1 = n ∧ ∀ i, i < m → ∀ j, j < n → A.get ![i, j] = .ok (f i j)

end Verif.Nd
