import Mathlib.Data.Real.Basic
import Mathlib.Algebra.Order.Field.Power
import Mathlib.Order.Lattice

/-!
# `double`

Finite numbers of IEEE 754 double precision, with the operations of C++ rounded to nearest.  Which of two equally near
numbers is taken is left open, so that what is proved holds for any such rule.  There is no largest number: overflow, infinities
and NaN are not modelled.  Dividing by zero is not relied on.
-/

namespace Verif.Double

/-- Numbers with a significand of 53 bits and an exponent that is not below that of the subnormal numbers. -/
def IsDouble (x : ℝ) : Prop := ∃ m e : ℤ, |m| < 2 ^ 53 ∧ -1074 ≤ e ∧ x = m * 2 ^ e

/-- A rule of rounding to nearest. -/
structure Rounding where
  rnd : ℝ → ℝ
  isDouble : ∀ x, IsDouble (rnd x)
  nearest : ∀ x y, IsDouble y → |rnd x - x| ≤ |y - x|

/-- A `double`. -/
@[ext] structure Dbl (R : Rounding) where
  val : ℝ
  isDouble : IsDouble val

namespace Dbl

variable {R : Rounding}

/-- The double nearest to a number. -/
def near (R : Rounding) (x : ℝ) : Dbl R := ⟨R.rnd x, R.isDouble x⟩

instance : Zero (Dbl R) := ⟨⟨0, 0, 0, by norm_num, by norm_num, by norm_num⟩⟩
instance : Add (Dbl R) := ⟨fun a b => near R (a.val + b.val)⟩
instance : Sub (Dbl R) := ⟨fun a b => near R (a.val - b.val)⟩
instance : Mul (Dbl R) := ⟨fun a b => near R (a.val * b.val)⟩
noncomputable instance : Div (Dbl R) := ⟨fun a b => near R (a.val / b.val)⟩
noncomputable instance : LinearOrder (Dbl R) := LinearOrder.lift' val fun _ _ h => Dbl.ext h

end Dbl

end Verif.Double
