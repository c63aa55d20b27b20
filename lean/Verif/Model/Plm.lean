import Mathlib.Algebra.Field.Defs
import Mathlib.Order.Defs.LinearOrder
import Mathlib.Algebra.Order.Group.Defs
import Mathlib.Algebra.Order.Group.Abs
import Mathlib.Algebra.Order.Ring.Defs

/-!
# Limited gradients (`math_interpolation.hpp`)

Over an ordered field in place of `double`.
-/

namespace Verif.Plm

variable {τ : Type} [Field τ] [LinearOrder τ] [IsStrictOrderedRing τ]

/-- `std::copysign(1.0, x)`.  A zero has a sign too, `z` says which: the theorems hold whatever it is. -/
def sgn (z : Bool) (x : τ) : τ := if x < 0 then -1 else if 0 < x then 1 else if z then -1 else 1

/-- The smallest of three magnitudes: math_interpolation.hpp:88. -/
def minabs (a b c : τ) : τ := min (min |a| |b|) |c|

/-- math_interpolation.hpp:85-94 `plm_gradient`; likewise subprog_cloud.cpp:450-464
`estimate_gradient_plm`.  `za`, `zb`, `zc` are the signs of the differences where they are zero. -/
def plmGradient (za zb zc : Bool) (theta yl y0 yr : τ) : τ :=
  let a := (y0 - yl) * theta
  let b := (yr - yl) * (1 / 2)
  let c := (yr - y0) * theta
  1 / 4 * |sgn za a + sgn zb b| * (sgn za a + sgn zc c) * minabs a b c

/-- math_interpolation.hpp:105-112 `plm_gradient` of sequences, and likewise tuples (123-133): by component. -/
def plmGradientSeq (za zb zc : Fin n → Bool) (theta : τ) (yl y0 yr : Fin n → τ) : Fin n → τ :=
  fun i => plmGradient (za i) (zb i) (zc i) theta (yl i) (y0 i) (yr i)

end Verif.Plm
