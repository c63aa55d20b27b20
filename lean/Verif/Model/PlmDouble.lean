import Verif.Model.QuadtreeDouble

/-!
# Limited gradients in double precision (`math_interpolation.hpp`)

The function of `Model/Plm.lean`, with the numbers of `Model/Double.lean`.
-/

namespace Verif.Plm
open Verif.Double Verif.Tree

variable {R : Rounding}

/-- The literal `0.25`. -/
noncomputable def quarterDouble : Dbl R := ⟨1 / 4, 1, -2, by norm_num, by norm_num, by norm_num⟩

/-- `std::abs` of a double. -/
def absDouble (x : Dbl R) : Dbl R :=
  ⟨|x.val|, by
    obtain ⟨m, e, hm, he, hx⟩ := x.isDouble
    exact ⟨|m|, e, by rwa [abs_abs], he, by rw [hx, abs_mul, abs_of_pos (zpow_pos two_pos e : (0 : ℝ) < 2 ^ e)]; norm_cast⟩⟩

/-- `std::copysign(1.0, x)`; `z` is the sign of a zero. -/
noncomputable def sgnDouble (z : Bool) (x : Dbl R) : Dbl R :=
  if x < 0 then Dbl.minusOne else if 0 < x then Dbl.one else if z then Dbl.minusOne else Dbl.one

/-- math_interpolation.hpp:88 -/
noncomputable def minabsDouble (a b c : Dbl R) : Dbl R := min (min (absDouble a) (absDouble b)) (absDouble c)

/-- math_interpolation.hpp:85-94 `plm_gradient`; likewise subprog_cloud.cpp:450-464 `estimate_gradient_plm`.  `za`, `zb`, `zc` are the
signs of the differences where they are zero. -/
noncomputable def plmGradientDouble (za zb zc : Bool) (theta yl y0 yr : Dbl R) : Dbl R :=
  let a := (y0 - yl) * theta
  let b := (yr - yl) * Dbl.half
  let c := (yr - y0) * theta
  quarterDouble * absDouble (sgnDouble za a + sgnDouble zb b) * (sgnDouble za a + sgnDouble zc c) * minabsDouble a b c

/-- subprog_cloud.cpp:568-569: the values at the lower and at the upper face of a cell. -/
noncomputable def cloudFacesDouble (g y : Dbl R) : Dbl R × Dbl R := (y - g * Dbl.half, y + g * Dbl.half)

/-- subprog_binary_scheme.cpp:281-282 and 799: the values at the lower and at the upper face of a cell in the binary program, which
divides the difference by the grid spacing `h` and then multiplies with it. -/
noncomputable def binaryFacesDouble (h g y : Dbl R) : Dbl R × Dbl R := (y - g / h * Dbl.half * h, y + g / h * Dbl.half * h)

end Verif.Plm
