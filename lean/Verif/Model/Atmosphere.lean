import Verif.Model.Outcome
import Mathlib.Analysis.SpecialFunctions.Pow.Real
import Mathlib.Analysis.SpecialFunctions.Trigonometric.Basic

/-!
# The power-law atmosphere (`model_atmosphere.hpp`)

`double` is `ℝ`; `std::pow` and `std::log` are exact.  Dividing by zero, and a power or logarithm of a number that is not
positive, are undefined behaviour.
-/

namespace Verif.Atmosphere

/-- model_atmosphere.hpp:91-135 `power_law_atmosphere_model`. -/
structure Model where
  f0 : ℝ
  r0 : ℝ
  rc : ℝ
  n1 : ℝ
  n2 : ℝ

/-- model_atmosphere.hpp:130-134: the default. -/
noncomputable def Model.default : Model := ⟨1, 1, 100, 2, 6⟩

/-- model_atmosphere.hpp:93 `with_coefficient`. -/
def Model.withCoefficient (m : Model) (f0 : ℝ) : Model := { m with f0 := f0 }

open Classical in
/-- `std::pow`. -/
noncomputable def pow (x y : ℝ) : Outcome ℝ := if x ≤ 0 then .ub else .ok (x ^ y)

open Classical in
/-- `x / y`. -/
noncomputable def div (x y : ℝ) : Outcome ℝ := if y = 0 then .ub else .ok (x / y)

/-- model_atmosphere.hpp:126: inside of the cut-off. -/
noncomputable def Model.inner (m : Model) (r : ℝ) : Outcome ℝ :=
  (div r m.r0).bind fun x => (pow x (-m.n1)).map fun y => m.f0 * y

open Classical in
/-- model_atmosphere.hpp:124-127 `density_at`.  The call `density_at(rc)` in it takes the first branch. -/
noncomputable def Model.densityAt (m : Model) (r : ℝ) : Outcome ℝ :=
  if r ≤ m.rc then m.inner r
  else (m.inner m.rc).bind fun d => (div r m.rc).bind fun x => (pow x (-m.n2)).map fun y => d * y

open Classical in
/-- model_atmosphere.hpp:103-108 `mass_within_cutoff`. -/
noncomputable def Model.massWithinCutoff (m : Model) : Outcome ℝ :=
  if m.n1 = 3 then
    (m.densityAt m.rc).bind fun d => (div m.rc m.r0).bind fun x =>
      if x ≤ 0 then .ub else .ok (4 * Real.pi * (d * m.rc ^ 3 * Real.log x))
  else
    (m.densityAt m.rc).bind fun d => (m.densityAt m.r0).bind fun d0 =>
      .ok (4 * Real.pi * (d * m.rc ^ 3 - d0 * m.r0 ^ 3) / (3 - m.n1))

open Classical in
/-- model_atmosphere.hpp:110-117 `mass_beyond_cutoff`. -/
noncomputable def Model.massBeyondCutoff (m : Model) : Outcome ℝ :=
  if m.n2 ≤ 3 then .throws .invalidArgument
  else (m.densityAt m.rc).map fun d => 4 * Real.pi * d * m.rc ^ 3 / (m.n2 - 3)

/-- model_atmosphere.hpp:119-122 `total_mass`. -/
noncomputable def Model.totalMass (m : Model) : Outcome ℝ :=
  m.massWithinCutoff.bind fun a => m.massBeyondCutoff.map fun b => a + b

/-- model_atmosphere.hpp:98-101 `with_total_mass`. -/
noncomputable def Model.withTotalMass (m : Model) (new : ℝ) : Outcome Model :=
  m.totalMass.bind fun M => (div new M).map m.withCoefficient

end Verif.Atmosphere
