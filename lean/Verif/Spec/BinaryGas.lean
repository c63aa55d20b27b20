import Verif.Spec.BinaryReach

/-!
# Specification vocabulary for the gas of the binary program
-/

namespace Verif.Binary

/-- The square of the speed of sound at a point: the Mach number is that of the orbits around a unit mass at the origin, or the potential is that of the two
bodies. -/
noncomputable def sound2 (s : Params) (b : TwoBody.State) (x : ℝ × ℝ) : ℝ :=
  (if s.axisymmetric then 1 / Real.sqrt (x.1 ^ 2 + x.2 ^ 2)
    else b.body1.mass / reach s.softening b.body1 x + b.body2.mass / reach s.softening b.body2 x) / s.mach ^ 2

open Classical in
/-- The share of the viscosity that is left near the origin. -/
noncomputable def cutoff (rc r : ℝ) : ℝ := if rc > 0 then (1 + Real.tanh (3 * (r - rc))) / 2 else 1

open Classical in
/-- The kinematic viscosity at a point: a given one, or `alpha` times the speed of sound times the thickness of the disk. -/
noncomputable def viscosity (s : Params) (b : TwoBody.State) (x : ℝ × ℝ) : ℝ :=
  cutoff s.alphaCutoff (Real.sqrt (x.1 ^ 2 + x.2 ^ 2)) *
    if s.nu > 0 then s.nu else s.alpha * Real.sqrt (sound2 s b x) * (Real.sqrt (x.1 ^ 2 + x.2 ^ 2) / s.mach)

/-- The velocity of gas on circles around the origin, `W r` being the angular velocity at the radius `r`. -/
noncomputable def circular (W : ℝ → ℝ) (x y : ℝ) : ℝ × ℝ := (-(W (Real.sqrt (x ^ 2 + y ^ 2)) * y), W (Real.sqrt (x ^ 2 + y ^ 2)) * x)

end Verif.Binary
