import Mathlib.Analysis.SpecialFunctions.Trigonometric.Basic
import Mathlib.Analysis.SpecialFunctions.Trigonometric.Deriv

/-!
# Spherical coordinates
-/

namespace Verif.Spherical

/-- The component of the vector `(a, b, c)` along the radius, at polar angle `q` and azimuth `p`. -/
noncomputable def alongR (a b c q p : ℝ) : ℝ := a * (Real.sin q * Real.cos p) + b * (Real.sin q * Real.sin p) + c * Real.cos q

/-- The component of the vector `(a, b, c)` in the direction of increasing polar angle. -/
noncomputable def alongQ (a b c q p : ℝ) : ℝ := a * (Real.cos q * Real.cos p) + b * (Real.cos q * Real.sin p) - c * Real.sin q

/-- The component of the vector `(a, b, c)` in the direction of increasing azimuth. -/
noncomputable def alongP (a b p : ℝ) : ℝ := -a * Real.sin p + b * Real.cos p

/-- The field with components `Fr`, `Fq`, `Fp` has the divergence `S` at the point `(r, q, p)`:
`1/r^2 d(r^2 Fr)/dr + 1/(r sin q) d(sin q Fq)/dq + 1/(r sin q) dFp/dp = S`. -/
def Divergence (Fr Fq Fp : ℝ → ℝ → ℝ → ℝ) (r q p S : ℝ) : Prop :=
  ∃ Dr Dq Dp, HasDerivAt (fun x => x ^ 2 * Fr x q p) Dr r ∧ HasDerivAt (fun x => Real.sin x * Fq r x p) Dq q ∧
    HasDerivAt (fun x => Fp r q x) Dp p ∧ Dr / r ^ 2 + Dq / (r * Real.sin q) + Dp / (r * Real.sin q) = S

end Verif.Spherical
