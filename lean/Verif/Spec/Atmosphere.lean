import Verif.Model.Atmosphere
import Mathlib.MeasureTheory.Integral.IntervalIntegral.Basic

/-!
# The density of the atmosphere, and the mass of gas with a given density
-/

namespace Verif.Atmosphere.Spec

open MeasureTheory Classical

/-- The density profile as it is documented in model_atmosphere.hpp:83-90. -/
noncomputable def profile (m : Model) (r : ℝ) : ℝ :=
  if r < m.rc then m.f0 * (r / m.r0) ^ (-m.n1) else m.f0 * (m.rc / m.r0) ^ (-m.n1) * (r / m.rc) ^ (-m.n2)

/-- `M` is the mass of gas of density `ρ` at the radii in the set `A`: the integral of the density over spherical shells, which
exists. -/
def IsMass (ρ : ℝ → ℝ) (A : Set ℝ) (M : ℝ) : Prop :=
  IntegrableOn (fun r => 4 * Real.pi * r ^ 2 * ρ r) A ∧ ∫ r in A, 4 * Real.pi * r ^ 2 * ρ r = M

/-- Radii are positive and in order. -/
structure Sound (m : Model) : Prop where
  r0 : 0 < m.r0
  rc : m.r0 < m.rc

end Verif.Atmosphere.Spec
