import Verif.Spec.Cloud
import Verif.Spec.SedovSeries
import Mathlib.Analysis.SpecialFunctions.Pow.Real

/-!
# What is expected of the diagnostic fields of the cloud program
-/

namespace Verif.Cloud

/-- The Lorentz factor of gas with primitive quantities `ρ, u_1, u_2, u_3, p`. -/
noncomputable def boost (P : Fin 5 → ℝ) : ℝ := Real.sqrt (1 + P 1 ^ 2 + P 2 ^ 2 + P 3 ^ 2)

/-- The radial current of energy without rest mass, of gas with adiabatic index 4/3: `ρ u_r (h Γ - 1)`, with the specific enthalpy `h = 1 + 4 p / ρ`. -/
noncomputable def current (P : Fin 5 → ℝ) : ℝ := P 0 * P 1 * ((1 + 4 * (P 4 / P 0)) * boost P - 1)

/-- The energy that flows per time through the cells `(i, j)`, on the mean of the areas of its two radial faces. -/
noncomputable def flow (r q : Nat → ℝ) (P : Nat → Nat → Fin 5 → ℝ) (i j : Nat) : ℝ :=
  current (P i j) * ((zone (r i) (q j) (q (j + 1)) + zone (r (i + 1)) (q j) (q (j + 1))) / 2)

end Verif.Cloud
