import Verif.Model.Plm
import Mathlib.Analysis.SpecialFunctions.Trigonometric.Basic

/-!
# Volumes, areas and states at faces of a spherical grid
-/

namespace Verif.Cloud

/-- Volume between two radii and two polar angles. -/
noncomputable def wedge (r0 r1 q0 q1 : ℝ) : ℝ := 2 * Real.pi / 3 * (r1 ^ 3 - r0 ^ 3) * (Real.cos q0 - Real.cos q1)

/-- Area of a sphere between two polar angles. -/
noncomputable def zone (r q0 q1 : ℝ) : ℝ := 2 * Real.pi * r ^ 2 * (Real.cos q0 - Real.cos q1)

/-- Area of a cone between two radii. -/
noncomputable def cone (r0 r1 q : ℝ) : ℝ := Real.pi * (r1 ^ 2 - r0 ^ 2) * Real.sin q

/-- The limited slope of `n` states in a row, zero in the first and last. -/
noncomputable def slope (z : Fin 5 → Bool) (theta : ℝ) (n : Nat) (p : Nat → Fin 5 → ℝ) (k : Nat) : Fin 5 → ℝ :=
  if k = 0 ∨ k + 1 = n then 0 else Plm.plmGradientSeq z z z theta (p (k - 1)) (p k) (p (k + 1))

/-- The states on the two sides of the face between `k` and `k + 1`: as they are (method 1), or with slopes (method 2). -/
noncomputable def sides (method : Int) (z : Fin 5 → Bool) (theta : ℝ) (n : Nat) (p : Nat → Fin 5 → ℝ) (k : Nat) :
    (Fin 5 → ℝ) × (Fin 5 → ℝ) :=
  if method = 1 then (p k, p (k + 1))
  else (fun a => p k a + slope z theta n p k a / 2, fun a => p (k + 1) a - slope z theta n p (k + 1) a / 2)

/-- A row of `m` states between a given one and a copy of the last. -/
def column (first : Fin 5 → ℝ) (m : Nat) (p : Nat → Fin 5 → ℝ) (k : Nat) : Fin 5 → ℝ :=
  if k = 0 then first else p (min (k - 1) (m - 1))

end Verif.Cloud
