import Verif.Model.Sedov
import Verif.Spec.Lines
import Verif.Spec.SedovSeries

/-!
# Gas on the grid of the Sedov program
-/

namespace Verif.Sedov

open Verif.Nd

/-- Radii that grow outwards, with no zone thinner than the innermost one, and none so thick that more than a part of it, which
depends on `cfl`, is swept by a step at the speed of light.  For `cfl ≤ 1 / 12` every thickness will do; for `cfl = 2 / 5` zones may grow by
8% from one to the next. -/
def FineGrid (cfl : ℝ) (n : Nat) (r : Nat → ℝ) : Prop :=
  0 < r 0 ∧ ∀ k, k < n → r k < r (k + 1) ∧ r 1 - r 0 ≤ r (k + 1) - r k ∧
    6 * cfl * (2 * r (k + 1) ^ 2 - r k ^ 2) ≤ r (k + 1) ^ 2 + r (k + 1) * r k + r k ^ 2

/-- Gas that moves along the radius: positive density and pressure, no transverse velocity. -/
def RadialGas (P : Fin 5 → ℝ) : Prop := 0 < P 0 ∧ 0 < P 4 ∧ P 2 = 0 ∧ P 3 = 0

/-- The state holds the conserved quantities of radial gas `P` in the zones between the radii `r`; `toC` gives conserved densities. -/
def Holds (toC : (Fin 5 → ℝ) → Fin 5 → ℝ) (st : State 5 ℝ) (n : Nat) (r : Nat → ℝ) (P : Nat → Fin 5 → ℝ) : Prop :=
  Line st.vertices (n + 1) r ∧ Line st.conserved n (fun k a => shell r k * toC (P k) a) ∧ ∀ k, k < n → RadialGas (P k)

/-- The state after `N` steps. -/
noncomputable def afterSteps {P : Type} [Inhabited P] (H : Hydro 5 ℝ P) (cfl : ℝ) : Nat → State 5 ℝ → Outcome (State 5 ℝ)
  | 0, st => .ok st
  | N + 1, st => (afterSteps H cfl N st).bind fun s => nextSolution H cfl s

end Verif.Sedov
