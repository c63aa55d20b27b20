import Mathlib.Analysis.SpecialFunctions.Log.Base
import Mathlib.Data.Fin.VecNotation

/-!
# What is expected of the initial state and of the time series of the Sedov program
-/

namespace Verif.Sedov

/-- The middle of a cell between two vertices. -/
noncomputable def middle (x : Nat → ℝ) (k : Nat) : ℝ := (x k + x (k + 1)) / 2

/-- The volume of a shell, per steradian. -/
noncomputable def shell (x : Nat → ℝ) (k : Nat) : ℝ := (x (k + 1) ^ 3 - x k ^ 3) / 3

/-- The specific entropy, up to constants: `log(p / ρ^γ)`. -/
noncomputable def entropyOf (g : ℝ) (P : Fin 5 → ℝ) : ℝ := Real.log (P 4 / P 0 ^ g)

/-- Among `n` cells the drop of `s` is steepest between the cells `k` and `k + 1`, and less so between all of the cells before. -/
def SteepestDrop (s : Nat → ℝ) (n k : Nat) : Prop :=
  k + 1 < n ∧ (∀ l, l + 1 < n → s (k + 1) - s k ≤ s (l + 1) - s l) ∧ ∀ l, l < k → s (k + 1) - s k < s (l + 1) - s l

/-- Going from cell `k` inwards, `p` rises up to the cell `i` and no further. -/
def PeakBehind (p : Nat → ℝ) (k i : Nat) : Prop := i ≤ k ∧ (∀ l, i < l → l ≤ k → p l < p (l - 1)) ∧ (0 < i → p (i - 1) ≤ p i)

/-- The kink of `q` at a cell: it drops by more than half of what it does one cell before. -/
def Falling (q : Nat → ℝ) (l : Nat) : Prop := q l - q (l - 1) < 1 / 2 * (q (l - 1) - q (l - 2))

/-- Going from cell `k` outwards, `q` is falling up to the cell `j`, where it is not; zero if there is no such cell, or none of
the two cells before `k`. -/
def PlateauAhead (q : Nat → ℝ) (n k j : Nat) : Prop :=
  (2 ≤ k ∧ k ≤ j ∧ j < n ∧ ¬ Falling q j ∧ ∀ l, k ≤ l → l < j → Falling q l) ∨ (j = 0 ∧ (k < 2 ∨ ∀ l, k ≤ l → l < n → Falling q l))

/-- The parabola through three points has its vertex at `r`. -/
def IsVertex (x1 x2 x3 y1 y2 y3 r : ℝ) : Prop :=
  ∃ A b, A ≠ 0 ∧ y1 = b + A * (x1 - r) ^ 2 ∧ y2 = b + A * (x2 - r) ^ 2 ∧ y3 = b + A * (x3 - r) ^ 2

/-- A front with speed `s` conserves the mass of gas with densities `d1`, `d2` and velocities `v1`, `v2` on its sides, and is
the only one. -/
def IsFrontSpeed (d1 d2 v1 v2 s : ℝ) : Prop := d1 ≠ d2 ∧ s * (d2 - d1) = d2 * v2 - d1 * v1

end Verif.Sedov
