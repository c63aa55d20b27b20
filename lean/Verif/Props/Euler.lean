import Verif.Model.Euler
import Verif.Props.Geometry
import Mathlib.Tactic.FieldSimp
import Mathlib.Tactic.Positivity
import Mathlib.Tactic.Linarith
import Mathlib.Tactic.FinCases

/-!
# Gas dynamics (C53, C54, C55, C56)
-/

namespace Verif.Euler

open Geometry Matrices

/-- A gas: positive density and pressure. -/
def Physical (P : Vec) : Prop := 0 < P 0 ∧ 0 < P 4

/-- **C53**: from primitive to conserved and back gives the same state, whatever the temperature floor. -/
theorem recover_toConserved (P : Vec) (h : Physical P) (g : ℝ) (hg : 1 < g) (T : ℝ) :
    recover (toConserved P g) g T = P := by
  obtain ⟨h0, h4⟩ := h
  have hm : g - 1 ≠ 0 := by linarith
  have hp : (1 / 2 * P 0 * velocitySquared P + P 4 / (g - 1) -
      1 / 2 * (P 0 * P 1 * (P 0 * P 1) + P 0 * P 2 * (P 0 * P 2) + P 0 * P 3 * (P 0 * P 3)) / P 0) * (g - 1) = P 4 := by
    unfold velocitySquared
    field_simp
    ring
  funext i
  fin_cases i
  · rfl
  · simp [recover, toConserved]; field_simp
  · simp [recover, toConserved]; field_simp
  · simp [recover, toConserved]; field_simp
  · simp only [recover, toConserved, Matrix.cons_val]
    rw [hp]
    exact if_neg (by rintro ⟨h, -⟩; linarith)

example : recover (toConserved ![2, 1, 3, -1, 5] (5 / 3)) (5 / 3) 0 = ![2, 1, 3, -1, 5] :=
  recover_toConserved _ ⟨show (0 : ℝ) < 2 by norm_num, show (0 : ℝ) < 5 by norm_num⟩ _ (by norm_num) 0

/-- **C53**: from conserved to primitive and back, where no floor is applied: every state with positive density
and internal energy is the state of its primitives. -/
theorem toConserved_recover (U : Vec) (h : 0 < U 0) (g : ℝ) (hg : 1 < g) (T : ℝ)
    (he : U 1 ^ 2 + U 2 ^ 2 + U 3 ^ 2 ≤ 2 * U 0 * U 4) : toConserved (recover U g T) g = U := by
  have hm : 0 < g - 1 := by linarith
  have hp : ¬((U 4 - 1 / 2 * (U 1 * U 1 + U 2 * U 2 + U 3 * U 3) / U 0) * (g - 1) < 0 ∧ 0 < T) := by
    rintro ⟨hlt, -⟩
    have : 0 ≤ U 4 - 1 / 2 * (U 1 * U 1 + U 2 * U 2 + U 3 * U 3) / U 0 := by
      rw [sub_nonneg, div_le_iff₀ h]
      nlinarith
    nlinarith
  funext i
  fin_cases i
  · rfl
  · simp [recover, toConserved]; field_simp
  · simp [recover, toConserved]; field_simp
  · simp [recover, toConserved]; field_simp
  · simp only [recover, toConserved, velocitySquared, Matrix.cons_val]
    rw [floored, if_neg hp]
    simp
    field_simp
    ring

example : toConserved (recover ![2, 1, 3, -1, 5] (5 / 3) 0) (5 / 3) = ![2, 1, 3, -1, 5] :=
  toConserved_recover _ (show (0 : ℝ) < 2 by norm_num) _ (by norm_num) 0
    (show (1 : ℝ) ^ 2 + 3 ^ 2 + (-1) ^ 2 ≤ 2 * 2 * 5 by norm_num)

/-- **C53, the floor, as far as it holds.** With a floor, the recovered pressure is not negative, and if the
internal energy was negative the pressure is the floor.  What is missing: `floor_violated`. -/
theorem floor_partial (U : Vec) (h : 0 < U 0) (g T : ℝ) (hT : 0 < T) :
    0 ≤ (recover U g T) 4 ∧
      ((recover U g 0) 4 < 0 → (recover U g T) 4 = T * U 0) ∧
      ((recover U g T) 4 ≠ (recover U g 0) 4 → T * (recover U g T) 0 ≤ (recover U g T) 4) := by
  have hpos : 0 < T * U 0 := mul_pos hT h
  simp only [recover, Matrix.cons_val]
  generalize (U 4 - 1 / 2 * (U 1 * U 1 + U 2 * U 2 + U 3 * U 3) / U 0) * (g - 1) = p
  have h0 : floored p (U 0) 0 = p := if_neg (by simp)
  rw [h0]
  by_cases hp : p < 0
  · rw [floored, if_pos ⟨hp, hT⟩]
    exact ⟨hpos.le, fun _ => rfl, fun _ => le_rfl⟩
  · rw [floored, if_neg fun hh => hp hh.1]
    exact ⟨not_lt.1 hp, fun hh => absurd hh hp, fun hh => absurd rfl hh⟩

example : 0 ≤ recover ![2, 6, 0, 0, 1] (5 / 3) (1 / 10) 4 :=
  (floor_partial _ (show (0 : ℝ) < 2 by norm_num) _ _ (by norm_num)).1

/-- **C53 is violated**: a pressure that is positive but below the floor, documented as `p = max(p, T * rho)`,
stays below. -/
theorem floor_violated : ∃ (U : Vec) (g T : ℝ), 0 < U 0 ∧ 1 < g ∧ 0 < T ∧
    (recover U g T) 4 < T * (recover U g T) 0 := by
  refine ⟨![1, 0, 0, 0, 1], 2, 5, by simp, by norm_num, by norm_num, ?_⟩
  simp only [recover, floored, Matrix.cons_val]
  norm_num

end Verif.Euler
