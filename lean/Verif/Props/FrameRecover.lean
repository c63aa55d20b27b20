import Verif.Props.Frame
import Verif.Props.SrhdRecover

/-!
# C126 is violated by relativistic recovery
-/

namespace Verif.Frame
open Verif Geometry

/-- A thin gas. -/
noncomputable def thin (p : ℝ) : Fin 5 → ℝ := ![3 / 50 * p, 3 / 4, 0, 0, p]

theorem thin_lorentz (p : ℝ) : Srhd.lorentzFactor (thin p) = 5 / 4 := by
  show Real.sqrt (1 + (3 / 4 * (3 / 4) + 0 * 0 + 0 * 0)) = 5 / 4
  rw [show (1 + (3 / 4 * (3 / 4) + 0 * 0 + 0 * 0) : ℝ) = (5 / 4) ^ 2 by norm_num, Real.sqrt_sq (by norm_num)]

theorem thin_conserved {p : ℝ} (hp : 0 < p) : Srhd.toConserved (thin p) (5 / 3) = ![3 / 40 * p, 12 / 5 * p, 0, 0, 117 / 40 * p] := by
  have hh : Srhd.specificEnthalpy (thin p) (5 / 3) = 128 / 3 := by
    show (3 / 50 * p + p * (1 + 1 / (5 / 3 - 1))) / (3 / 50 * p) = 128 / 3
    field_simp
    norm_num
  unfold Srhd.toConserved
  simp only [thin_lorentz, hh]
  refine vec_ext ?_ ?_ ?_ ?_ ?_
  · show 3 / 50 * p * (5 / 4) = 3 / 40 * p; ring
  · show 3 / 50 * p * (5 / 4) * (3 / 4) * (128 / 3) = 12 / 5 * p; ring
  · show 3 / 50 * p * (5 / 4) * 0 * (128 / 3) = 0; ring
  · show 3 / 50 * p * (5 / 4) * 0 * (128 / 3) = 0; ring
  · show 3 / 50 * p * (5 / 4) * (128 / 3) * (5 / 4) - p - 3 / 50 * p * (5 / 4) = 117 / 40 * p; ring

/-- Of a gas that is thin enough, recovery takes the first guess. -/
theorem thin_recover {p : ℝ} (hp : 0 < p) (hp' : p ≤ 1 / 10 ^ 10) :
    ∃ R, Srhd.recover (Srhd.toConserved (thin p) (5 / 3)) (5 / 3) 0 = .ok R ∧ R 4 = 69 / 100 * p := by
  rw [thin_conserved hp]
  set U : Fin 5 → ℝ := ![3 / 40 * p, 12 / 5 * p, 0, 0, 117 / 40 * p] with hU
  have u0 : U 0 = 3 / 40 * p := rfl
  have u4 : U 4 = 117 / 40 * p := rfl
  have hS : Srhd.momentumSquared U = (12 / 5 * p) ^ 2 := by
    show 12 / 5 * p * (12 / 5 * p) + 0 * 0 + 0 * 0 = _
    ring
  obtain ⟨hv, hw, hd, hf⟩ := Srhd.guess_eq U 0 (3 * p) (9 / 5 * p) (by rw [u0]; positivity) (by rw [u0, u4]; ring) (by positivity) (by positivity)
    (by rw [hS]; ring) (by nlinarith [sq_nonneg p])
  have hf' : Srhd.guessF U (5 / 3) 0 = 69 / 100 * p := by
    rw [hf, hS, u0]
    field_simp
    ring
  have hg : Srhd.guessG U (5 / 3) 0 = -1 := by
    unfold Srhd.guessG
    rw [mul_zero, zero_div, mul_zero, zero_sub]
  have hw' : Srhd.guessW U 0 = 5 / 3 := by
    rw [hw]
    field_simp
    norm_num
  have hd' : Srhd.guessDh U 0 ≠ 0 := by rw [hd]; positivity
  have hloop : Srhd.loop U (5 / 3) 50 0 = .ok (true, 69 / 100 * p, 5 / 3) := by
    show Srhd.loop U (5 / 3) (49 + 1) 0 = _
    unfold Srhd.loop
    rw [if_neg, if_pos]
    · rw [hf', hg, hw', zero_sub, div_neg, div_one, neg_neg]
    · rw [hf', abs_of_pos (by positivity)]
      unfold Srhd.tolerance
      linarith
    · rintro (h | h | h | h)
      · rw [u0, u4] at h; linarith
      · rw [u0] at h; linarith
      · exact hd' h
      · rw [hg] at h; norm_num at h
  unfold Srhd.recover
  rw [hloop]
  dsimp only
  unfold Srhd.finish Srhd.floored
  dsimp only
  rw [if_neg (lt_irrefl _), if_neg (by rw [u0, u4]; positivity), if_neg (by simp), if_neg, if_neg]
  · exact ⟨_, rfl, rfl⟩
  · show ¬ 69 / 100 * p ≤ 0
    linarith
  · show ¬ U 0 / (5 / 3) ≤ 0
    rw [u0, not_le]
    positivity

/-- **C126** is violated by relativistic recovery: the tolerance is a number of pressure, whatever the units.  Of one and
the same gas, the pressure is recovered to a percent in some units, and is too small by more than 30 % in others. -/
theorem srhd_units_violated : ∃ (P R R' : Fin 5 → ℝ) (l g : ℝ), Srhd.Physical P ∧ 0 < l ∧ 1 < g ∧ g < 2 ∧ Srhd.lorentzFactor P ≤ 2 ∧
    Srhd.recover (Srhd.toConserved P g) g 0 = .ok R ∧ Srhd.recover (Srhd.toConserved (rest l P) g) g 0 = .ok R' ∧
    R 4 < 7 / 10 * P 4 ∧ 99 / 100 * (l * P 4) < R' 4 := by
  have hp : (0 : ℝ) < 1 / 10 ^ 10 := by norm_num
  obtain ⟨R, h1, h2⟩ := thin_recover hp le_rfl
  have hr : rest (10 ^ 8) (thin (1 / 10 ^ 10)) = thin (1 / 100) := by
    refine vec_ext ?_ rfl rfl rfl ?_
    · show (10 ^ 8 : ℝ) * (3 / 50 * (1 / 10 ^ 10)) = 3 / 50 * (1 / 100); norm_num
    · show (10 ^ 8 : ℝ) * (1 / 10 ^ 10) = 1 / 100; norm_num
  have ph : ∀ p : ℝ, 0 < p → Srhd.Physical (thin p) := fun p h => ⟨show 0 < 3 / 50 * p by positivity, h⟩
  have acc := Srhd.recover_accurate (thin (1 / 100)) (ph _ (by norm_num)) (5 / 3) (by norm_num) (by norm_num) (by rw [thin_lorentz]; norm_num) 0
    (by show 0 * _ ≤ (1 / 100 : ℝ); norm_num)
  obtain ⟨R', h3⟩ := acc.2 (by show ((5 / 3 : ℝ) - 1) ^ 49 * (1 / 100) < 1 / 10 ^ 10; norm_num)
  refine ⟨thin (1 / 10 ^ 10), R, R', 10 ^ 8, 5 / 3, ph _ hp, by norm_num, by norm_num, by norm_num, by rw [thin_lorentz]; norm_num, h1, by rw [hr]; exact h3, ?_, ?_⟩
  · rw [h2]
    show (69 / 100 * (1 / 10 ^ 10) : ℝ) < 7 / 10 * (1 / 10 ^ 10)
    norm_num
  · show 99 / 100 * ((10 : ℝ) ^ 8 * (1 / 10 ^ 10)) < R' 4
    rcases acc.1 with h | ⟨Q, hQ, hb, -⟩
    · rw [h] at h3; cases h3
    · rw [hQ] at h3
      obtain rfl : Q = R' := Outcome.ok.inj h3
      have hb' : (1 / 100 : ℝ) - 1 / 10 ^ 10 / (2 - 5 / 3) ≤ Q 4 := hb
      norm_num at hb' ⊢
      linarith

end Verif.Frame
