import Mathlib.Analysis.SpecialFunctions.Trigonometric.Deriv
import Mathlib.Analysis.SpecialFunctions.Trigonometric.Bounds
import Mathlib.Analysis.Real.Pi.Bounds
import Mathlib.Analysis.Calculus.Deriv.MeanValue
import Mathlib.Analysis.Calculus.Deriv.Inverse
import Mathlib.Topology.Order.IntermediateValue
import Mathlib.Tactic.Linarith
import Mathlib.Tactic.NormNum
import Mathlib.Tactic.Positivity
import Mathlib.Tactic.LinearCombination

/-!
# Kepler's equation

`E - e sin E = M` for an eccentricity `0 ≤ e < 1`: it has exactly one solution, that depends smoothly on `M`.
-/

namespace Verif.Kepler

open Real

/-- Kepler's function. -/
noncomputable def kep (e E : ℝ) : ℝ := E - e * sin E

theorem slope_pos {e : ℝ} (h0 : 0 ≤ e) (h1 : e < 1) (E : ℝ) : 0 < 1 - e * cos E := by
  nlinarith [cos_le_one E, neg_one_le_cos E]

theorem slope_ge {e : ℝ} (h0 : 0 ≤ e) (E : ℝ) : 1 - e ≤ 1 - e * cos E := by
  nlinarith [cos_le_one E]

theorem slope_le {e : ℝ} (h0 : 0 ≤ e) (E : ℝ) : 1 - e * cos E ≤ 1 + e := by
  nlinarith [neg_one_le_cos E]

theorem hasDerivAt_kep (e E : ℝ) : HasDerivAt (kep e) (1 - e * cos E) E :=
  (hasDerivAt_id E).sub ((hasDerivAt_sin E).const_mul e)

/-- The function grows at least as fast as `1 - e`. -/
theorem kep_sub_ge {e : ℝ} (h0 : 0 ≤ e) {x y : ℝ} (hxy : x ≤ y) : (1 - e) * (y - x) ≤ kep e y - kep e x := by
  have h : sin y - sin x ≤ y - x := by
    have h1 := abs_sin_sub_sin_le y x
    rw [abs_of_nonneg (sub_nonneg.mpr hxy)] at h1
    exact (le_abs_self _).trans h1
  unfold kep
  nlinarith

theorem kep_strictMono {e : ℝ} (h0 : 0 ≤ e) (h1 : e < 1) : StrictMono (kep e) := by
  intro x y hxy
  have := kep_sub_ge h0 hxy.le
  nlinarith

/-- Two arguments are no further apart than the values allow. -/
theorem abs_sub_le {e : ℝ} (h0 : 0 ≤ e) (x y : ℝ) : (1 - e) * |y - x| ≤ |kep e y - kep e x| := by
  rcases le_total x y with h | h
  · rw [abs_of_nonneg (sub_nonneg.mpr h)]
    exact (kep_sub_ge h0 h).trans (le_abs_self _)
  · rw [abs_sub_comm, abs_of_nonneg (sub_nonneg.mpr h), abs_sub_comm]
    exact (kep_sub_ge h0 h).trans (le_abs_self _)

theorem kep_continuous (e : ℝ) : Continuous (kep e) := by
  unfold kep
  fun_prop

/-- Kepler's equation has a solution. -/
theorem exists_root {e : ℝ} (h0 : 0 ≤ e) (M : ℝ) : ∃ E, kep e E = M := by
  have h : M ∈ Set.Icc (kep e (M - e)) (kep e (M + e)) := by
    constructor
    · unfold kep
      nlinarith [neg_one_le_sin (M - e)]
    · unfold kep
      nlinarith [sin_le_one (M + e)]
  obtain ⟨E, _, hE⟩ := intermediate_value_Icc (by linarith) (kep_continuous e).continuousOn h
  exact ⟨E, hE⟩

/-- The solution of Kepler's equation. -/
noncomputable def root {e : ℝ} (h0 : 0 ≤ e) (M : ℝ) : ℝ := (exists_root h0 M).choose

theorem kep_root {e : ℝ} (h0 : 0 ≤ e) (M : ℝ) : kep e (root h0 M) = M := (exists_root h0 M).choose_spec

theorem root_unique {e : ℝ} (h0 : 0 ≤ e) (h1 : e < 1) {M E : ℝ} (h : kep e E = M) : E = root h0 M :=
  (kep_strictMono h0 h1).injective (h.trans (kep_root h0 M).symm)

theorem root_continuous {e : ℝ} (h0 : 0 ≤ e) (h1 : e < 1) : Continuous (root h0) := by
  rw [Metric.continuous_iff]
  intro M ε hε
  refine ⟨(1 - e) * ε, mul_pos (by linarith) hε, fun M' hM' => ?_⟩
  rw [Real.dist_eq] at hM' ⊢
  have h := abs_sub_le h0 (root h0 M) (root h0 M')
  rw [kep_root, kep_root] at h
  exact lt_of_mul_lt_mul_left (h.trans_lt hM') (by linarith)

theorem hasDerivAt_root {e : ℝ} (h0 : 0 ≤ e) (h1 : e < 1) (M : ℝ) :
    HasDerivAt (root h0) (1 - e * cos (root h0 M))⁻¹ M :=
  HasDerivAt.of_local_left_inverse (root_continuous h0 h1).continuousAt (hasDerivAt_kep e _) (slope_pos h0 h1 _).ne'
    (Filter.Eventually.of_forall (kep_root h0))

/-- The sine lies below its tangents on the half turn where it is not negative. -/
theorem sin_le_tangent {x z : ℝ} (hx0 : 0 ≤ x) (hx1 : x ≤ π) (hz0 : 0 ≤ z) (hz1 : z ≤ π) :
    sin z ≤ sin x + cos x * (z - x) := by
  rcases lt_trichotomy x z with h | h | h
  · obtain ⟨c, hc, hs⟩ := exists_hasDerivAt_eq_slope sin cos h continuous_sin.continuousOn (fun y _ => hasDerivAt_sin y)
    have h1 : cos c ≤ cos x := cos_le_cos_of_nonneg_of_le_pi hx0 (hc.2.le.trans hz1) hc.1.le
    rw [eq_div_iff (by linarith)] at hs
    nlinarith
  · rw [h]
    simp
  · obtain ⟨c, hc, hs⟩ := exists_hasDerivAt_eq_slope sin cos h continuous_sin.continuousOn (fun y _ => hasDerivAt_sin y)
    have h1 : cos x ≤ cos c := cos_le_cos_of_nonneg_of_le_pi (hz0.trans hc.1.le) hx1 hc.2.le
    rw [eq_div_iff (by linarith)] at hs
    nlinarith

/-- The first step of Newton's method from `E = M` stays in the half turn if the eccentricity is not too large. -/
theorem first_step_poly {u : ℝ} (h0 : 0 ≤ u) (h1 : u ≤ 6 / 5) :
    u ≤ (3.14 - u) * (1 / 9 + 2 * (u / 2 - (u / 2) ^ 3 / 6) ^ 2) := by
  nlinarith [sq_nonneg (u - 1 / 2), mul_nonneg h0 (sub_nonneg.mpr h1), sq_nonneg (u ^ 2 - 1 / 4), sq_nonneg (u ^ 2), pow_nonneg h0 3, pow_nonneg h0 5, pow_nonneg h0 7]

/-- The first step of Newton's method from `E = M` does not leave the half turn `[0, π]` if the eccentricity is at most
`9/10`. -/
theorem first_step {e M : ℝ} (h0 : 0 ≤ e) (h9 : e ≤ 9 / 10) (hM0 : 0 ≤ M) (hM1 : M ≤ π) :
    e * sin M ≤ (π - M) * (1 - e * cos M) := by
  have hs0 : 0 ≤ sin M := sin_nonneg_of_nonneg_of_le_pi hM0 hM1
  rcases le_total (π / 2) M with h | h
  · have hc : cos M ≤ 0 := cos_nonpos_of_pi_div_two_le_of_le h (by linarith [pi_pos])
    have hs : sin M ≤ π - M := by
      rw [← sin_pi_sub]
      exact sin_le (by linarith)
    have : e * sin M ≤ sin M := by nlinarith
    have : 0 ≤ (π - M) * (e * -cos M) := mul_nonneg (by linarith) (mul_nonneg h0 (by linarith))
    nlinarith
  · have hc0 : 0 ≤ cos M := cos_nonneg_of_neg_pi_div_two_le_of_le (by linarith [pi_pos]) h
    have key : sin M ≤ (π - M) * (10 / 9 - cos M) := by
      have hcos : cos M = 1 - 2 * sin (M / 2) ^ 2 := by
        have := cos_two_mul (M / 2)
        rw [show 2 * (M / 2) = M by ring] at this
        nlinarith [sin_sq_add_cos_sq (M / 2)]
      have hpi := pi_gt_d2
      have hpi' := pi_lt_d2
      have hhalf : M / 2 - (M / 2) ^ 3 / 6 ≤ sin (M / 2) := by
        rcases eq_or_lt_of_le hM0 with h | h
        · rw [← h]
          simp
        · exact (sin_gt_sub_cube (by linarith)).le
      rcases le_total M (6 / 5) with h' | h'
      · have hb0 : 0 ≤ M / 2 - (M / 2) ^ 3 / 6 := by
          have : 0 ≤ M / 2 * (1 - (M / 2) ^ 2 / 6) := mul_nonneg (by linarith) (by nlinarith)
          nlinarith
        have hp := first_step_poly hM0 h'
        have hsq : (M / 2 - (M / 2) ^ 3 / 6) ^ 2 ≤ sin (M / 2) ^ 2 := pow_le_pow_left₀ hb0 hhalf 2
        have hsin := sin_le hM0
        rw [hcos]
        generalize (M / 2 - (M / 2) ^ 3 / 6) ^ 2 = B at *
        generalize sin (M / 2) ^ 2 = S at *
        have hB : 0 ≤ 1 / 9 + 2 * B ∨ 1 / 9 + 2 * B < 0 := le_or_gt _ _
        rcases hB with hB | hB
        · nlinarith
        · nlinarith
      · have hcle : cos M ≤ cos (6 / 5) := cos_le_cos_of_nonneg_of_le_pi (by norm_num) hM1 h'
        have hc5 : cos (6 / 5) ≤ 2 / 5 := by
          have h1 := cos_two_mul (3 / 5)
          have h2 := sin_sq_add_cos_sq (3 / 5)
          have h3 := (sin_gt_sub_cube (x := 3 / 5) (by norm_num)).le
          rw [show 2 * (3 / 5 : ℝ) = 6 / 5 by norm_num] at h1
          have h4 : (3 / 5 - (3 / 5) ^ 3 / 6 : ℝ) ^ 2 ≤ sin (3 / 5) ^ 2 := pow_le_pow_left₀ (by norm_num) h3 2
          norm_num at h4
          nlinarith
        have := sin_le_one M
        nlinarith
    have hpos : 0 ≤ π - M := by linarith
    have h1 : e * (sin M + (π - M) * cos M) ≤ 9 / 10 * (sin M + (π - M) * cos M) :=
      mul_le_mul_of_nonneg_right h9 (add_nonneg hs0 (mul_nonneg hpos hc0))
    nlinarith

end Verif.Kepler
