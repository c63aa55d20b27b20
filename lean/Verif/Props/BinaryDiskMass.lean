import Verif.Props.BinarySetup
import Mathlib.Analysis.SpecialFunctions.PolarCoord
import Mathlib.Analysis.SpecialFunctions.Gaussian.GaussianIntegral
import Mathlib.Analysis.SpecialFunctions.Integrals.Basic
import Mathlib.Analysis.Real.Pi.Bounds
import Mathlib.Analysis.Complex.ExponentialBounds
import Mathlib.MeasureTheory.Integral.IntegralEqImproper
import Mathlib.MeasureTheory.Integral.Prod

/-!
# C114: the mass of the initial disk
-/

namespace Verif.Binary

open MeasureTheory Set Real

/-- `∫_0^1 exp(-u²/2) du` up to one part in a million. -/
theorem erf_bounds : |(∫ u in (0 : ℝ)..1, exp (-(1 / 2) * u ^ 2)) - 8556244 / 10000000| ≤ 4 / 10000000 := by
  have hb : ∀ u ∈ Icc (0 : ℝ) 1, |exp (-(1 / 2) * u ^ 2) - (1 - u ^ 2 / 2 + u ^ 4 / 8 - u ^ 6 / 48 + u ^ 8 / 384 - u ^ 10 / 3840 + u ^ 12 / 46080)|
      ≤ u ^ 14 / 560000 := by
    intro u hu
    have h0 : 0 ≤ u ^ 2 := sq_nonneg u
    have h1 : u ^ 2 ≤ 1 := pow_le_one₀ hu.1 hu.2
    have := Real.exp_bound (x := -(1 / 2) * u ^ 2) (n := 7) (by rw [abs_le]; constructor <;> linarith) (by norm_num)
    simp only [Finset.sum_range_succ, Finset.sum_range_zero, Nat.factorial] at this
    rw [abs_mul, abs_of_nonneg h0] at this
    norm_num at this
    refine le_trans (le_of_eq ?_) (this.trans ?_)
    · congr 1
      ring
    · have h14 : 0 ≤ u ^ 14 := by positivity
      ring_nf
      linarith
  have hc : Continuous fun u : ℝ => exp (-(1 / 2) * u ^ 2) := by fun_prop
  have hq : Continuous fun u : ℝ => 1 - u ^ 2 / 2 + u ^ 4 / 8 - u ^ 6 / 48 + u ^ 8 / 384 - u ^ 10 / 3840 + u ^ 12 / 46080 := by fun_prop
  have he : Continuous fun u : ℝ => u ^ 14 / 560000 := by fun_prop
  have e1 : (∫ u in (0 : ℝ)..1, (1 - u ^ 2 / 2 + u ^ 4 / 8 - u ^ 6 / 48 + u ^ 8 / 384 - u ^ 10 / 3840 + u ^ 12 / 46080))
      = 1 - 1 / 6 + 1 / 40 - 1 / 336 + 1 / 3456 - 1 / 42240 + 1 / 599040 := by
    have := intervalIntegral.integral_eq_sub_of_hasDerivAt (a := 0) (b := 1)
      (f := fun u : ℝ => u - u ^ 3 / 6 + u ^ 5 / 40 - u ^ 7 / 336 + u ^ 9 / 3456 - u ^ 11 / 42240 + u ^ 13 / 599040)
      (f' := fun u : ℝ => 1 - u ^ 2 / 2 + u ^ 4 / 8 - u ^ 6 / 48 + u ^ 8 / 384 - u ^ 10 / 3840 + u ^ 12 / 46080) (fun u _ => by
        have := (((((((hasDerivAt_id u).sub ((hasDerivAt_pow 3 u).div_const 6)).add ((hasDerivAt_pow 5 u).div_const 40)).sub
          ((hasDerivAt_pow 7 u).div_const 336)).add ((hasDerivAt_pow 9 u).div_const 3456)).sub
          ((hasDerivAt_pow 11 u).div_const 42240)).add ((hasDerivAt_pow 13 u).div_const 599040))
        refine HasDerivAt.congr_deriv this ?_
        norm_num
        ring) (hq.intervalIntegrable _ _)
    rw [this]
    norm_num
  have e2 : (∫ u in (0 : ℝ)..1, u ^ 14 / 560000) = 1 / 8400000 := by
    rw [intervalIntegral.integral_div, integral_pow]
    norm_num
  have up : (∫ u in (0 : ℝ)..1, exp (-(1 / 2) * u ^ 2)) ≤ (∫ u in (0 : ℝ)..1,
      ((1 - u ^ 2 / 2 + u ^ 4 / 8 - u ^ 6 / 48 + u ^ 8 / 384 - u ^ 10 / 3840 + u ^ 12 / 46080) + u ^ 14 / 560000)) :=
    intervalIntegral.integral_mono_on (by norm_num) (hc.intervalIntegrable _ _) ((hq.add he).intervalIntegrable _ _) fun u hu => by
      have := (abs_le.1 (hb u hu)).2
      linarith
  have lo : (∫ u in (0 : ℝ)..1, ((1 - u ^ 2 / 2 + u ^ 4 / 8 - u ^ 6 / 48 + u ^ 8 / 384 - u ^ 10 / 3840 + u ^ 12 / 46080) - u ^ 14 / 560000))
      ≤ ∫ u in (0 : ℝ)..1, exp (-(1 / 2) * u ^ 2) :=
    intervalIntegral.integral_mono_on (by norm_num) ((hq.sub he).intervalIntegrable _ _) (hc.intervalIntegrable _ _) fun u hu => by
      have := (abs_le.1 (hb u hu)).1
      linarith
  rw [intervalIntegral.integral_add (hq.intervalIntegrable _ _) (he.intervalIntegrable _ _), e1, e2] at up
  rw [intervalIntegral.integral_sub (hq.intervalIntegrable _ _) (he.intervalIntegrable _ _), e1, e2] at lo
  rw [abs_le]
  constructor
  · linarith
  · linarith

theorem gauss_integrable : Integrable fun x : ℝ => exp (-(1 / 2) * (x - 1) ^ 2) :=
  (integrable_exp_neg_mul_sq (by norm_num : (0 : ℝ) < 1 / 2)).comp_sub_right 1

/-- The radial integral of the profile, exactly. -/
theorem radial_integral : (∫ x in Ioi (0 : ℝ), x * exp (-(1 / 2) * (x - 1) ^ 2))
    = exp (-(1 / 2)) + sqrt (π / 2) + ∫ u in (0 : ℝ)..1, exp (-(1 / 2) * u ^ 2) := by
  have hd : ∀ x : ℝ, HasDerivAt (fun x => -exp (-(1 / 2) * (x - 1) ^ 2)) ((x - 1) * exp (-(1 / 2) * (x - 1) ^ 2)) x := by
    intro x
    have := ((((hasDerivAt_id x).sub_const 1).pow 2).const_mul (-(1 / 2) : ℝ)).exp.neg
    refine HasDerivAt.congr_deriv this ?_
    show -(exp (-(1 / 2) * (x - 1) ^ 2) * (-(1 / 2) * ((2 : ℕ) * (x - 1) ^ (2 - 1) * 1))) = (x - 1) * exp (-(1 / 2) * (x - 1) ^ 2)
    push_cast
    ring
  have hi : Integrable fun x : ℝ => (x - 1) * exp (-(1 / 2) * (x - 1) ^ 2) :=
    (integrable_mul_exp_neg_mul_sq (by norm_num : (0 : ℝ) < 1 / 2)).comp_sub_right 1
  have ht : Filter.Tendsto (fun x : ℝ => -exp (-(1 / 2) * (x - 1) ^ 2)) Filter.atTop (nhds 0) := by
    rw [← neg_zero]
    apply Filter.Tendsto.neg
    apply tendsto_exp_atBot.comp
    apply Filter.Tendsto.const_mul_atTop_of_neg (by norm_num)
    apply (Filter.tendsto_pow_atTop (by norm_num)).comp
    exact Filter.tendsto_atTop_add_const_right _ _ Filter.tendsto_id
  have e1 : (∫ x in Ioi (0 : ℝ), (x - 1) * exp (-(1 / 2) * (x - 1) ^ 2)) = exp (-(1 / 2)) := by
    rw [integral_Ioi_of_hasDerivAt_of_tendsto' (fun x _ => hd x) hi.integrableOn ht]
    norm_num
  have e2 : (∫ x in Ioi (0 : ℝ), exp (-(1 / 2) * (x - 1) ^ 2)) = sqrt (π / 2) + ∫ u in (0 : ℝ)..1, exp (-(1 / 2) * u ^ 2) := by
    have f1 : (∫ x in Ioi (0 : ℝ), exp (-(1 / 2) * (x - 1) ^ 2)) = (∫ x in (0 : ℝ)..1, exp (-(1 / 2) * (x - 1) ^ 2))
        + ∫ x in Ioi (1 : ℝ), exp (-(1 / 2) * (x - 1) ^ 2) :=
      (intervalIntegral.integral_interval_add_Ioi gauss_integrable.integrableOn gauss_integrable.integrableOn).symm
    have f2 : (∫ x in (0 : ℝ)..1, exp (-(1 / 2) * (x - 1) ^ 2)) = ∫ u in (0 : ℝ)..1, exp (-(1 / 2) * u ^ 2) := by
      have := intervalIntegral.integral_comp_sub_left (a := 0) (b := 1) (fun u : ℝ => exp (-(1 / 2) * u ^ 2)) 1
      rw [sub_self, sub_zero] at this
      rw [← this]
      congr 1
      funext x
      congr 1
      ring
    have f3 : (∫ x in Ioi (1 : ℝ), exp (-(1 / 2) * (x - 1) ^ 2)) = sqrt (π / 2) := by
      have := integral_gaussian_Ioi (1 / 2)
      rw [show sqrt (π / (1 / 2)) / 2 = sqrt (π / 2) by
        rw [show π / (1 / 2) = 2 ^ 2 * (π / 2) by ring, sqrt_mul (by norm_num), sqrt_sq (by norm_num)]
        ring] at this
      rw [← this, ← (measurePreserving_sub_right volume (1 : ℝ)).setIntegral_preimage_emb (MeasurableEquiv.subRight (1 : ℝ)).measurableEmbedding
        (fun u => exp (-(1 / 2) * u ^ 2)) (Ioi 0)]
      congr 2
      ext x
      simp
    rw [f1, f2, f3]
    ring
  have e3 : (fun x : ℝ => x * exp (-(1 / 2) * (x - 1) ^ 2)) = fun x => (x - 1) * exp (-(1 / 2) * (x - 1) ^ 2) + exp (-(1 / 2) * (x - 1) ^ 2) := by
    funext x
    ring
  rw [e3, integral_add hi.integrableOn gauss_integrable.integrableOn, e1, e2]
  ring

theorem constant_bounds : |2 * π * (∫ x in Ioi (0 : ℝ), x * exp (-(1 / 2) * (x - 1) ^ 2)) / (170618 / 10000) - 1| ≤ 1 / 1000000 := by
  rw [radial_integral]
  have p1 := pi_gt_d6
  have p2 := pi_lt_d6
  have e0 := exp_pos (-(1 / 2))
  have es : exp (-(1 / 2)) ^ 2 = exp (-1) := by
    rw [← exp_nat_mul]
    norm_num
  have e1 : 606530 / 1000000 < exp (-(1 / 2)) := by
    have := exp_neg_one_gt_d9
    by_contra h
    have := pow_le_pow_left₀ e0.le (not_lt.1 h) 2
    rw [es] at this
    norm_num at *
    linarith
  have e2 : exp (-(1 / 2)) < 606531 / 1000000 := by
    have := exp_neg_one_lt_d9
    by_contra h
    have := pow_le_pow_left₀ (by norm_num) (not_lt.1 h) 2
    rw [es] at this
    norm_num at *
    linarith
  have s1 : 1253314 / 1000000 < sqrt (π / 2) := by
    rw [lt_sqrt (by norm_num)]
    norm_num at *
    linarith
  have s2 : sqrt (π / 2) < 1253315 / 1000000 := by
    rw [sqrt_lt' (by norm_num)]
    norm_num at *
    linarith
  obtain ⟨r1, r2⟩ := abs_le.1 erf_bounds
  generalize (∫ u in (0 : ℝ)..1, exp (-(1 / 2) * u ^ 2)) = I at *
  have hS1 : 2715468 / 1000000 ≤ exp (-(1 / 2)) + sqrt (π / 2) + I := by linarith
  have hS2 : exp (-(1 / 2)) + sqrt (π / 2) + I ≤ 27154708 / 10000000 := by linarith
  generalize exp (-(1 / 2)) + sqrt (π / 2) + I = S at *
  have m1 : (3141592 / 1000000) * (2715468 / 1000000) ≤ π * S := mul_le_mul (by norm_num at *; linarith) hS1 (by norm_num) (by positivity)
  have m2 : π * S ≤ (3141593 / 1000000) * (27154708 / 10000000) := mul_le_mul (by norm_num at *; linarith) hS2 (by linarith) (by norm_num)
  have e : 2 * π * S / (170618 / 10000) = π * S * (20000 / 170618) := by ring
  rw [e, abs_le]
  constructor <;> linarith

/-- **C114**: the surface density of the initial disk is a constant ambient value and on top of it a ring, whose integral over the plane is the
configured mass of the disk up to one part in a million.  The ambient value is the configured part of the largest value of the ring, which is at the
configured radius. -/
theorem disk_mass (c : RunConfig) (hr : 0 < c.diskRadius) : ∃ ambient,
    |(∫ p : ℝ × ℝ, (c.sigma (sqrt (p.1 * p.1 + p.2 * p.2)) - ambient)) - c.diskMass| ≤ |c.diskMass| / 1000000
    ∧ ambient = c.ambientDensity * (c.sigma c.diskRadius - ambient)
    ∧ (0 ≤ c.diskMass → ∀ r, ambient ≤ c.sigma r ∧ c.sigma r ≤ c.sigma c.diskRadius)
    ∧ Filter.Tendsto c.sigma Filter.atTop (nhds ambient)
    ∧ ∀ p P, diskProfile c p = .ok P → P.a = c.sigma (sqrt (p.1 * p.1 + p.2 * p.2)) := by
  refine ⟨c.s1, ?_, ?_, ?_, ?_, fun p P h => ?_⟩
  · have e1 : ∀ r, c.sigma r - c.s1 = c.s0 * exp (-(1 / 2) * (c.diskRadius⁻¹ * r - 1) ^ 2) := by
      intro r
      unfold RunConfig.sigma
      dsimp only
      rw [add_sub_cancel_right, div_eq_inv_mul]
      congr 2
      ring
    simp only [e1]
    rw [← integral_comp_polarCoord_symm, polarCoord_target]
    have e2 : EqOn (fun p : ℝ × ℝ => p.1 • (c.s0 * exp (-(1 / 2) * (c.diskRadius⁻¹ * sqrt ((polarCoord.symm p).1 * (polarCoord.symm p).1
        + (polarCoord.symm p).2 * (polarCoord.symm p).2) - 1) ^ 2)))
        (fun p => (p.1 * (c.s0 * exp (-(1 / 2) * (c.diskRadius⁻¹ * p.1 - 1) ^ 2))) * (1 : ℝ)) (Ioi 0 ×ˢ Ioo (-π) π) := by
      intro p hp
      have h0 : 0 ≤ p.1 := le_of_lt hp.1
      have : sqrt ((polarCoord.symm p).1 * (polarCoord.symm p).1 + (polarCoord.symm p).2 * (polarCoord.symm p).2) = p.1 := by
        rw [polarCoord_symm_apply, show p.1 * cos p.2 * (p.1 * cos p.2) + p.1 * sin p.2 * (p.1 * sin p.2) = p.1 ^ 2 by
          linear_combination p.1 ^ 2 * sin_sq_add_cos_sq p.2, sqrt_sq h0]
      dsimp only
      rw [this, smul_eq_mul, mul_one]
    rw [setIntegral_congr_fun (measurableSet_Ioi.prod measurableSet_Ioo) e2, Measure.volume_eq_prod,
      setIntegral_prod_mul (fun r => r * (c.s0 * exp (-(1 / 2) * (c.diskRadius⁻¹ * r - 1) ^ 2))) (fun _ => (1 : ℝ))]
    have e3 : (∫ r in Ioi (0 : ℝ), r * (c.s0 * exp (-(1 / 2) * (c.diskRadius⁻¹ * r - 1) ^ 2)))
        = c.s0 * c.diskRadius ^ 2 * ∫ x in Ioi (0 : ℝ), x * exp (-(1 / 2) * (x - 1) ^ 2) := by
      have h := integral_comp_mul_left_Ioi (fun x => x * exp (-(1 / 2) * (x - 1) ^ 2)) 0 (inv_pos.2 hr)
      rw [mul_zero, inv_inv, smul_eq_mul] at h
      rw [show c.s0 * c.diskRadius ^ 2 * (∫ x in Ioi (0 : ℝ), x * exp (-(1 / 2) * (x - 1) ^ 2))
        = c.s0 * c.diskRadius * (c.diskRadius * ∫ x in Ioi (0 : ℝ), x * exp (-(1 / 2) * (x - 1) ^ 2)) by ring, ← h, ← integral_const_mul]
      congr 1
      funext r
      field_simp
    have e4 : (∫ _ in Ioo (-π) π, (1 : ℝ)) = 2 * π := by
      rw [setIntegral_const, measureReal_def, Real.volume_Ioo, ENNReal.toReal_ofReal (by linarith [pi_pos])]
      simp
      ring
    rw [e3, e4]
    have hb := constant_bounds
    generalize (∫ x in Ioi (0 : ℝ), x * exp (-(1 / 2) * (x - 1) ^ 2)) = I at *
    have e5 : c.s0 * c.diskRadius ^ 2 * I * (2 * π) - c.diskMass = c.diskMass * (2 * π * I / (170618 / 10000) - 1) := by
      unfold RunConfig.s0
      field_simp
    rw [e5, abs_mul]
    calc |c.diskMass| * |2 * π * I / (170618 / 10000) - 1| ≤ |c.diskMass| * (1 / 1000000) := by gcongr
      _ = _ := by ring
  · have : c.sigma c.diskRadius = c.s0 + c.s1 := by
      unfold RunConfig.sigma
      dsimp only
      rw [div_self hr.ne']
      simp
    rw [this, add_sub_cancel_right]
    rfl
  · intro h r
    have h0 : 0 ≤ c.s0 := by
      unfold RunConfig.s0
      positivity
    unfold RunConfig.sigma
    dsimp only
    rw [div_self hr.ne']
    constructor
    · have := mul_nonneg h0 (exp_nonneg (-(1 / 2) * (r / c.diskRadius - 1) * (r / c.diskRadius - 1)))
      linarith
    · have : exp (-(1 / 2) * (r / c.diskRadius - 1) * (r / c.diskRadius - 1)) ≤ exp (-(1 / 2) * (1 - 1) * (1 - 1)) := by
        apply exp_le_exp.2
        nlinarith [mul_self_nonneg (r / c.diskRadius - 1)]
      have := mul_le_mul_of_nonneg_left this h0
      linarith
  · have h : Filter.Tendsto (fun r => c.s0 * exp (-(1 / 2) * (r / c.diskRadius - 1) ^ 2) + c.s1) Filter.atTop (nhds (c.s0 * 0 + c.s1)) := by
      apply Filter.Tendsto.add_const
      apply Filter.Tendsto.const_mul
      apply tendsto_exp_atBot.comp
      apply Filter.Tendsto.const_mul_atTop_of_neg (by norm_num)
      apply (Filter.tendsto_pow_atTop (by norm_num)).comp
      exact Filter.tendsto_atTop_add_const_right _ _ (Filter.tendsto_id.atTop_div_const hr)
    rw [mul_zero, zero_add] at h
    refine h.congr fun r => ?_
    unfold RunConfig.sigma
    dsimp only
    congr 3
    ring
  · unfold diskProfile at h
    dsimp only at h
    split at h
    · cases h
    · cases h
      rfl

/-- The disk of the default configuration. -/
example : ∃ ambient, |(∫ p : ℝ × ℝ, (defaults.sigma (sqrt (p.1 * p.1 + p.2 * p.2)) - ambient)) - 1 / 1000| ≤ 1 / 1000000000
    ∧ ambient = 1 / 10000 * (defaults.sigma 2 - ambient) := by
  obtain ⟨a, h1, h2, _⟩ := disk_mass defaults (by norm_num [defaults])
  refine ⟨a, ?_, ?_⟩
  · norm_num [defaults] at h1 ⊢
    exact h1
  · norm_num [defaults] at h2 ⊢
    exact h2

end Verif.Binary
