import Verif.Spec.TwoBody
import Mathlib.Analysis.SpecialFunctions.Trigonometric.Bounds
import Mathlib.Tactic.FieldSimp
import Mathlib.Tactic.LinearCombination
import Mathlib.Tactic.Positivity
import Mathlib.Tactic.Linarith
import Mathlib.Tactic.NormNum
import Mathlib.Tactic.ByContra

/-!
# From a state to its orbital elements

`X, Y` and `U, V` are position and velocity of body 1 relative to body 2.
-/

namespace Verif.TwoBody

open Real

/-- Masses are positive and the bodies are apart. -/
structure Apart (s : State) : Prop where
  m1 : 0 < s.body1.mass
  m2 : 0 < s.body2.mass
  d : 0 < Spec.distance s

/-- The quantities of the frame, from the relative motion. -/
structure FrameFacts (s : State) (X Y U V d β μ : ℝ) : Prop where
  x1 : (frameOf s).x1 = β * X
  y1 : (frameOf s).y1 = β * Y
  vx1 : (frameOf s).vx1 = β * U
  vy1 : (frameOf s).vy1 = β * V
  r1 : (frameOf s).r1 = β * d
  v1 : (frameOf s).v1 = β * sqrt (U ^ 2 + V ^ 2)
  L : (frameOf s).L = μ * (X * V - Y * U)
  E : (frameOf s).E = μ * ((U ^ 2 + V ^ 2) / 2 - (s.body1.mass + s.body2.mass) / d)

theorem frame_facts {s : State} (h : Apart s) :
    FrameFacts s (s.body1.x - s.body2.x) (s.body1.y - s.body2.y) (s.body1.vx - s.body2.vx) (s.body1.vy - s.body2.vy)
      (Spec.distance s) (s.body2.mass / (s.body1.mass + s.body2.mass))
      (s.body1.mass * s.body2.mass / (s.body1.mass + s.body2.mass)) := by
  obtain ⟨h1, h2, hd⟩ := h
  have hM : 0 < s.body1.mass + s.body2.mass := by linarith
  have hdist : Spec.distance s = sqrt ((s.body1.x - s.body2.x) ^ 2 + (s.body1.y - s.body2.y) ^ 2) := by
    unfold Spec.distance
    congr 1
    ring
  have hdsq : Spec.distance s ^ 2 = (s.body1.x - s.body2.x) ^ 2 + (s.body1.y - s.body2.y) ^ 2 := by
    rw [hdist, sq_sqrt (by positivity)]
  generalize Spec.distance s = d at *
  have hx1 : s.body1.x - (s.body1.x * s.body1.mass + s.body2.x * s.body2.mass) / (s.body1.mass + s.body2.mass)
      = s.body2.mass / (s.body1.mass + s.body2.mass) * (s.body1.x - s.body2.x) := by
    field_simp
    ring
  have hy1 : s.body1.y - (s.body1.y * s.body1.mass + s.body2.y * s.body2.mass) / (s.body1.mass + s.body2.mass)
      = s.body2.mass / (s.body1.mass + s.body2.mass) * (s.body1.y - s.body2.y) := by
    field_simp
    ring
  have hu1 : s.body1.vx - (s.body1.vx * s.body1.mass + s.body2.vx * s.body2.mass) / (s.body1.mass + s.body2.mass)
      = s.body2.mass / (s.body1.mass + s.body2.mass) * (s.body1.vx - s.body2.vx) := by
    field_simp
    ring
  have hv1 : s.body1.vy - (s.body1.vy * s.body1.mass + s.body2.vy * s.body2.mass) / (s.body1.mass + s.body2.mass)
      = s.body2.mass / (s.body1.mass + s.body2.mass) * (s.body1.vy - s.body2.vy) := by
    field_simp
    ring
  have hx2 : s.body2.x - (s.body1.x * s.body1.mass + s.body2.x * s.body2.mass) / (s.body1.mass + s.body2.mass)
      = -(s.body1.mass / (s.body1.mass + s.body2.mass)) * (s.body1.x - s.body2.x) := by
    field_simp
    ring
  have hy2 : s.body2.y - (s.body1.y * s.body1.mass + s.body2.y * s.body2.mass) / (s.body1.mass + s.body2.mass)
      = -(s.body1.mass / (s.body1.mass + s.body2.mass)) * (s.body1.y - s.body2.y) := by
    field_simp
    ring
  have hu2 : s.body2.vx - (s.body1.vx * s.body1.mass + s.body2.vx * s.body2.mass) / (s.body1.mass + s.body2.mass)
      = -(s.body1.mass / (s.body1.mass + s.body2.mass)) * (s.body1.vx - s.body2.vx) := by
    field_simp
    ring
  have hv2 : s.body2.vy - (s.body1.vy * s.body1.mass + s.body2.vy * s.body2.mass) / (s.body1.mass + s.body2.mass)
      = -(s.body1.mass / (s.body1.mass + s.body2.mass)) * (s.body1.vy - s.body2.vy) := by
    field_simp
    ring
  generalize s.body1.x - s.body2.x = X at *
  generalize s.body1.y - s.body2.y = Y at *
  generalize s.body1.vx - s.body2.vx = U at *
  generalize s.body1.vy - s.body2.vy = V at *
  have hβ : 0 < s.body2.mass / (s.body1.mass + s.body2.mass) := by positivity
  have hα : 0 < s.body1.mass / (s.body1.mass + s.body2.mass) := by positivity
  have hr1 : sqrt (s.body2.mass / (s.body1.mass + s.body2.mass) * X * (s.body2.mass / (s.body1.mass + s.body2.mass) * X)
      + s.body2.mass / (s.body1.mass + s.body2.mass) * Y * (s.body2.mass / (s.body1.mass + s.body2.mass) * Y))
      = s.body2.mass / (s.body1.mass + s.body2.mass) * d := by
    rw [← sqrt_sq (mul_pos hβ hd).le]
    congr 1
    linear_combination -(s.body2.mass / (s.body1.mass + s.body2.mass)) ^ 2 * hdsq
  have hr2 : sqrt (-(s.body1.mass / (s.body1.mass + s.body2.mass)) * X * (-(s.body1.mass / (s.body1.mass + s.body2.mass)) * X)
      + -(s.body1.mass / (s.body1.mass + s.body2.mass)) * Y * (-(s.body1.mass / (s.body1.mass + s.body2.mass)) * Y))
      = s.body1.mass / (s.body1.mass + s.body2.mass) * d := by
    rw [← sqrt_sq (mul_pos hα hd).le]
    congr 1
    linear_combination -(s.body1.mass / (s.body1.mass + s.body2.mass)) ^ 2 * hdsq
  have hw1 : sqrt (s.body2.mass / (s.body1.mass + s.body2.mass) * U * (s.body2.mass / (s.body1.mass + s.body2.mass) * U)
      + s.body2.mass / (s.body1.mass + s.body2.mass) * V * (s.body2.mass / (s.body1.mass + s.body2.mass) * V))
      = s.body2.mass / (s.body1.mass + s.body2.mass) * sqrt (U ^ 2 + V ^ 2) := by
    rw [show s.body2.mass / (s.body1.mass + s.body2.mass) * U * (s.body2.mass / (s.body1.mass + s.body2.mass) * U)
      + s.body2.mass / (s.body1.mass + s.body2.mass) * V * (s.body2.mass / (s.body1.mass + s.body2.mass) * V)
      = (s.body2.mass / (s.body1.mass + s.body2.mass)) ^ 2 * (U ^ 2 + V ^ 2) by ring, sqrt_mul (by positivity), sqrt_sq hβ.le]
  constructor <;> unfold frameOf <;> dsimp only
  · exact hx1
  · exact hy1
  · exact hu1
  · exact hv1
  · rw [hx1, hy1, hr1]
  · rw [hu1, hv1, hw1]
  · rw [hx1, hy1, hu1, hv1, hx2, hy2, hu2, hv2, hr1, hr2]
    field_simp
    ring
  · rw [hx1, hy1, hu1, hv1, hx2, hy2, hu2, hv2, hr1, hr2]
    field_simp
    ring

/-- The elements of a bound orbit that is not radial. -/
theorem elementsOf_eq {M1 M2 : ℝ} (F : Frame) (t X Y U V d : ℝ) (h1 : 0 < M1) (h2 : 0 < M2) (hd : 0 < d)
    (hdsq : d ^ 2 = X ^ 2 + Y ^ 2) (hh : X * V - Y * U ≠ 0)
    (hx : F.x1 = M2 / (M1 + M2) * X) (hy : F.y1 = M2 / (M1 + M2) * Y) (hu : F.vx1 = M2 / (M1 + M2) * U)
    (hv : F.vy1 = M2 / (M1 + M2) * V) (hr : F.r1 = M2 / (M1 + M2) * d) (hs : F.v1 = M2 / (M1 + M2) * sqrt (U ^ 2 + V ^ 2))
    (hL : F.L = M1 * M2 / (M1 + M2) * (X * V - Y * U))
    (hE : F.E = M1 * M2 / (M1 + M2) * ((U ^ 2 + V ^ 2) / 2 - (M1 + M2) / d)) (hneg : F.E < 0) :
    ∃ a e cn sn : ℝ, 0 < a ∧ a = -(1 / 2) * M1 * M2 / F.E ∧ 0 ≤ e ∧ e < 1
      ∧ e ^ 2 = 1 - (X * V - Y * U) ^ 2 / ((M1 + M2) * a) ∧ cn ^ 2 + sn ^ 2 = 1 ∧ e * cn = 1 - d / a
      ∧ e * sn * sqrt ((M1 + M2) * a) = X * U + Y * V
      ∧ elementsOf M1 M2 F t = .ok ⟨atan2 ((cn - e) * F.y1 - sn * sqrt (1 - e * e) * F.x1)
            ((cn - e) * F.x1 + sn * sqrt (1 - e * e) * F.y1),
          t - (atan2 sn cn - e * sn) / sqrt ((M1 + M2) / a / a / a), F.xcm, F.ycm, F.vxcm, F.vycm, ⟨a, M1 + M2, M2 / M1, e⟩⟩ := by
  have hM : 0 < M1 + M2 := by linarith
  obtain ⟨a, ha⟩ : ∃ a, a = -(1 / 2) * M1 * M2 / F.E := ⟨_, rfl⟩
  have hapos : 0 < a := by
    rw [ha]
    apply div_pos_of_neg_of_neg _ hneg
    have := mul_pos h1 h2
    linarith
  -- vis viva
  have hvis : U ^ 2 + V ^ 2 = (M1 + M2) * (2 / d - 1 / a) := by
    have e1 : a * F.E = -(1 / 2) * M1 * M2 := by
      rw [ha, div_mul_cancel₀ _ hneg.ne]
    rw [hE] at e1
    field_simp at e1 ⊢
    linear_combination e1
  have hMa : 0 < (M1 + M2) * a := mul_pos hM hapos
  -- the semi-minor axis
  have hb2 : -(1 / 2) * F.L * F.L / F.E * (M1 + M2) / (M1 * M2) = (X * V - Y * U) ^ 2 * a / (M1 + M2) := by
    have e1 : 1 / F.E = -2 * a / (M1 * M2) := by
      rw [ha]
      have := hneg.ne
      field_simp
    rw [div_eq_mul_one_div _ F.E, e1, hL]
    field_simp
  have hb2' : 0 ≤ (X * V - Y * U) ^ 2 * a / (M1 + M2) := by positivity
  obtain ⟨b, hb⟩ : ∃ b, b = sqrt ((X * V - Y * U) ^ 2 * a / (M1 + M2)) := ⟨_, rfl⟩
  have hbsq : b * b = (X * V - Y * U) ^ 2 * a / (M1 + M2) := by
    rw [hb, mul_self_sqrt hb2']
  -- the eccentricity
  have hlag : (X * V - Y * U) ^ 2 = d ^ 2 * (U ^ 2 + V ^ 2) - (X * U + Y * V) ^ 2 := by
    rw [hdsq]
    ring
  have he2 : 1 - b * b / a / a = (1 - d / a) ^ 2 + (X * U + Y * V) ^ 2 / ((M1 + M2) * a) := by
    rw [hbsq, hlag, hvis]
    field_simp
    ring
  have he2' : 1 - b * b / a / a = 1 - (X * V - Y * U) ^ 2 / ((M1 + M2) * a) := by
    rw [hbsq]
    field_simp
  have hpos : 0 < (X * V - Y * U) ^ 2 / ((M1 + M2) * a) := by positivity
  have hnn : 0 ≤ 1 - b * b / a / a := by
    rw [he2]
    positivity
  have hcl : clamp 0 1 (1 - b * b / a / a) = 1 - b * b / a / a := by
    unfold clamp
    rw [max_eq_left hnn, min_eq_left (by rw [he2']; linarith)]
  obtain ⟨e, he⟩ : ∃ e, e = sqrt (1 - b * b / a / a) := ⟨_, rfl⟩
  have hesq : e ^ 2 = 1 - b * b / a / a := by
    rw [he, sq_sqrt hnn]
  have he0 : 0 ≤ e := by
    rw [he]
    exact sqrt_nonneg _
  have he1 : e < 1 := by
    rw [he2'] at hesq
    exact (sq_lt_one_iff₀ he0).mp (by linarith)
  have hew : 0 < 1 - e * e := by
    have := mul_lt_mul'' he1 he1 he0 he0
    linarith
  -- sine and cosine of the eccentric anomaly
  have hspeed : U ^ 2 + V ^ 2 > 0 := by
    by_contra hc
    have hU : U = 0 := (pow_eq_zero_iff two_ne_zero).mp (by linarith [sq_nonneg U, sq_nonneg V])
    have hV : V = 0 := (pow_eq_zero_iff two_ne_zero).mp (by linarith [sq_nonneg U, sq_nonneg V])
    rw [hU, hV] at hh
    simp at hh
  have hβ : 0 < M2 / (M1 + M2) := by positivity
  have ha1 : a * (M2 / M1) / (1 + M2 / M1) = M2 / (M1 + M2) * a := by
    field_simp
  have hb1 : b * (M2 / M1) / (1 + M2 / M1) = M2 / (M1 + M2) * b := by
    field_simp
  have hr1a1 : F.r1 / (M2 / (M1 + M2) * a) = d / a := by
    rw [hr, mul_div_mul_left _ _ hβ.ne']
  obtain ⟨w, hw⟩ : ∃ w, w = sqrt (1 - e * e) := ⟨_, rfl⟩
  have hwsq : w ^ 2 = 1 - e * e := by rw [hw, sq_sqrt hew.le]
  have hwpos : 0 < w := by
    rw [hw]
    exact sqrt_pos.mpr hew
  have hbw : b = a * w := by
    have h3 : b ^ 2 = (a * w) ^ 2 := by
      rw [mul_pow, hwsq]
      have : b ^ 2 = a ^ 2 * (1 - (1 - b * b / a / a)) := by
        field_simp
        ring
      rw [this, ← hesq]
      ring
    have hb0 : 0 ≤ b := by
      rw [hb]
      exact sqrt_nonneg _
    exact (pow_left_inj₀ hb0 (by positivity) (by norm_num)).mp h3
  obtain ⟨cn, hcn⟩ : ∃ cn, cn = if e = 0 then F.x1 / F.r1 else (1 - F.r1 / (M2 / (M1 + M2) * a)) / e := ⟨_, rfl⟩
  obtain ⟨sn, hsn⟩ : ∃ sn, sn = if e = 0 then F.y1 / F.r1
    else (F.vx1 * F.x1 + F.vy1 * F.y1) / (e * F.v1 * F.r1) * sqrt (1 - e * e * cn * cn) := ⟨_, rfl⟩
  have hcn' : e * cn = 1 - d / a := by
    by_cases h0 : e = 0
    · have h4 : (1 - d / a) ^ 2 + (X * U + Y * V) ^ 2 / ((M1 + M2) * a) = 0 := by
        rw [← he2, ← hesq, h0]
        norm_num
      have h5 : 0 ≤ (X * U + Y * V) ^ 2 / ((M1 + M2) * a) := by positivity
      have h6 : (1 - d / a) ^ 2 = 0 := by linarith [sq_nonneg (1 - d / a)]
      rw [h0, zero_mul]
      exact (pow_eq_zero_iff (by norm_num)).mp h6 |>.symm
    · rw [hcn, if_neg h0, hr1a1]
      field_simp
  have hrad : 1 - e * e * cn * cn = d ^ 2 * (U ^ 2 + V ^ 2) / ((M1 + M2) * a) := by
    have : 1 - e * e * cn * cn = 1 - (e * cn) ^ 2 := by ring
    rw [this, hcn', hvis]
    field_simp
    ring
  have hsn' : e * sn * sqrt ((M1 + M2) * a) = X * U + Y * V := by
    by_cases h0 : e = 0
    · have h4 : (1 - d / a) ^ 2 + (X * U + Y * V) ^ 2 / ((M1 + M2) * a) = 0 := by
        rw [← he2, ← hesq, h0]
        norm_num
      have h5 : 0 ≤ (X * U + Y * V) ^ 2 / ((M1 + M2) * a) := by positivity
      have h6 : (X * U + Y * V) ^ 2 / ((M1 + M2) * a) = 0 := by linarith [sq_nonneg (1 - d / a)]
      rw [div_eq_zero_iff] at h6
      rw [h0, zero_mul, zero_mul]
      exact ((pow_eq_zero_iff (by norm_num)).mp (h6.resolve_right hMa.ne')).symm
    · rw [hsn, if_neg h0, hrad, sqrt_div (by positivity), sqrt_mul (by positivity), sqrt_sq hd.le, hs, hr, hu, hv, hx, hy]
      have h7 : 0 < sqrt ((M1 + M2) * a) := sqrt_pos.mpr hMa
      have h8 : 0 < sqrt (U ^ 2 + V ^ 2) := sqrt_pos.mpr hspeed
      generalize sqrt ((M1 + M2) * a) = k at *
      generalize sqrt (U ^ 2 + V ^ 2) = v at *
      field_simp
  have hunit : cn ^ 2 + sn ^ 2 = 1 := by
    by_cases h0 : e = 0
    · rw [hcn, hsn, if_pos h0, if_pos h0, hx, hy, hr]
      field_simp
      linarith
    · have h7 : 0 < sqrt ((M1 + M2) * a) := sqrt_pos.mpr hMa
      have h9 : sqrt ((M1 + M2) * a) ^ 2 = (M1 + M2) * a := sq_sqrt hMa.le
      have h10 : e ^ 2 * (cn ^ 2 + sn ^ 2) = e ^ 2 := by
        have h11 : (e * sn) ^ 2 = (X * U + Y * V) ^ 2 / ((M1 + M2) * a) := by
          rw [← hsn', mul_pow (e * sn), h9, mul_div_cancel_right₀ _ hMa.ne']
        have : e ^ 2 * (cn ^ 2 + sn ^ 2) = (e * cn) ^ 2 + (e * sn) ^ 2 := by ring
        rw [this, hcn', h11, ← he2, hesq]
      have h12 : e ^ 2 ≠ 0 := pow_ne_zero 2 h0
      exact mul_left_cancel₀ h12 (by rw [h10, mul_one])
  have hcf : 1 + e * (M2 / (M1 + M2) * a / F.r1 * (cn - e)) = a / d * (1 - e * e) := by
    rw [hr, mul_div_mul_left _ _ hβ.ne']
    have : 1 + e * (a / d * (cn - e)) = 1 + a / d * (e * cn - e * e) := by ring
    rw [this, hcn']
    field_simp
    ring
  have hcfpos : 0 < a / d * (1 - e * e) := by positivity
  have hd' : d = a * (1 - e * cn) := by
    rw [hcn']
    field_simp
    ring
  have hcE : (e + M2 / (M1 + M2) * a / F.r1 * (cn - e)) / (1 + e * (M2 / (M1 + M2) * a / F.r1 * (cn - e))) = cn := by
    rw [hcf, div_eq_iff hcfpos.ne', hr, mul_div_mul_left _ _ hβ.ne']
    have hd0 := hd.ne'
    field_simp
    rw [hd']
    ring
  have hsE : sqrt (1 - e * e) * (M2 / (M1 + M2) * b / F.r1 * sn) / (1 + e * (M2 / (M1 + M2) * a / F.r1 * (cn - e))) = sn := by
    rw [hcf, div_eq_iff hcfpos.ne', hr, mul_div_mul_left _ _ hβ.ne', ← hw, hbw]
    linear_combination a / d * sn * hwsq
  have hom : 0 < sqrt ((M1 + M2) / a / a / a) := sqrt_pos.mpr (by positivity)
  refine ⟨a, e, cn, sn, hapos, ha, he0, he1, hesq.trans he2', hunit, hcn', hsn', ?_⟩
  unfold elementsOf
  dsimp only
  rw [hb2, ← hb, ← ha, hcl, ← he, ha1, hb1, ← hcn, ← hsn, hcE, hsE]
  rw [if_neg]
  rintro (h' | h' | h' | h' | ⟨h0, h' | h'⟩ | h')
  · exact hapos.ne' h'
  · exact hom.ne' h'
  · have : 0 < 1 + M2 / M1 := by positivity
    exact this.ne' h'
  · exact (mul_pos hβ hapos).ne' h'
  · rw [hs] at h'
    exact (mul_pos hβ (sqrt_pos.mpr hspeed)).ne' h'
  · rw [hrad] at h'
    have : 0 ≤ d ^ 2 * (U ^ 2 + V ^ 2) / ((M1 + M2) * a) := by positivity
    linarith
  · rw [hcf] at h'
    exact hcfpos.ne' h'

end Verif.TwoBody
