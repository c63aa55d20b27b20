import Verif.Props.TwoBodyElements
import Mathlib.Analysis.SpecialFunctions.Log.Deriv
import Mathlib.Analysis.Calculus.Deriv.Inv
import Mathlib.Tactic.LinearCombination

/-!
# C85, C86, C87: changes of orbits
-/

namespace Verif.TwoBody

open Real Verif.Kepler Spec

/-- The period that is computed is that of Kepler's third law. -/
theorem period_eq {p : Elements} (h : Elliptic p) : orbitalPeriod p = .ok (period p) ∧ period p = 2 * π / frequency p
    ∧ 0 < period p := by
  have ha := h.a
  have hM := h.M
  have hf := freq_pos h
  have hpos : 0 < p.totalMass / p.separation / p.separation / p.separation := by positivity
  have hfe : frequency p = sqrt (p.totalMass / p.separation / p.separation / p.separation) := by
    unfold frequency
    rw [if_neg ha.ne']
  have e1 : period p = 2 * π / frequency p := by
    unfold period
    rw [hfe, div_eq_mul_inv (2 * π), ← sqrt_inv]
    congr 2
    field_simp
  refine ⟨?_, e1, ?_⟩
  · unfold orbitalPeriod
    dsimp only
    rw [if_neg (by rintro (h1 | h1) <;> linarith), e1, hfe]
  · rw [e1]
    positivity

theorem wrapDiff_cases (δ P : ℝ) : ∃ k : ℤ, wrapDiff δ P = δ + k * P ∧ |k| ≤ 1 := by
  unfold wrapDiff
  dsimp only
  split_ifs
  · exact ⟨0, by simp, by simp⟩
  · exact ⟨1, by simp, by simp⟩
  · exact ⟨-1, by push_cast; ring, by simp⟩

theorem wrapDiff_small {δ P : ℝ} (hP : 0 < P) (h : |δ| ≤ 3 / 2 * P) : |wrapDiff δ P| ≤ P / 2 := by
  obtain ⟨h1, h2⟩ := abs_le.mp h
  unfold wrapDiff
  dsimp only
  split_ifs with c1 c2
  · rw [lt_min_iff] at c1
    obtain ⟨c1, c2⟩ := c1
    rcases abs_cases δ with ⟨a1, a2⟩ | ⟨a1, a2⟩ <;> rcases abs_cases (δ + P) with ⟨b1, b2⟩ | ⟨b1, b2⟩ <;>
      rcases abs_cases (δ - P) with ⟨d1, d2⟩ | ⟨d1, d2⟩ <;> linarith
  · rw [not_lt, min_le_iff] at c1
    rcases abs_cases δ with ⟨a1, a2⟩ | ⟨a1, a2⟩ <;> rcases abs_cases (δ + P) with ⟨b1, b2⟩ | ⟨b1, b2⟩ <;>
      rcases abs_cases (δ - P) with ⟨d1, d2⟩ | ⟨d1, d2⟩ <;> rcases c1 with c1 | c1 <;> linarith
  · rw [not_lt, min_le_iff] at c1
    rcases abs_cases δ with ⟨a1, a2⟩ | ⟨a1, a2⟩ <;> rcases abs_cases (δ + P) with ⟨b1, b2⟩ | ⟨b1, b2⟩ <;>
      rcases abs_cases (δ - P) with ⟨d1, d2⟩ | ⟨d1, d2⟩ <;> rcases c1 with c1 | c1 <;> linarith

/-- The orbit does not depend on whole turns and whole periods. -/
theorem fullMotion_shift {p : FullElements} (h : Elliptic p.elements) (n k : ℤ) (t : ℝ) :
    fullMotion { p with pomega := p.pomega + n * (2 * π), tau := p.tau + k * period p.elements } h.e0 t
      = fullMotion p h.e0 t := by
  unfold fullMotion
  dsimp only
  have e1 : motion p.elements h.e0 (t - (p.tau + k * period p.elements)) = motion p.elements h.e0 (t - p.tau) := by
    rw [(period_eq h).2.1]
    rcases Int.eq_nat_or_neg k with ⟨m, rfl | rfl⟩
    · rw [← motion_periodic h _ m]
      congr 1
      push_cast
      ring
    · rw [← motion_periodic h (t - p.tau) m]
      congr 1
      push_cast
      ring
  rw [e1]
  unfold turn
  rw [sin_add_int_mul_two_pi, cos_add_int_mul_two_pi]

/-- **C85.** Adding the difference of two sets of elements to the first gives a set of elements for the orbit of the second:
the two stand for the same motion, with the same motion of the centre of mass. -/
theorem diff_same_orbit (a b : FullElements) (h1 : 0 < b.elements.separation) (h2 : 0 < b.elements.totalMass)
    (h3 : 0 < b.elements.massRatio) (h4 : 0 ≤ b.elements.eccentricity) (h5 : b.elements.eccentricity < 1) :
    ∃ D, diff a b = .ok D ∧ (a.add D).elements = b.elements ∧ (a.add D).cmX = b.cmX ∧ (a.add D).cmY = b.cmY
      ∧ (a.add D).cmVx = b.cmVx ∧ (a.add D).cmVy = b.cmVy
      ∧ ∃ m, IsOrbit b m ∧ IsOrbit (a.add D) m := by
  have h : Elliptic b.elements := ⟨h1, h2, h3, h4, h5⟩
  obtain ⟨hP, _, _⟩ := period_eq h
  unfold diff
  rw [hP]
  refine ⟨_, rfl, ?_, ?_, ?_, ?_, ?_, fullMotion b h.e0, fullMotion_isOrbit h, ?_⟩
  · ext <;> simp [FullElements.add]
  · simp [FullElements.add]
  · simp [FullElements.add]
  · simp [FullElements.add]
  · simp [FullElements.add]
  · obtain ⟨n, hn, _⟩ := wrapDiff_cases (b.pomega - a.pomega) (2 * π)
    obtain ⟨k, hk, _⟩ := wrapDiff_cases (b.tau - a.tau) (period b.elements)
    have hh : Elliptic (FullElements.elements { b with pomega := b.pomega + n * (2 * π), tau := b.tau + k * period b.elements }) := h
    have := fullMotion_isOrbit hh
    rw [show fullMotion { b with pomega := b.pomega + n * (2 * π), tau := b.tau + k * period b.elements } hh.e0
      = fullMotion b h.e0 from funext (fullMotion_shift h n k)] at this
    refine cast ?_ this
    congr 1
    ext <;> simp [FullElements.add, hn, hk]
    · ring
    · ring

example : ∃ D, diff ⟨1, 0, 2, 3, 1, -1, ⟨1, 1, 1 / 2, 1 / 2⟩⟩ ⟨-3, 50, 2, 4, 0, 1, ⟨2, 1, 1, 1 / 4⟩⟩ = .ok D ∧
    ∃ m, IsOrbit ⟨-3, 50, 2, 4, 0, 1, ⟨2, 1, 1, 1 / 4⟩⟩ m ∧
      IsOrbit (FullElements.add ⟨1, 0, 2, 3, 1, -1, ⟨1, 1, 1 / 2, 1 / 2⟩⟩ D) m := by
  obtain ⟨D, h1, _, _, _, _, _, h2⟩ := diff_same_orbit ⟨1, 0, 2, 3, 1, -1, ⟨1, 1, 1 / 2, 1 / 2⟩⟩
    ⟨-3, 50, 2, 4, 0, 1, ⟨2, 1, 1, 1 / 4⟩⟩ (by norm_num) (by norm_num) (by norm_num) (by norm_num) (by norm_num)
  exact ⟨D, h1, h2⟩

/-- **C85, size.** If angles differ by at most one and a half turns and times of periapse by at most one and a half periods, the
difference is at most half a turn and half a period.  Missing: times further apart, see `diff_small_violated`. -/
theorem diff_small_partial (a b D : FullElements) (h1 : 0 < b.elements.separation) (h2 : 0 < b.elements.totalMass)
    (hp : |b.pomega - a.pomega| ≤ 3 * π) (ht : |b.tau - a.tau| ≤ 3 / 2 * period b.elements) (hD : diff a b = .ok D) :
    |D.pomega| ≤ π ∧ |D.tau| ≤ period b.elements / 2 := by
  have h : Elliptic ⟨b.elements.separation, b.elements.totalMass, 1, 0⟩ := ⟨h1, h2, by norm_num, by norm_num, by norm_num⟩
  obtain ⟨hP, _, hpos⟩ := period_eq h
  have hP' : orbitalPeriod b.elements = .ok (period b.elements) := hP
  have hpos' : 0 < period b.elements := hpos
  unfold diff at hD
  rw [hP'] at hD
  obtain rfl := Outcome.ok.inj hD
  have := pi_pos
  refine ⟨?_, wrapDiff_small hpos' ht⟩
  have := wrapDiff_small (show 0 < 2 * π by linarith) (show |b.pomega - a.pomega| ≤ 3 / 2 * (2 * π) by linarith)
  dsimp only
  linarith

example (D : FullElements) (hD : diff ⟨1, 0, 2, 3, 1, -1, ⟨1, 1, 1 / 2, 1 / 2⟩⟩ ⟨-3, 0, 2, 4, 0, 1, ⟨2, 1, 1, 1 / 4⟩⟩ = .ok D) :
    |D.pomega| ≤ π := by
  refine (diff_small_partial _ _ D (by norm_num) (by norm_num) ?_ ?_ hD).1
  · have := Real.pi_gt_three
    rw [show ((-3 : ℝ) - 1) = -4 by norm_num, abs_neg, abs_of_pos (by norm_num)]
    linarith
  · rw [sub_self, abs_zero]
    unfold period
    positivity

/-- Circular orbit of two equal masses with unit frequency. -/
noncomputable def circle : FullElements := ⟨0, 0, 0, 0, 0, 0, ⟨1, 1, 1, 0⟩⟩

theorem circle_elliptic : Elliptic circle.elements := by
  unfold circle
  exact ⟨by norm_num, by norm_num, by norm_num, by norm_num, by norm_num⟩

theorem circle_frequency : frequency circle.elements = 1 := by
  unfold frequency circle
  norm_num

theorem sqrt_quarter : sqrt (1 / 4) = 1 / 2 := by
  rw [show (1 / 4 : ℝ) = (1 / 2) ^ 2 by norm_num, sqrt_sq (by norm_num)]

/-- The bodies after four turns. -/
noncomputable def circleState : State := ⟨⟨1 / 2, 1 / 2, 0, 0, 1 / 2⟩, ⟨1 / 2, -(1 / 2), 0, 0, -(1 / 2)⟩⟩

theorem circle_state : fullTwoBodyState circle (4 * (2 * π)) = .ok circleState := by
  have hpi := pi_pos
  have hc : catchUp circle (4 * (2 * π)) = .ok (4 * (2 * π)) := by
    unfold catchUp
    rw [Loop.whileLoop_unfold, if_neg]
    simp only [circle, not_lt]
    positivity
  have hcos : cos (4 * (2 * π)) = 1 := by
    have := cos_nat_mul_two_pi 4
    push_cast at this
    exact this
  have hsin : sin (4 * (2 * π)) = 0 := by
    have := sin_nat_mul_pi 8
    push_cast at this
    rw [← this]
    congr 1
    ring
  have hs : twoBodyState circle.elements (4 * (2 * π)) = .ok circleState := by
    unfold twoBodyState
    dsimp only
    rw [if_neg (by simp only [circle]; norm_num), if_neg (by simp only [circle]; norm_num), circle_frequency]
    unfold makeResult
    dsimp only
    rw [circle_frequency, one_mul, hcos, hsin, if_neg (by simp only [circle]; norm_num)]
    unfold circleState circle
    norm_num
  unfold fullTwoBodyState
  rw [hc]
  change (twoBodyState circle.elements (4 * (2 * π) - circle.tau)).map _ = _
  rw [show 4 * (2 * π) - circle.tau = 4 * (2 * π) by simp [circle], hs]
  unfold circleState circle place Outcome.map
  simp

theorem circle_frame : frameOf circleState = ⟨0, 0, 0, 0, 1 / 2, 0, 0, 1 / 2, 1 / 2, 1 / 2, 1 / 4, -(1 / 8)⟩ := by
  have h := sqrt_quarter
  norm_num at h
  unfold frameOf circleState
  norm_num [h]

theorem circle_back (t : ℝ) : computeOrbitalElements circleState t = .ok { circle with tau := t } := by
  have e0 : Complex.arg ⟨1, 0⟩ = 0 := by
    rw [show (⟨1, 0⟩ : ℂ) = ((1 : ℝ) : ℂ) from rfl, Complex.arg_ofReal_of_nonneg (by norm_num)]
  have e1 : Complex.arg ⟨2⁻¹, 0⟩ = 0 := by
    rw [show (⟨2⁻¹, 0⟩ : ℂ) = ((2⁻¹ : ℝ) : ℂ) from rfl, Complex.arg_ofReal_of_nonneg (by norm_num)]
  unfold computeOrbitalElements
  rw [circle_frame]
  dsimp only
  rw [if_neg (by unfold circleState; norm_num), if_neg (by norm_num)]
  unfold elementsOf
  have hb : sqrt (-(1 / 2) * (1 / 4) * (1 / 4) / -(1 / 8) * (circleState.body1.mass + circleState.body2.mass)
      / (circleState.body1.mass * circleState.body2.mass)) = 1 := by
    unfold circleState
    norm_num
  have ha : -(1 / 2) * circleState.body1.mass * circleState.body2.mass / -(1 / 8) = 1 := by
    unfold circleState
    norm_num
  have hcl : sqrt (clamp 0 1 (1 - 1 * 1 / 1 / 1)) = 0 := by
    unfold clamp
    norm_num
  have hq : circleState.body2.mass / circleState.body1.mass = 1 := by
    unfold circleState
    norm_num
  have hm : circleState.body1.mass + circleState.body2.mass = 1 := by
    unfold circleState
    norm_num
  dsimp only
  rw [hb, ha, hcl, hq, hm]
  norm_num
  unfold atan2 circle
  simp [e0, e1]

/-- **C85 fails for times of periapse that are far apart.** The difference is shortened by one period only.  So it does in use:
on a circular orbit with frequency one, the elements computed from the positions of the bodies after four turns differ from
those the positions were computed from by three periods, though nothing has changed. -/
theorem diff_small_violated : ∃ a b D : FullElements, ∃ s, fullTwoBodyState a (4 * (2 * π)) = .ok s
    ∧ computeOrbitalElements s (4 * (2 * π)) = .ok b ∧ b.elements = a.elements ∧ diff a b = .ok D
    ∧ D.tau = 3 * period b.elements := by
  refine ⟨circle, _, ⟨wrapDiff (circle.pomega - circle.pomega) (2 * π), wrapDiff (4 * (2 * π) - circle.tau) (period circle.elements),
    circle.cmX - circle.cmX, circle.cmY - circle.cmY, circle.cmVx - circle.cmVx, circle.cmVy - circle.cmVy,
    ⟨circle.elements.separation - circle.elements.separation, circle.elements.totalMass - circle.elements.totalMass,
      circle.elements.massRatio - circle.elements.massRatio, circle.elements.eccentricity - circle.elements.eccentricity⟩⟩,
    _, circle_state, circle_back _, rfl, ?_, ?_⟩
  · unfold diff
    rw [(period_eq circle_elliptic).1]
    rfl
  · have hpi := pi_pos
    have hper : period circle.elements = 2 * π := by
      unfold period circle
      norm_num
    dsimp only
    rw [hper, show circle.tau = 0 from rfl]
    unfold wrapDiff
    dsimp only
    rw [abs_of_pos (show 0 < 4 * (2 * π) - 0 by linarith), abs_of_pos (show 0 < 4 * (2 * π) - 0 + 2 * π by linarith),
      abs_of_pos (show 0 < 4 * (2 * π) - 0 - 2 * π by linarith), if_neg, if_neg]
    · ring
    · linarith
    · rw [lt_min_iff]
      rintro ⟨_, h⟩
      linarith

/-- **C87, periapse at time zero.** The mean anomaly grows by a whole turn in each period, and is zero at periapse, if the time
of periapse is zero.  Missing: other times of periapse, see `mean_anomaly_violated`. -/
theorem mean_anomaly_partial (p : FullElements) (t : ℝ) (h1 : 0 < p.elements.separation) (h2 : 0 < p.elements.totalMass)
    (ht : p.tau = 0) : ∃ M, meanAnomaly p t = .ok M ∧ ∃ n : ℤ, M = 2 * π * (t - p.tau) / period p.elements + n * (2 * π) := by
  let p' : FullElements := { p with elements := ⟨p.elements.separation, p.elements.totalMass, 1, 0⟩ }
  have h : Elliptic p'.elements := ⟨h1, h2, by norm_num, by norm_num, by norm_num⟩
  obtain ⟨hP, hf, hpos⟩ := period_eq h
  obtain ⟨n, hn, _⟩ := catchUp_spec h t
  have hP' : orbitalPeriod p.elements = .ok (period p.elements) := hP
  have hn' : catchUp p t = .ok (t + n * period p.elements) := by
    rw [← hf] at hn
    exact hn
  have hpos' : 0 < period p.elements := hpos
  unfold meanAnomaly
  rw [hP', hn']
  refine ⟨_, rfl, n, ?_⟩
  rw [ht]
  push_cast
  field_simp
  ring

example (t : ℝ) : ∃ M, meanAnomaly ⟨1, 0, 2, 3, 1, -1, ⟨1, 1, 1 / 2, 1 / 2⟩⟩ t = .ok M := by
  obtain ⟨M, h, _⟩ := mean_anomaly_partial ⟨1, 0, 2, 3, 1, -1, ⟨1, 1, 1 / 2, 1 / 2⟩⟩ t (by norm_num) (by norm_num) rfl
  exact ⟨M, h⟩

/-- **C87 fails.** The time of periapse is not subtracted: at periapse the mean anomaly is not a whole number of turns. -/
theorem mean_anomaly_violated : ∃ p M, p.elements = ⟨1, 1, 1, 0⟩ ∧ meanAnomaly p p.tau = .ok M ∧ ¬ ∃ n : ℤ, M = n * (2 * π) := by
  have hper : period ⟨1, 1, 1, 0⟩ = 2 * π := by
    unfold period
    norm_num
  refine ⟨{ circle with tau := 1 }, 1, rfl, ?_, ?_⟩
  · have hc : catchUp { circle with tau := 1 } 1 = .ok 1 := by
      unfold catchUp
      rw [Loop.whileLoop_unfold, if_neg (lt_irrefl _)]
    unfold meanAnomaly
    dsimp only
    rw [(period_eq circle_elliptic).1, hc]
    change Outcome.ok (2 * π / period ⟨1, 1, 1, 0⟩ * 1) = _
    rw [hper]
    have := pi_pos.ne'
    congr 1
    field_simp
  · rintro ⟨n, hn⟩
    have h3 := pi_gt_three
    rcases le_or_gt n 0 with h | h
    · have : (n : ℝ) ≤ 0 := by exact_mod_cast h
      nlinarith
    · have : (1 : ℝ) ≤ n := by exact_mod_cast h
      nlinarith

/-- The derivative of the energy seen from the centre of mass. -/
theorem hasDerivAt_inner {m1 m2 u1 w1 u2 w2 : ℝ → ℝ} {m1' m2' u1' w1' u2' w2' d : ℝ} (hm1 : HasDerivAt m1 m1' 0)
    (hm2 : HasDerivAt m2 m2' 0) (hu1 : HasDerivAt u1 u1' 0) (hw1 : HasDerivAt w1 w1' 0) (hu2 : HasDerivAt u2 u2' 0)
    (hw2 : HasDerivAt w2 w2' 0) (hM : m1 0 + m2 0 ≠ 0) (hu : m1 0 * u1 0 + m2 0 * u2 0 = 0)
    (hw : m1 0 * w1 0 + m2 0 * w2 0 = 0) :
    HasDerivAt (fun r => m1 r * ((u1 r - (m1 r * u1 r + m2 r * u2 r) / (m1 r + m2 r)) ^ 2
        + (w1 r - (m1 r * w1 r + m2 r * w2 r) / (m1 r + m2 r)) ^ 2) / 2
      + m2 r * ((u2 r - (m1 r * u1 r + m2 r * u2 r) / (m1 r + m2 r)) ^ 2
        + (w2 r - (m1 r * w1 r + m2 r * w2 r) / (m1 r + m2 r)) ^ 2) / 2 - m1 r * m2 r / d)
      (m1' * (u1 0 ^ 2 + w1 0 ^ 2) / 2 + m1 0 * (u1' * u1 0 + w1' * w1 0)
        + m2' * (u2 0 ^ 2 + w2 0 ^ 2) / 2 + m2 0 * (u2' * u2 0 + w2' * w2 0) - (m1' * m2 0 + m1 0 * m2') / d) 0 := by
  have hU := (((hm1.mul hu1).add (hm2.mul hu2)).div (hm1.add hm2) hM)
  have hW := (((hm1.mul hw1).add (hm2.mul hw2)).div (hm1.add hm2) hM)
  have h1 := (hm1.mul (((hu1.sub hU).pow 2).add ((hw1.sub hW).pow 2))).div_const 2
  have h2 := (hm2.mul (((hu2.sub hU).pow 2).add ((hw2.sub hW).pow 2))).div_const 2
  refine ((h1.add h2).sub ((hm1.mul hm2).div_const d)).congr_deriv ?_
  simp only [Pi.add_apply, Pi.mul_apply, Pi.sub_apply, Pi.pow_apply, Pi.div_apply, hu, hw, zero_div, sub_zero, zero_mul]
  generalize ((m1' * u1 0 + m1 0 * u1' + (m2' * u2 0 + m2 0 * u2')) * (m1 0 + m2 0)) / (m1 0 + m2 0) ^ 2 = A
  generalize ((m1' * w1 0 + m1 0 * w1' + (m2' * w2 0 + m2 0 * w2')) * (m1 0 + m2 0)) / (m1 0 + m2 0) ^ 2 = B
  push_cast
  linear_combination -A * hu - B * hw

theorem hasDerivAt_lerp (x y : ℝ) : HasDerivAt (fun r => lerp x y r) (y - x) 0 := by
  unfold lerp
  exact (((hasDerivAt_id (0 : ℝ)).mul_const (y - x)).const_add x).congr_deriv (by simp)

/-- **C86.** For bodies whose centre of mass is at rest, the function is the derivative of the logarithm of the semi-major axis
along the change of masses and velocities.  Missing: a moving centre of mass, see `delta_a_violated`. -/
theorem delta_a_partial (s s' : State) (X Y : ℝ) (h1 : 0 < s.body1.mass) (h2 : 0 < s.body2.mass) (hd : 0 < distance s)
    (hc : CentreOfMass s X Y 0 0) (hE : energy s < 0) :
    HasDerivAt (fun r => log (semiMajorAxis (between s s' r))) (deltaAOverA s' s) 0 := by
  obtain ⟨_, _, c3, c4⟩ := hc
  rw [mul_zero] at c3 c4
  have hM : 0 < s.body1.mass + s.body2.mass := by linarith
  have l0 : ∀ x y, lerp x y 0 = x := fun x y => by simp [lerp]
  have hf := hasDerivAt_inner (d := distance s) (hasDerivAt_lerp s.body1.mass s'.body1.mass)
    (hasDerivAt_lerp s.body2.mass s'.body2.mass) (hasDerivAt_lerp s.body1.vx s'.body1.vx) (hasDerivAt_lerp s.body1.vy s'.body1.vy)
    (hasDerivAt_lerp s.body2.vx s'.body2.vx) (hasDerivAt_lerp s.body2.vy s'.body2.vy) (by rw [l0, l0]; exact hM.ne')
    (by rw [l0, l0, l0, l0]; exact c3) (by rw [l0, l0, l0, l0]; exact c4)
  have hm := (hasDerivAt_lerp s.body1.mass s'.body1.mass).mul (hasDerivAt_lerp s.body2.mass s'.body2.mass)
  have hdist : ∀ r U V, distance (seenFrom (between s s' r) 0 0 U V) = distance s := by
    intro r U V
    unfold distance seenFrom between
    simp
  have hE0 : energy s = s.body1.mass * (s.body1.vx ^ 2 + s.body1.vy ^ 2) / 2 + s.body2.mass * (s.body2.vx ^ 2 + s.body2.vy ^ 2) / 2
    - s.body1.mass * s.body2.mass / distance s := rfl
  have hmm := mul_pos h1 h2
  simp only [l0] at hf hm
  have hfun : (fun r => log (semiMajorAxis (between s s' r))) = fun r => log (-(lerp s.body1.mass s'.body1.mass r
      * lerp s.body2.mass s'.body2.mass r) / (2 * (lerp s.body1.mass s'.body1.mass r * ((lerp s.body1.vx s'.body1.vx r
        - (lerp s.body1.mass s'.body1.mass r * lerp s.body1.vx s'.body1.vx r
          + lerp s.body2.mass s'.body2.mass r * lerp s.body2.vx s'.body2.vx r)
          / (lerp s.body1.mass s'.body1.mass r + lerp s.body2.mass s'.body2.mass r)) ^ 2
        + (lerp s.body1.vy s'.body1.vy r
        - (lerp s.body1.mass s'.body1.mass r * lerp s.body1.vy s'.body1.vy r
          + lerp s.body2.mass s'.body2.mass r * lerp s.body2.vy s'.body2.vy r)
          / (lerp s.body1.mass s'.body1.mass r + lerp s.body2.mass s'.body2.mass r)) ^ 2) / 2
      + lerp s.body2.mass s'.body2.mass r * ((lerp s.body2.vx s'.body2.vx r
        - (lerp s.body1.mass s'.body1.mass r * lerp s.body1.vx s'.body1.vx r
          + lerp s.body2.mass s'.body2.mass r * lerp s.body2.vx s'.body2.vx r)
          / (lerp s.body1.mass s'.body1.mass r + lerp s.body2.mass s'.body2.mass r)) ^ 2
        + (lerp s.body2.vy s'.body2.vy r
        - (lerp s.body1.mass s'.body1.mass r * lerp s.body1.vy s'.body1.vy r
          + lerp s.body2.mass s'.body2.mass r * lerp s.body2.vy s'.body2.vy r)
          / (lerp s.body1.mass s'.body1.mass r + lerp s.body2.mass s'.body2.mass r)) ^ 2) / 2
      - lerp s.body1.mass s'.body1.mass r * lerp s.body2.mass s'.body2.mass r / distance s))) := by
    funext r
    unfold semiMajorAxis energy
    rw [hdist]
    rfl
  rw [hfun]
  have hden := hf.const_mul 2
  have hval : (2 : ℝ) * (s.body1.mass * ((s.body1.vx - (s.body1.mass * s.body1.vx + s.body2.mass * s.body2.vx)
      / (s.body1.mass + s.body2.mass)) ^ 2 + (s.body1.vy - (s.body1.mass * s.body1.vy + s.body2.mass * s.body2.vy)
      / (s.body1.mass + s.body2.mass)) ^ 2) / 2 + s.body2.mass * ((s.body2.vx
      - (s.body1.mass * s.body1.vx + s.body2.mass * s.body2.vx)
      / (s.body1.mass + s.body2.mass)) ^ 2 + (s.body2.vy - (s.body1.mass * s.body1.vy + s.body2.mass * s.body2.vy)
      / (s.body1.mass + s.body2.mass)) ^ 2) / 2 - s.body1.mass * s.body2.mass / distance s) = 2 * energy s := by
    rw [c3, c4, hE0]
    ring
  refine ((hm.neg.div hden ?_).log ?_).congr_deriv ?_
  · simp only [l0]
    rw [hval]
    linarith
  · simp only [l0, Pi.div_apply, Pi.neg_apply, Pi.mul_apply]
    rw [hval]
    exact div_ne_zero (by linarith) (by linarith)
  · simp only [l0, Pi.div_apply, Pi.neg_apply, Pi.mul_apply]
    rw [hval]
    have hsep : totalEnergy s = energy s := by
      rw [hE0]
      unfold totalEnergy separation distance
      dsimp only
      rw [show (s.body1.x - s.body2.x) ^ 2 + (s.body1.y - s.body2.y) ^ 2
        = (s.body2.x - s.body1.x) ^ 2 + (s.body2.y - s.body1.y) ^ 2 by ring]
      ring
    unfold deltaAOverA
    dsimp only
    rw [hsep]
    have hU : s.body1.mass * s.body2.mass / distance s = s.body1.mass * (s.body1.vx ^ 2 + s.body1.vy ^ 2) / 2
      + s.body2.mass * (s.body2.vx ^ 2 + s.body2.vy ^ 2) / 2 - energy s := by linarith
    have hU' : ((s'.body1.mass - s.body1.mass) * s.body2.mass + s.body1.mass * (s'.body2.mass - s.body2.mass)) / distance s
        = ((s'.body1.mass - s.body1.mass) / s.body1.mass + (s'.body2.mass - s.body2.mass) / s.body2.mass)
          * (s.body1.mass * s.body2.mass / distance s) := by
      field_simp
    rw [hU', hU]
    have hEne : energy s ≠ 0 := hE.ne
    clear hE0 hU hU' hval hf hm hden hfun hdist
    generalize energy s = E at *
    field_simp
    ring

/-- **C86 fails for a moving centre of mass.** If both bodies are given the same velocity the orbit stays what it was, but the
function says that the semi-major axis changes. -/
theorem delta_a_violated : ∃ s s' : State, 0 < s.body1.mass ∧ 0 < s.body2.mass ∧ 0 < distance s ∧ energy s < 0
    ∧ (∀ r, semiMajorAxis (between s s' r) = semiMajorAxis s) ∧ deltaAOverA s' s ≠ 0 := by
  refine ⟨⟨⟨1 / 2, 1 / 2, 0, 1 / 4, 1 / 2⟩, ⟨1 / 2, -(1 / 2), 0, 1 / 4, -(1 / 2)⟩⟩,
    ⟨⟨1 / 2, 1 / 2, 0, 1 / 2, 1 / 2⟩, ⟨1 / 2, -(1 / 2), 0, 1 / 2, -(1 / 2)⟩⟩, by norm_num, by norm_num, ?_, ?_, ?_, ?_⟩
  · unfold distance
    norm_num
  · unfold energy distance
    norm_num
  · intro r
    unfold semiMajorAxis energy distance seenFrom between lerp
    norm_num
    ring_nf
  · unfold deltaAOverA totalEnergy separation
    norm_num

/-- Non-vacuity of `delta_a_partial`. -/
example (s' : State) : HasDerivAt (fun r => log (semiMajorAxis (between circleState s' r))) (deltaAOverA s' circleState) 0 := by
  refine delta_a_partial circleState s' 0 0 ?_ ?_ ?_ ?_ ?_ <;> unfold circleState
  · norm_num
  · norm_num
  · unfold distance
    norm_num
  · unfold CentreOfMass
    norm_num
  · unfold energy distance
    norm_num

end Verif.TwoBody
