import Verif.Lemmas.Orbit

/-!
# C60: the two-body solution has the requested orbital elements
-/

namespace Verif.TwoBody

open Real Verif.Kepler Spec

theorem orbit_mass {p : Elements} (h : Elliptic p) (E : ℝ) :
    (orbit p E).body1.mass + (orbit p E).body2.mass = p.totalMass
    ∧ (orbit p E).body2.mass = p.massRatio * (orbit p E).body1.mass
    ∧ 0 < (orbit p E).body1.mass ∧ 0 < (orbit p E).body2.mass := by
  have hq := h.q
  have hM := h.M
  unfold orbit
  dsimp only
  refine ⟨?_, ?_, by positivity, by positivity⟩
  · field_simp
  · field_simp

theorem orbit_centre {p : Elements} (h : Elliptic p) (E : ℝ) : CentreOfMass (orbit p E) 0 0 0 0 := by
  unfold CentreOfMass orbit
  dsimp only
  refine ⟨?_, ?_, ?_, ?_⟩ <;> ring

theorem orbit_energy {p : Elements} (h : Elliptic p) (E : ℝ) :
    energy (orbit p E) = -((orbit p E).body1.mass * (orbit p E).body2.mass) / (2 * p.separation) := by
  have hs := slope_pos h.e0 h.e1 E
  have ha := h.a
  have hq := h.q
  have hw := root_sq h
  have hf := freq_sq h
  have h2 := sin_sq_add_cos_sq E
  have h1 : p.massRatio / (1 + p.massRatio) + 1 / (1 + p.massRatio) = 1 := by
    field_simp
    ring
  unfold energy
  rw [distance_orbit h]
  unfold orbit
  dsimp only
  generalize sqrt (1 - p.eccentricity * p.eccentricity) = w at *
  generalize p.massRatio / (1 + p.massRatio) = mu at *
  generalize 1 / (1 + p.massRatio) = nu at *
  obtain rfl : mu = 1 - nu := by linarith
  generalize frequency p = om at *
  generalize p.separation = a at *
  generalize p.eccentricity = e at *
  generalize p.totalMass = M at *
  generalize cos E = c at *
  generalize sin E = s at *
  have hk : (om / (1 - e * c)) ^ 2 = M / (a ^ 3 * (1 - e * c) ^ 2) := by
    rw [div_pow, hf]
    field_simp
  have hv : s ^ 2 + (c * w) ^ 2 = (1 - e * c) * (1 + e * c) := by
    linear_combination h2 + c ^ 2 * hw
  have e1 : M * nu * ((-(a * (1 - nu) * (om / (1 - e * c)) * s)) ^ 2 + (a * (1 - nu) * (om / (1 - e * c)) * (c * w)) ^ 2) / 2
      + M * (1 - nu) * ((a * nu * (om / (1 - e * c)) * s) ^ 2 + (-(a * nu * (om / (1 - e * c)) * (c * w))) ^ 2) / 2
      = M * nu * (1 - nu) * a ^ 2 * (om / (1 - e * c)) ^ 2 * (s ^ 2 + (c * w) ^ 2) / 2 := by ring
  rw [e1, hk, hv]
  generalize hsig : 1 - e * c = sig at *
  have : 1 + e * c = 2 - sig := by linarith
  rw [this]
  field_simp
  ring

theorem orbit_angular {p : Elements} (h : Elliptic p) (E : ℝ) :
    angularMomentum (orbit p E) = (orbit p E).body1.mass * (orbit p E).body2.mass / p.totalMass
      * (p.separation ^ 2 * frequency p * sqrt (1 - p.eccentricity * p.eccentricity)) := by
  have hs := slope_pos h.e0 h.e1 E
  have hM := h.M
  have hq := h.q
  have h2 := sin_sq_add_cos_sq E
  have h1 : p.massRatio / (1 + p.massRatio) + 1 / (1 + p.massRatio) = 1 := by
    field_simp
    ring
  unfold angularMomentum orbit
  dsimp only
  generalize sqrt (1 - p.eccentricity * p.eccentricity) = w at *
  generalize p.massRatio / (1 + p.massRatio) = mu at *
  generalize 1 / (1 + p.massRatio) = nu at *
  obtain rfl : mu = 1 - nu := by linarith
  generalize frequency p = om at *
  generalize p.separation = a at *
  generalize p.eccentricity = e at *
  generalize p.totalMass = M at *
  generalize cos E = c at *
  generalize sin E = s at *
  have hk : om = om / (1 - e * c) * (1 - e * c) := by
    field_simp
  generalize om / (1 - e * c) = k at *
  subst hk
  field_simp
  linear_combination a ^ 2 * k * w * nu * (1 - nu) * h2

/-- **C60.** At every time at which the function returns, the two bodies have the requested total mass and mass ratio, their
centre of mass rests at the origin, and their energy and angular momentum are those of the orbit, also as the code's own
functions give them. -/
theorem state_elements (p : Elements) (t : ℝ) (s : State) (ha : 0 < p.separation) (hM : 0 < p.totalMass)
    (hq : 0 < p.massRatio) (h0 : 0 ≤ p.eccentricity) (h1 : p.eccentricity < 1) (hs : twoBodyState p t = .ok s) :
    s.body1.mass + s.body2.mass = p.totalMass ∧ s.body2.mass = p.massRatio * s.body1.mass
    ∧ 0 < s.body1.mass ∧ 0 < s.body2.mass
    ∧ CentreOfMass s 0 0 0 0
    ∧ energy s = -(s.body1.mass * s.body2.mass) / (2 * p.separation)
    ∧ angularMomentum s ^ 2 * p.totalMass
        = (s.body1.mass * s.body2.mass) ^ 2 * p.separation * (1 - p.eccentricity ^ 2)
    ∧ 0 < angularMomentum s
    ∧ totalMass s = p.totalMass ∧ totalEnergy s = orbitalEnergy p ∧ angularMomentum s = orbitalAngularMomentum p := by
  have h : Elliptic p := ⟨ha, hM, hq, h0, h1⟩
  obtain ⟨E, rfl, _⟩ := twoBodyState_orbit h hs
  obtain ⟨m1, m2, m3, m4⟩ := orbit_mass h E
  have hen := orbit_energy h E
  have han := orbit_angular h E
  have hf := freq_sq h
  have hfp := freq_pos h
  have hw := root_sq h
  have hwp : 0 < sqrt (1 - p.eccentricity * p.eccentricity) := sqrt_pos.mpr (by nlinarith)
  have hmass1 : p.totalMass / (1 + p.massRatio) = (orbit p E).body1.mass := by
    rw [div_eq_iff (by linarith), ← m1, m2]
    ring
  have hmass2 : p.totalMass - (orbit p E).body1.mass = (orbit p E).body2.mass := by linarith
  have hlsq : angularMomentum (orbit p E) ^ 2 * p.totalMass
      = ((orbit p E).body1.mass * (orbit p E).body2.mass) ^ 2 * p.separation * (1 - p.eccentricity ^ 2) := by
    rw [han, mul_pow, mul_pow, mul_pow, hf, hw]
    field_simp
  have hlpos : 0 < angularMomentum (orbit p E) := by
    rw [han]
    positivity
  have hsep : TwoBody.separation (orbit p E) = distance (orbit p E) := by
    unfold TwoBody.separation distance
    congr 1
    ring
  refine ⟨m1, m2, m3, m4, orbit_centre h E, hen, hlsq, hlpos, m1, ?_, ?_⟩
  · have : totalEnergy (orbit p E) = energy (orbit p E) := by
      unfold totalEnergy energy
      rw [hsep]
      ring
    rw [this, hen]
    unfold orbitalEnergy
    dsimp only
    rw [hmass1, hmass2]
    field_simp
  · have : 0 ≤ angularMomentum (orbit p E) := hlpos.le
    rw [← sqrt_sq this]
    unfold orbitalAngularMomentum orbitalEnergy
    dsimp only
    rw [hmass1, hmass2]
    congr 1
    rw [← mul_right_cancel_iff_of_pos hM, hlsq]
    field_simp

/-- Non-vacuity of `state_elements`: a circular binary of equal masses at time zero. -/
example : ∃ s, twoBodyState ⟨1, 1, 1, 0⟩ 0 = .ok s := by
  have h : Elliptic ⟨1, 1, 1, 0⟩ := ⟨by norm_num, by norm_num, by norm_num, le_refl _, by norm_num⟩
  rw [twoBodyState_eq h, Loop.whileLoop_unfold, kstep_stop (by simp [tolerance])]
  exact ⟨_, rfl⟩

/-- **C60, termination.** For eccentricities of at most `9/10` the function returns, whatever the time.  Missing: the
eccentricities between `9/10` and one, for some of which it does not (`state_returns_violated`). -/
theorem state_returns_partial (p : Elements) (t : ℝ) (ha : 0 < p.separation) (hM : 0 < p.totalMass)
    (hq : 0 < p.massRatio) (h0 : 0 ≤ p.eccentricity) (h9 : p.eccentricity ≤ 9 / 10) : ∃ s, twoBodyState p t = .ok s := by
  have h : Elliptic p := ⟨ha, hM, hq, h0, by linarith⟩
  obtain ⟨E, hE⟩ := terminates h0 h9 (by norm_num [tolerance] : 0 < tolerance) (frequency p * t)
  exact ⟨orbit p E, by rw [twoBodyState_eq h, hE]; rfl⟩

/-- Non-vacuity of `state_returns_partial`. -/
example : ∃ s, twoBodyState ⟨1, 1, 1 / 2, 1 / 2⟩ 12 = .ok s :=
  state_returns_partial _ _ (by norm_num) (by norm_num) (by norm_num) (by norm_num) (by norm_num)

/-- **C60, finding.** For some eccentricity below one there is a time at which the function never returns: Newton's method,
which the code starts at the mean anomaly, goes back and forth between two values. -/
theorem state_returns_violated : ∃ (p : Elements) (t : ℝ), 0 < p.separation ∧ 0 < p.totalMass ∧ 0 < p.massRatio
    ∧ 0 ≤ p.eccentricity ∧ p.eccentricity < 1 ∧ twoBodyState p t = .diverges := by
  obtain ⟨M, h0, h6, hd⟩ := cycles
  have hpi := pi_gt_d2
  have hc0 : 0 ≤ cos M := cos_nonneg_of_neg_pi_div_two_le_of_le (by linarith) (by linarith)
  have hc1 : cos M < 1 := by
    have hs : 0 < sin M := sin_pos_of_pos_of_lt_pi h0 (by linarith)
    nlinarith [sin_sq_add_cos_sq M, cos_le_one M]
  have h : Elliptic ⟨1, 1, 1, cos M⟩ := ⟨by norm_num, by norm_num, by norm_num, hc0, hc1⟩
  refine ⟨⟨1, 1, 1, cos M⟩, M, h.a, h.M, h.q, hc0, hc1, ?_⟩
  have hf : frequency ⟨1, 1, 1, cos M⟩ = 1 := by
    simp [frequency]
  rw [twoBodyState_eq h, hf, one_mul, hd tolerance (by norm_num [tolerance])]
  rfl

/-- The true motion on the orbit, with periapse at time zero. -/
noncomputable def motion (p : Elements) (h : 0 ≤ p.eccentricity) (t : ℝ) : State := orbit p (root h (frequency p * t))

theorem hasDerivAt_anomaly {p : Elements} (h : Elliptic p) (t : ℝ) : HasDerivAt (fun t => root h.e0 (frequency p * t))
    (frequency p / (1 - p.eccentricity * cos (root h.e0 (frequency p * t)))) t := by
  have h1 : HasDerivAt (fun t : ℝ => frequency p * t) (frequency p) t := by
    simpa using (hasDerivAt_id t).const_mul (frequency p)
  have h2 := (hasDerivAt_root h.e0 h.e1 (frequency p * t)).comp t h1
  exact h2.congr_deriv (by rw [div_eq_mul_inv, mul_comm])

theorem accel_x {a e M om c s : ℝ} (m : ℝ) (ha : a ≠ 0) (hd : 1 - e * c ≠ 0) (hom : om ^ 2 = M / a ^ 3) (h : s ^ 2 + c ^ 2 = 1) :
    a * m * (-(om / (1 - e * c)) ^ 2 * e * s / (1 - e * c)) * s + a * m * (om / (1 - e * c)) * (c * (om / (1 - e * c)))
      = M * m * (a * (c - e)) / (a * (1 - e * c)) ^ 3 := by
  have e1 : a * m * (-(om / (1 - e * c)) ^ 2 * e * s / (1 - e * c)) * s
      + a * m * (om / (1 - e * c)) * (c * (om / (1 - e * c))) = om ^ 2 * (a * m * (c * (1 - e * c) - e * s ^ 2)) / (1 - e * c) ^ 3 := by
    field_simp
    ring
  have e2 : c * (1 - e * c) - e * s ^ 2 = c - e := by linear_combination -e * h
  rw [e1, e2, hom]
  field_simp

theorem accel_y {a e M om c s : ℝ} (m w : ℝ) (ha : a ≠ 0) (hd : 1 - e * c ≠ 0) (hom : om ^ 2 = M / a ^ 3) :
    a * m * (-(om / (1 - e * c)) ^ 2 * e * s / (1 - e * c)) * (c * w)
        + a * m * (om / (1 - e * c)) * (-s * (om / (1 - e * c)) * w)
      = -(M * m * (a * (s * w)) / (a * (1 - e * c)) ^ 3) := by
  have e1 : a * m * (-(om / (1 - e * c)) ^ 2 * e * s / (1 - e * c)) * (c * w)
      + a * m * (om / (1 - e * c)) * (-s * (om / (1 - e * c)) * w)
      = -(om ^ 2 * (a * m * s * w) * (e * c + (1 - e * c))) / (1 - e * c) ^ 3 := by
    field_simp
    ring
  rw [e1, hom, add_sub_cancel, mul_one]
  field_simp

theorem motion_newton {p : Elements} (h : Elliptic p) :
    NewtonMotion (p.totalMass * (1 / (1 + p.massRatio))) (p.totalMass * (p.massRatio / (1 + p.massRatio))) (motion p h.e0) := by
  have hq := h.q
  have ha := h.a
  have h1 : p.massRatio / (1 + p.massRatio) + 1 / (1 + p.massRatio) = 1 := by
    field_simp
    ring
  have hc : ∀ t, HasDerivAt (fun t => cos (root h.e0 (frequency p * t)))
      (-sin (root h.e0 (frequency p * t)) * (frequency p / (1 - p.eccentricity * cos (root h.e0 (frequency p * t))))) t :=
    fun t => (hasDerivAt_anomaly h t).cos
  have hs : ∀ t, HasDerivAt (fun t => sin (root h.e0 (frequency p * t)))
      (cos (root h.e0 (frequency p * t)) * (frequency p / (1 - p.eccentricity * cos (root h.e0 (frequency p * t))))) t :=
    fun t => (hasDerivAt_anomaly h t).sin
  have hd : ∀ t, 1 - p.eccentricity * cos (root h.e0 (frequency p * t)) ≠ 0 := fun t => (slope_pos h.e0 h.e1 _).ne'
  have hk : ∀ t, HasDerivAt (fun t => frequency p / (1 - p.eccentricity * cos (root h.e0 (frequency p * t))))
      (-(frequency p / (1 - p.eccentricity * cos (root h.e0 (frequency p * t)))) ^ 2 * p.eccentricity
        * sin (root h.e0 (frequency p * t)) / (1 - p.eccentricity * cos (root h.e0 (frequency p * t)))) t := by
    intro t
    have := ((((hc t).const_mul p.eccentricity).const_sub 1).inv (hd t)).const_mul (frequency p)
    refine this.congr_deriv ?_
    have := hd t
    field_simp
  have hf := freq_sq h
  have hw := root_sq h
  constructor
  · intro t
    rfl
  · intro t
    rfl
  · intro t
    unfold motion
    rw [distance_orbit h]
    exact mul_pos h.a (slope_pos h.e0 h.e1 _)
  · intro t
    exact (((hc t).sub_const p.eccentricity).const_mul (p.separation * (p.massRatio / (1 + p.massRatio)))).congr_deriv
      (by unfold motion orbit; ring)
  · intro t
    exact (((hs t).mul_const (sqrt (1 - p.eccentricity * p.eccentricity))).const_mul
      (p.separation * (p.massRatio / (1 + p.massRatio)))).congr_deriv (by unfold motion orbit; ring)
  · intro t
    exact (((hc t).sub_const p.eccentricity).const_mul (p.separation * (1 / (1 + p.massRatio)))).neg.congr_deriv
      (by unfold motion orbit; ring)
  · intro t
    exact (((hs t).mul_const (sqrt (1 - p.eccentricity * p.eccentricity))).const_mul
      (p.separation * (1 / (1 + p.massRatio)))).neg.congr_deriv (by unfold motion orbit; ring)
  · intro t
    refine (((hk t).const_mul (p.separation * (p.massRatio / (1 + p.massRatio)))).mul (hs t)).neg.congr_deriv ?_
    unfold motion
    rw [distance_orbit h]
    unfold orbit
    dsimp only
    have hx := accel_x (s := sin (root h.e0 (frequency p * t))) (p.massRatio / (1 + p.massRatio)) ha.ne' (hd t) hf (sin_sq_add_cos_sq _)
    rw [hx, ← neg_div]
    congr 1
    linear_combination p.totalMass * (p.massRatio / (1 + p.massRatio)) * (p.separation * (cos (root h.e0 (frequency p * t)) - p.eccentricity)) * h1
  · intro t
    refine (((hk t).const_mul (p.separation * (p.massRatio / (1 + p.massRatio)))).mul
      ((hc t).mul_const (sqrt (1 - p.eccentricity * p.eccentricity)))).congr_deriv ?_
    unfold motion
    rw [distance_orbit h]
    unfold orbit
    dsimp only
    have hx := accel_y (s := sin (root h.e0 (frequency p * t))) (p.massRatio / (1 + p.massRatio)) (sqrt (1 - p.eccentricity * p.eccentricity)) ha.ne'
      (hd t) hf
    rw [hx, ← neg_div]
    congr 1
    linear_combination p.totalMass * (p.massRatio / (1 + p.massRatio)) * (p.separation * (sin (root h.e0 (frequency p * t)) * sqrt (1 - p.eccentricity * p.eccentricity))) * h1
  · intro t
    refine (((hk t).const_mul (p.separation * (1 / (1 + p.massRatio)))).mul (hs t)).congr_deriv ?_
    unfold motion
    rw [distance_orbit h]
    unfold orbit
    dsimp only
    have hx := accel_x (s := sin (root h.e0 (frequency p * t))) (1 / (1 + p.massRatio)) ha.ne' (hd t) hf (sin_sq_add_cos_sq _)
    rw [hx]
    congr 1
    linear_combination -(p.totalMass * (1 / (1 + p.massRatio)) * (p.separation * (cos (root h.e0 (frequency p * t)) - p.eccentricity))) * h1
  · intro t
    refine (((hk t).const_mul (p.separation * (1 / (1 + p.massRatio)))).mul
      ((hc t).mul_const (sqrt (1 - p.eccentricity * p.eccentricity)))).neg.congr_deriv ?_
    unfold motion
    rw [distance_orbit h]
    unfold orbit
    dsimp only
    have hx := accel_y (s := sin (root h.e0 (frequency p * t))) (1 / (1 + p.massRatio)) (sqrt (1 - p.eccentricity * p.eccentricity)) ha.ne'
      (hd t) hf
    rw [hx, neg_neg]
    congr 1
    linear_combination -(p.totalMass * (1 / (1 + p.massRatio)) * (p.separation * (sin (root h.e0 (frequency p * t)) * sqrt (1 - p.eccentricity * p.eccentricity)))) * h1

theorem near_orbit {p : Elements} (h : Elliptic p) {E E' δ : ℝ} (hE : |E - E'| ≤ δ) :
    Near (p.separation * δ) (orbit p E) (orbit p E') := by
  have hq := h.q
  have ha := h.a
  have hw0 : 0 ≤ sqrt (1 - p.eccentricity * p.eccentricity) := sqrt_nonneg _
  have hw1 : sqrt (1 - p.eccentricity * p.eccentricity) ≤ 1 := by
    rw [sqrt_le_one]
    nlinarith [h.e0]
  have hmu0 : 0 ≤ p.massRatio / (1 + p.massRatio) := by positivity
  have hmu1 : p.massRatio / (1 + p.massRatio) ≤ 1 := by
    rw [div_le_one (by linarith)]
    linarith
  have hnu0 : 0 ≤ 1 / (1 + p.massRatio) := by positivity
  have hnu1 : 1 / (1 + p.massRatio) ≤ 1 := by
    rw [div_le_one (by linarith)]
    linarith
  have hc : |cos E - cos E'| ≤ δ := (abs_cos_sub_cos_le E E').trans hE
  have hs : |sin E - sin E'| ≤ δ := (abs_sin_sub_sin_le E E').trans hE
  have hδ : 0 ≤ δ := (abs_nonneg _).trans hE
  have key : ∀ m z : ℝ, 0 ≤ m → m ≤ 1 → |z| ≤ δ → |p.separation * m * z| ≤ p.separation * δ := by
    intro m z h0 h1 hz
    rw [abs_mul, abs_mul, abs_of_pos ha, abs_of_nonneg h0, mul_assoc]
    exact mul_le_mul_of_nonneg_left (by nlinarith [abs_nonneg z]) ha.le
  have hsw : |(sin E - sin E') * sqrt (1 - p.eccentricity * p.eccentricity)| ≤ δ := by
    rw [abs_mul, abs_of_nonneg hw0]
    nlinarith [abs_nonneg (sin E - sin E')]
  unfold Near orbit
  dsimp only
  refine ⟨?_, ?_, ?_, ?_⟩
  · convert key _ _ hmu0 hmu1 hc using 2
    ring
  · convert key _ _ hmu0 hmu1 hsw using 2
    ring
  · rw [← abs_neg]
    convert key _ _ hnu0 hnu1 hc using 2
    ring
  · rw [← abs_neg]
    convert key _ _ hnu0 hnu1 hsw using 2
    ring

/-- The anomaly that is computed is close to the true one. -/
theorem anomaly_near {p : Elements} (h : Elliptic p) {t E : ℝ}
    (hE : |E - p.eccentricity * sin E - frequency p * t| ≤ tolerance) :
    |E - root h.e0 (frequency p * t)| ≤ tolerance / (1 - p.eccentricity) := by
  rw [le_div_iff₀ (by linarith [h.e1]), mul_comm]
  refine (abs_sub_le h.e0 _ _).trans ?_
  rw [kep_root]
  exact hE

/-- **C60, time.** The elements define a motion that obeys Newton's law of gravity, starting at time zero from periapse with
body 1 on the positive axis; at every time at which the function returns, the bodies are where that motion has them, up to
the tolerance of the solver, and exactly there for a circular orbit. -/
theorem state_on_orbit (p : Elements) (ha : 0 < p.separation) (hM : 0 < p.totalMass) (hq : 0 < p.massRatio)
    (h0 : 0 ≤ p.eccentricity) (h1 : p.eccentricity < 1) :
    ∃ s : ℝ → State, NewtonMotion (p.totalMass / (1 + p.massRatio)) (p.totalMass * p.massRatio / (1 + p.massRatio)) s
      ∧ (distance (s 0) = p.separation * (1 - p.eccentricity) ∧ 0 < (s 0).body1.x ∧ (s 0).body1.y = 0 ∧ (s 0).body2.y = 0
        ∧ (s 0).body1.vx = 0 ∧ (s 0).body2.vx = 0 ∧ 0 < (s 0).body1.vy)
      ∧ ∀ t s', twoBodyState p t = .ok s' →
          Near (p.separation * (1 / 10 ^ 10 / (1 - p.eccentricity))) s' (s t) ∧ (p.eccentricity = 0 → s' = s t) := by
  have h : Elliptic p := ⟨ha, hM, hq, h0, h1⟩
  have hroot : root h.e0 (frequency p * 0) = 0 := (root_unique h.e0 h.e1 (by simp [kep])).symm
  refine ⟨motion p h.e0, ?_, ?_, ?_⟩
  · have := motion_newton h
    rwa [mul_one_div, ← mul_div_assoc] at this
  · unfold motion
    rw [hroot, distance_orbit h]
    have hw : 0 < sqrt (1 - p.eccentricity * p.eccentricity) := sqrt_pos.mpr (by nlinarith)
    have hf := freq_pos h
    have h3 : 0 < 1 - p.eccentricity := by linarith
    unfold orbit
    simp only [cos_zero, sin_zero, mul_one, mul_zero, zero_mul, neg_zero, one_mul, true_and]
    exact ⟨by positivity, by positivity⟩
  · intro t s' hs
    obtain ⟨E, rfl, hE⟩ := twoBodyState_orbit h hs
    refine ⟨near_orbit h (anomaly_near h hE), fun he => ?_⟩
    rw [twoBodyState_eq h, Loop.whileLoop_unfold, kstep_stop (by rw [he]; simp [tolerance])] at hs
    have hr : root h.e0 (frequency p * t) = frequency p * t := (root_unique h.e0 h.e1 (by simp [kep, he])).symm
    unfold motion
    rw [hr]
    simpa using hs.symm

example : ∃ s : ℝ → State, NewtonMotion (1 / (1 + 1 / 2)) (1 * (1 / 2) / (1 + 1 / 2)) s ∧
    ∀ t s', twoBodyState ⟨1, 1, 1 / 2, 1 / 2⟩ t = .ok s' → Near (1 * (1 / 10 ^ 10 / (1 - 1 / 2))) s' (s t) := by
  obtain ⟨s, h1, _, h2⟩ := state_on_orbit ⟨1, 1, 1 / 2, 1 / 2⟩ (by norm_num) (by norm_num) (by norm_num) (by norm_num) (by norm_num)
  exact ⟨s, h1, fun t s' h => (h2 t s' h).1⟩

end Verif.TwoBody
