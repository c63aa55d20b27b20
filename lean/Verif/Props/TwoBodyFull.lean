import Verif.Props.TwoBody

/-!
# C60 for the full orbital elements: orientation, time of periapse and motion of the centre of mass
-/

namespace Verif.TwoBody

open Real Verif.Kepler Spec

/-- A state turned about the origin. -/
noncomputable def turn (w : ℝ) (s : State) : State :=
  ⟨⟨s.body1.mass, s.body1.x * cos w - s.body1.y * sin w, s.body1.x * sin w + s.body1.y * cos w,
      s.body1.vx * cos w - s.body1.vy * sin w, s.body1.vx * sin w + s.body1.vy * cos w⟩,
    ⟨s.body2.mass, s.body2.x * cos w - s.body2.y * sin w, s.body2.x * sin w + s.body2.y * cos w,
      s.body2.vx * cos w - s.body2.vy * sin w, s.body2.vx * sin w + s.body2.vy * cos w⟩⟩

theorem seenFrom_place (p : FullElements) (s : State) :
    seenFrom ⟨place p s.body1, place p s.body2⟩ p.cmX p.cmY p.cmVx p.cmVy = turn p.pomega s := by
  unfold seenFrom place turn
  simp only [cos_neg, sin_neg]
  ext <;> dsimp only <;> ring

theorem distance_turn (w : ℝ) (s : State) : distance (turn w s) = distance s := by
  unfold distance turn
  dsimp only
  congr 1
  linear_combination ((s.body2.x - s.body1.x) ^ 2 + (s.body2.y - s.body1.y) ^ 2) * sin_sq_add_cos_sq w

theorem energy_turn (w : ℝ) (s : State) : energy (turn w s) = energy s := by
  have h := sin_sq_add_cos_sq w
  unfold energy
  rw [distance_turn]
  unfold turn
  dsimp only
  linear_combination (s.body1.mass * (s.body1.vx ^ 2 + s.body1.vy ^ 2) / 2 + s.body2.mass * (s.body2.vx ^ 2 + s.body2.vy ^ 2) / 2) * h

theorem angularMomentum_turn (w : ℝ) (s : State) : angularMomentum (turn w s) = angularMomentum s := by
  have h := sin_sq_add_cos_sq w
  unfold angularMomentum turn
  dsimp only
  linear_combination (s.body1.mass * (s.body1.x * s.body1.vy - s.body1.y * s.body1.vx)
    + s.body2.mass * (s.body2.x * s.body2.vy - s.body2.y * s.body2.vx)) * h

/-- The loop that adds periods. -/
theorem catchUp_spec {p : FullElements} (h : Elliptic p.elements) (t : ℝ) :
    ∃ n : ℕ, catchUp p t = .ok (t + n * (2 * π / frequency p.elements)) ∧ p.tau ≤ t + n * (2 * π / frequency p.elements) := by
  have ha := h.a
  have hM := h.M
  have hf := freq_pos h
  have hpos : 0 < p.elements.totalMass / p.elements.separation / p.elements.separation / p.elements.separation := by positivity
  have hfe : frequency p.elements
      = sqrt (p.elements.totalMass / p.elements.separation / p.elements.separation / p.elements.separation) := by
    unfold frequency
    rw [if_neg ha.ne']
  have hP : orbitalPeriod p.elements = .ok (2 * π / frequency p.elements) := by
    unfold orbitalPeriod
    dsimp only
    rw [if_neg (by rintro (h1 | h1) <;> linarith), hfe]
  have hPpos : 0 < 2 * π / frequency p.elements := by positivity
  generalize 2 * π / frequency p.elements = P at *
  obtain ⟨n, hn⟩ : ∃ n : ℕ, p.tau ≤ t + n * P := by
    obtain ⟨n, hn⟩ := exists_nat_ge ((p.tau - t) / P)
    rw [div_le_iff₀ hPpos] at hn
    exact ⟨n, by linarith⟩
  unfold catchUp
  rw [hP]
  induction n generalizing t with
  | zero =>
    refine ⟨0, ?_, hn⟩
    rw [Loop.whileLoop_unfold, if_neg (by simpa using hn)]
    simp
  | succ n ih =>
    by_cases hlt : t < p.tau
    · obtain ⟨m, hm, hm'⟩ := ih (t + P) (by push_cast at hn; linarith)
      refine ⟨m + 1, ?_, by push_cast; linarith⟩
      rw [Loop.whileLoop_unfold, if_pos hlt, Outcome.map_ok]
      dsimp only
      rw [hm]
      congr 1
      push_cast
      ring
    · refine ⟨0, ?_, by simpa using hlt⟩
      rw [Loop.whileLoop_unfold, if_neg hlt]
      simp

/-- What is computed from full elements, in terms of the plain ones. -/
theorem full_eq {p : FullElements} (h : Elliptic p.elements) (t : ℝ) : ∃ n : ℕ,
    fullTwoBodyState p t = (twoBodyState p.elements (t + n * (2 * π / frequency p.elements) - p.tau)).map
      fun s => ⟨place p s.body1, place p s.body2⟩ := by
  obtain ⟨n, hn, _⟩ := catchUp_spec h t
  refine ⟨n, ?_⟩
  unfold fullTwoBodyState
  rw [hn]
  rfl

/-- **C60, full elements.** Whenever the function returns, the bodies have the requested masses; the centre of mass has the
requested position and velocity; and energy and angular momentum as seen from there are those of the orbit. -/
theorem full_state_elements (p : FullElements) (t : ℝ) (s : State) (ha : 0 < p.elements.separation)
    (hM : 0 < p.elements.totalMass) (hq : 0 < p.elements.massRatio) (h0 : 0 ≤ p.elements.eccentricity)
    (h1 : p.elements.eccentricity < 1) (hs : fullTwoBodyState p t = .ok s) :
    s.body1.mass + s.body2.mass = p.elements.totalMass ∧ s.body2.mass = p.elements.massRatio * s.body1.mass
    ∧ CentreOfMass s p.cmX p.cmY p.cmVx p.cmVy
    ∧ energy (seenFrom s p.cmX p.cmY p.cmVx p.cmVy) = -(s.body1.mass * s.body2.mass) / (2 * p.elements.separation)
    ∧ energy (seenFrom s p.cmX p.cmY p.cmVx p.cmVy) = orbitalEnergy p.elements
    ∧ angularMomentum (seenFrom s p.cmX p.cmY p.cmVx p.cmVy) = orbitalAngularMomentum p.elements := by
  have h : Elliptic p.elements := ⟨ha, hM, hq, h0, h1⟩
  obtain ⟨n, hn⟩ := full_eq h t
  rw [hn, Outcome.map_eq_ok] at hs
  obtain ⟨s0, hs0, rfl⟩ := hs
  obtain ⟨m1, m2, m3, m4, hc, he, _, _, _, he', ha'⟩ := state_elements p.elements _ s0 ha hM hq h0 h1 hs0
  rw [seenFrom_place, energy_turn, angularMomentum_turn]
  refine ⟨m1, m2, ?_, he, ?_, ha'⟩
  · obtain ⟨c1, c2, c3, c4⟩ := hc
    unfold CentreOfMass place
    dsimp only
    refine ⟨?_, ?_, ?_, ?_⟩
    · linear_combination cos (-p.pomega) * c1 + sin (-p.pomega) * c2
    · linear_combination -sin (-p.pomega) * c1 + cos (-p.pomega) * c2
    · linear_combination cos (-p.pomega) * c3 + sin (-p.pomega) * c4
    · linear_combination -sin (-p.pomega) * c3 + cos (-p.pomega) * c4
  · rw [← he']
    unfold totalEnergy energy TwoBody.separation distance
    dsimp only
    rw [show (s0.body2.x - s0.body1.x) ^ 2 + (s0.body2.y - s0.body1.y) ^ 2
      = (s0.body1.x - s0.body2.x) ^ 2 + (s0.body1.y - s0.body2.y) ^ 2 by ring]
    ring

/-- **C60, full elements, termination.** For eccentricities of at most `9/10` the function returns, whatever the time; in
particular the loop that adds periods always ends. -/
theorem full_returns_partial (p : FullElements) (t : ℝ) (ha : 0 < p.elements.separation) (hM : 0 < p.elements.totalMass)
    (hq : 0 < p.elements.massRatio) (h0 : 0 ≤ p.elements.eccentricity) (h9 : p.elements.eccentricity ≤ 9 / 10) :
    ∃ s, fullTwoBodyState p t = .ok s := by
  have h : Elliptic p.elements := ⟨ha, hM, hq, h0, by linarith⟩
  obtain ⟨n, hn⟩ := full_eq h t
  obtain ⟨s, hs⟩ := state_returns_partial p.elements (t + n * (2 * π / frequency p.elements) - p.tau) ha hM hq h0 h9
  exact ⟨_, by rw [hn, hs]; rfl⟩

/-- Non-vacuity of the two theorems above: an eccentric binary whose periapse lies in the future. -/
example : ∃ s, fullTwoBodyState ⟨1, 100, 2, 3, 1, -1, ⟨1, 1, 1 / 2, 1 / 2⟩⟩ 12 = .ok s :=
  full_returns_partial _ _ (by norm_num) (by norm_num) (by norm_num) (by norm_num) (by norm_num)

/-- A turned and delayed motion is a motion. -/
theorem newton_turn {m1 m2 : ℝ} {s : ℝ → State} (h : NewtonMotion m1 m2 s) (w τ : ℝ) :
    NewtonMotion m1 m2 (fun t => turn w (s (t - τ))) := by
  have lin : ∀ {f g : ℝ → ℝ} {f' g' : ℝ} {t : ℝ} (a b : ℝ), HasDerivAt f f' (t - τ) → HasDerivAt g g' (t - τ) →
      HasDerivAt (fun t => f (t - τ) * a + g (t - τ) * b) (f' * a + g' * b) t := by
    intro f g f' g' t a b hf hg
    have hsub : HasDerivAt (fun t : ℝ => t - τ) 1 t := (hasDerivAt_id t).sub_const τ
    have h1 := (hf.comp t hsub).mul_const a
    have h2 := (hg.comp t hsub).mul_const b
    exact (h1.add h2).congr_deriv (by ring)
  have lin' : ∀ {f g : ℝ → ℝ} {f' g' : ℝ} {t : ℝ} (a b : ℝ), HasDerivAt f f' (t - τ) → HasDerivAt g g' (t - τ) →
      HasDerivAt (fun t => f (t - τ) * a - g (t - τ) * b) (f' * a - g' * b) t := by
    intro f g f' g' t a b hf hg
    have hsub : HasDerivAt (fun t : ℝ => t - τ) 1 t := (hasDerivAt_id t).sub_const τ
    have h1 := (hf.comp t hsub).mul_const a
    have h2 := (hg.comp t hsub).mul_const b
    exact (h1.sub h2).congr_deriv (by ring)
  constructor
  · exact fun t => h.mass1 _
  · exact fun t => h.mass2 _
  · intro t
    rw [distance_turn]
    exact h.apart _
  · exact fun t => lin' _ _ (h.x1 _) (h.y1 _)
  · exact fun t => lin _ _ (h.x1 _) (h.y1 _)
  · exact fun t => lin' _ _ (h.x2 _) (h.y2 _)
  · exact fun t => lin _ _ (h.x2 _) (h.y2 _)
  · exact fun t => (lin' _ _ (h.vx1 _) (h.vy1 _)).congr_deriv (by rw [distance_turn]; unfold turn; ring)
  · exact fun t => (lin _ _ (h.vx1 _) (h.vy1 _)).congr_deriv (by rw [distance_turn]; unfold turn; ring)
  · exact fun t => (lin' _ _ (h.vx2 _) (h.vy2 _)).congr_deriv (by rw [distance_turn]; unfold turn; ring)
  · exact fun t => (lin _ _ (h.vx2 _) (h.vy2 _)).congr_deriv (by rw [distance_turn]; unfold turn; ring)

/-- The motion repeats after whole periods. -/
theorem motion_periodic {p : Elements} (h : Elliptic p) (t : ℝ) (n : ℕ) :
    motion p h.e0 (t + n * (2 * π / frequency p)) = motion p h.e0 t := by
  have hf := (freq_pos h).ne'
  have hr : root h.e0 (frequency p * (t + n * (2 * π / frequency p))) = root h.e0 (frequency p * t) + n * (2 * π) := by
    refine (root_unique h.e0 h.e1 ?_).symm
    have := kep_root h.e0 (frequency p * t)
    unfold kep at this ⊢
    rw [sin_add_nat_mul_two_pi]
    have e1 : frequency p * (t + n * (2 * π / frequency p)) = frequency p * t + n * (2 * π) := by field_simp
    rw [e1]
    linarith
  unfold motion orbit
  rw [hr, sin_add_nat_mul_two_pi, cos_add_nat_mul_two_pi]

/-- The orbit of full elements, as seen from the centre of mass. -/
noncomputable def fullMotion (p : FullElements) (h : 0 ≤ p.elements.eccentricity) (t : ℝ) : State :=
  turn p.pomega (motion p.elements h (t - p.tau))

theorem fullMotion_isOrbit {p : FullElements} (h : Elliptic p.elements) : IsOrbit p (fullMotion p h.e0) := by
  have hroot : root h.e0 (frequency p.elements * 0) = 0 := (root_unique h.e0 h.e1 (by simp [kep])).symm
  have hq := h.q
  have ha := h.a
  have he : 0 < 1 - p.elements.eccentricity := by linarith [h.e1]
  constructor
  · have := motion_newton h
    rw [mul_one_div, ← mul_div_assoc] at this
    exact newton_turn this _ _
  · intro t
    obtain ⟨c1, c2, c3, c4⟩ := orbit_centre h (root h.e0 (frequency p.elements * (t - p.tau)))
    unfold fullMotion motion CentreOfMass turn
    dsimp only
    refine ⟨?_, ?_, ?_, ?_⟩
    · linear_combination cos p.pomega * c1 - sin p.pomega * c2
    · linear_combination sin p.pomega * c1 + cos p.pomega * c2
    · linear_combination cos p.pomega * c3 - sin p.pomega * c4
    · linear_combination sin p.pomega * c3 + cos p.pomega * c4
  · intro t
    unfold fullMotion motion
    rw [energy_turn]
    exact orbit_energy h _
  · unfold fullMotion motion
    rw [distance_turn, sub_self, hroot, distance_orbit h, cos_zero, mul_one]
  · refine ⟨p.elements.separation * (p.elements.massRatio / (1 + p.elements.massRatio)) * (1 - p.elements.eccentricity),
      by positivity, ?_⟩
    dsimp only [fullMotion, motion]
    rw [sub_self, hroot]
    unfold turn orbit
    dsimp only
    rw [cos_zero, sin_zero]
    constructor <;> ring
  · have hw : 0 < sqrt (1 - p.elements.eccentricity * p.elements.eccentricity) :=
      sqrt_pos.mpr (by nlinarith [h.e0])
    have hf := freq_pos h
    refine ⟨p.elements.separation * (p.elements.massRatio / (1 + p.elements.massRatio))
      * (frequency p.elements / (1 - p.elements.eccentricity))
      * sqrt (1 - p.elements.eccentricity * p.elements.eccentricity), by positivity, ?_⟩
    dsimp only [fullMotion, motion]
    rw [sub_self, hroot]
    unfold turn orbit
    dsimp only
    rw [cos_zero, sin_zero, mul_one]
    constructor <;> ring

/-- **C60, full elements, time.** The elements stand for a motion under Newton's law of gravity about the centre of mass
(`IsOrbit`); at every time at which the function returns, the bodies are where that motion has them, up to a distance set by
the tolerance of the solver. -/
theorem full_on_orbit (p : FullElements) (ha : 0 < p.elements.separation) (hM : 0 < p.elements.totalMass)
    (hq : 0 < p.elements.massRatio) (h0 : 0 ≤ p.elements.eccentricity) (h1 : p.elements.eccentricity < 1) :
    ∃ s : ℝ → State, IsOrbit p s ∧ ∀ t s', fullTwoBodyState p t = .ok s' →
      Near (2 * (p.elements.separation * (1 / 10 ^ 10 / (1 - p.elements.eccentricity))))
        (seenFrom s' p.cmX p.cmY p.cmVx p.cmVy) (s t) := by
  have h : Elliptic p.elements := ⟨ha, hM, hq, h0, h1⟩
  refine ⟨fullMotion p h.e0, fullMotion_isOrbit h, ?_⟩
  · intro t s' hs
    obtain ⟨n, hn⟩ := full_eq h t
    rw [hn, Outcome.map_eq_ok] at hs
    obtain ⟨s0, hs0, rfl⟩ := hs
    rw [seenFrom_place]
    dsimp only [fullMotion]
    obtain ⟨E, rfl, hE⟩ := twoBodyState_orbit h hs0
    have hnear := near_orbit h (anomaly_near h hE)
    rw [show t + n * (2 * π / frequency p.elements) - p.tau = t - p.tau + n * (2 * π / frequency p.elements) by ring] at hnear
    change Near _ _ (motion p.elements h.e0 (t - p.tau + n * (2 * π / frequency p.elements))) at hnear
    rw [motion_periodic h] at hnear
    have htol : tolerance = 1 / 10 ^ 10 := rfl
    rw [htol] at hnear
    generalize motion p.elements h.e0 (t - p.tau) = S at *
    generalize orbit p.elements E = T at *
    generalize p.elements.separation * (1 / 10 ^ 10 / (1 - p.elements.eccentricity)) = ε at *
    obtain ⟨n1, n2, n3, n4⟩ := hnear
    have hc := abs_cos_le_one p.pomega
    have hs := abs_sin_le_one p.pomega
    have key : ∀ u v : ℝ, |u| ≤ ε → |v| ≤ ε → |u * cos p.pomega - v * sin p.pomega| ≤ 2 * ε
        ∧ |u * sin p.pomega + v * cos p.pomega| ≤ 2 * ε := by
      intro u v hu hv
      have b : ∀ x y : ℝ, |x| ≤ ε → |y| ≤ 1 → |x * y| ≤ ε := fun x y hx hy => by
        rw [abs_mul]
        nlinarith [abs_nonneg x, abs_nonneg y]
      constructor
      · refine (abs_sub _ _).trans ?_
        linarith [b u _ hu hc, b v _ hv hs]
      · refine (abs_add_le _ _).trans ?_
        linarith [b u _ hu hs, b v _ hv hc]
    have k1 := key _ _ n1 n2
    have k2 := key _ _ n3 n4
    unfold Near turn
    dsimp only
    refine ⟨?_, ?_, ?_, ?_⟩
    · convert k1.1 using 2
      ring
    · convert k1.2 using 2
      ring
    · convert k2.1 using 2
      ring
    · convert k2.2 using 2
      ring

/-- `full_on_orbit`, `full_state_elements` for that binary. -/
example : ∃ s : ℝ → State, IsOrbit ⟨1, 100, 2, 3, 1, -1, ⟨1, 1, 1 / 2, 1 / 2⟩⟩ s := by
  obtain ⟨s, h, _⟩ := full_on_orbit ⟨1, 100, 2, 3, 1, -1, ⟨1, 1, 1 / 2, 1 / 2⟩⟩ (by norm_num) (by norm_num) (by norm_num) (by norm_num) (by norm_num)
  exact ⟨s, h⟩
example : ∃ s, fullTwoBodyState ⟨1, 100, 2, 3, 1, -1, ⟨1, 1, 1 / 2, 1 / 2⟩⟩ 12 = .ok s ∧ s.body1.mass + s.body2.mass = 1 ∧
    CentreOfMass s 2 3 1 (-1) := by
  obtain ⟨s, hs⟩ := full_returns_partial ⟨1, 100, 2, 3, 1, -1, ⟨1, 1, 1 / 2, 1 / 2⟩⟩ 12 (by norm_num) (by norm_num) (by norm_num)
    (by norm_num) (by norm_num)
  have h := full_state_elements _ 12 s (by norm_num) (by norm_num) (by norm_num) (by norm_num) (by norm_num) hs
  exact ⟨s, hs, h.1, h.2.2.1⟩

end Verif.TwoBody
