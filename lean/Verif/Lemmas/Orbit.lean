import Verif.Spec.TwoBody
import Verif.Lemmas.KeplerNewton

/-!
# The Kepler orbit

The state on the orbit as a function of the eccentric anomaly.
-/

namespace Verif.TwoBody

open Real Verif.Kepler

/-- Elements of an elliptic orbit. -/
structure Elliptic (p : Elements) : Prop where
  a : 0 < p.separation
  M : 0 < p.totalMass
  q : 0 < p.massRatio
  e0 : 0 ≤ p.eccentricity
  e1 : p.eccentricity < 1

/-- The state at eccentric anomaly `E`. -/
noncomputable def orbit (p : Elements) (E : ℝ) : State :=
  let mu := p.massRatio / (1 + p.massRatio)
  let nu := 1 / (1 + p.massRatio)
  let a := p.separation
  let e := p.eccentricity
  let w := sqrt (1 - e * e)
  let k := frequency p / (1 - e * cos E)
  ⟨⟨p.totalMass * nu, a * mu * (cos E - e), a * mu * (sin E * w), -(a * mu * k * sin E), a * mu * k * (cos E * w)⟩,
    ⟨p.totalMass * mu, -(a * nu * (cos E - e)), -(a * nu * (sin E * w)), a * nu * k * sin E, -(a * nu * k * (cos E * w))⟩⟩

theorem makeResult_eq {p : Elements} (h : Elliptic p) (E : ℝ) : makeResult p E = .ok (orbit p E) := by
  have hq := h.q
  have hq' : 1 + p.massRatio ≠ 0 := by linarith
  have hs := slope_pos h.e0 h.e1 E
  have hs' := hs.ne'
  have he : 0 ≤ 1 - p.eccentricity * p.eccentricity := by nlinarith [h.e0, h.e1]
  unfold makeResult orbit
  dsimp only
  rw [if_neg (by rintro (h1 | h1 | h1) <;> linarith)]
  congr 1
  ext <;> dsimp only <;> field_simp <;> ring

theorem freq_sq {p : Elements} (h : Elliptic p) : frequency p ^ 2 = p.totalMass / p.separation ^ 3 := by
  have := h.a
  have := h.M
  unfold frequency
  rw [if_neg h.a.ne', sq_sqrt (by positivity)]
  field_simp

theorem freq_pos {p : Elements} (h : Elliptic p) : 0 < frequency p := by
  have := h.a
  have := h.M
  unfold frequency
  rw [if_neg h.a.ne']
  exact sqrt_pos.mpr (by positivity)

theorem root_sq {p : Elements} (h : Elliptic p) :
    sqrt (1 - p.eccentricity * p.eccentricity) ^ 2 = 1 - p.eccentricity * p.eccentricity :=
  sq_sqrt (by nlinarith [h.e0, h.e1])

theorem distance_orbit {p : Elements} (h : Elliptic p) (E : ℝ) :
    Spec.distance (orbit p E) = p.separation * (1 - p.eccentricity * cos E) := by
  have hs := slope_pos h.e0 h.e1 E
  have ha := h.a
  have hq := h.q
  have hw := root_sq h
  unfold Spec.distance orbit
  dsimp only
  rw [← sqrt_sq (mul_pos ha hs).le]
  congr 1
  have h1 : p.massRatio / (1 + p.massRatio) + 1 / (1 + p.massRatio) = 1 := by
    field_simp
    ring
  generalize sqrt (1 - p.eccentricity * p.eccentricity) = w at *
  generalize p.massRatio / (1 + p.massRatio) = mu at *
  generalize 1 / (1 + p.massRatio) = nu at *
  have h2 := sin_sq_add_cos_sq E
  have h3 : mu = 1 - nu := by linarith
  subst h3
  generalize cos E = c at *
  generalize sin E = s at *
  generalize p.eccentricity = e at *
  linear_combination p.separation ^ 2 * (s ^ 2) * hw + p.separation ^ 2 * (1 - e * e) * h2

theorem twoBodyState_eq {p : Elements} (h : Elliptic p) (t : ℝ) :
    twoBodyState p t = (Loop.whileLoop (kstep p.eccentricity (frequency p * t) tolerance) (frequency p * t)).map (orbit p) := by
  have ha := h.a
  have hM := h.M
  have hq := h.q
  have hpos : 0 < p.totalMass / p.separation / p.separation / p.separation := by positivity
  unfold twoBodyState
  dsimp only
  rw [if_neg (by rintro (⟨_, h1⟩ | h1) <;> linarith)]
  by_cases he : p.eccentricity > 0
  · rw [if_pos he]
    unfold Outcome.map solveNewton
    congr 1
    funext E
    exact makeResult_eq h E
  · rw [if_neg he, makeResult_eq h]
    have he0 : p.eccentricity = 0 := le_antisymm (not_lt.mp he) h.e0
    rw [Loop.whileLoop_unfold, kstep_stop (by rw [he0]; simp [tolerance])]
    rfl

/-- What is computed is the state at an anomaly that solves Kepler's equation up to the tolerance. -/
theorem twoBodyState_orbit {p : Elements} (h : Elliptic p) {t : ℝ} {s : State} (hs : twoBodyState p t = .ok s) :
    ∃ E, s = orbit p E ∧ |E - p.eccentricity * sin E - frequency p * t| ≤ tolerance := by
  rw [twoBodyState_eq h, Outcome.map_eq_ok] at hs
  obtain ⟨E, hE, rfl⟩ := hs
  exact ⟨E, rfl, solve_close h.e0 h.e1 hE⟩

end Verif.TwoBody
