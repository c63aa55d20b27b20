import Verif.Props.TwoBodyFull
import Verif.Lemmas.OrbitElements
import Mathlib.Analysis.Calculus.MeanValue

/-!
# C61, C84: orbital elements from the state of the bodies
-/

namespace Verif.TwoBody

open Real Verif.Kepler Spec

/-- Masses are positive, the bodies are apart, and their centre of mass is as given. -/
structure Pair (s : State) (X Y U V : ℝ) : Prop where
  m1 : 0 < s.body1.mass
  m2 : 0 < s.body2.mass
  d : 0 < distance s
  cm : CentreOfMass s X Y U V

theorem Pair.apart {s : State} {X Y U V : ℝ} (h : Pair s X Y U V) : Apart s := ⟨h.m1, h.m2, h.d⟩

theorem Pair.frame {s : State} {X Y U V : ℝ} (h : Pair s X Y U V) :
    (frameOf s).xcm = X ∧ (frameOf s).ycm = Y ∧ (frameOf s).vxcm = U ∧ (frameOf s).vycm = V := by
  obtain ⟨h1, h2, hd, c1, c2, c3, c4⟩ := h
  have hM : s.body1.mass + s.body2.mass ≠ 0 := by linarith
  unfold frameOf
  dsimp only
  refine ⟨?_, ?_, ?_, ?_⟩ <;> rw [div_eq_iff hM]
  · linarith
  · linarith
  · linarith
  · linarith

/-- Relative motion in the frame of the centre of mass. -/
theorem Pair.seen {s : State} {X Y U V : ℝ} (h : Pair s X Y U V) :
    energy (seenFrom s X Y U V) = (frameOf s).E ∧ angularMomentum (seenFrom s X Y U V) = (frameOf s).L := by
  have hF := frame_facts h.apart
  obtain ⟨h1, h2, hd, c1, c2, c3, c4⟩ := h
  have hM : 0 < s.body1.mass + s.body2.mass := by linarith
  have hdist : distance (seenFrom s X Y U V) = distance s := by
    unfold distance seenFrom
    dsimp only
    congr 1
    ring
  obtain rfl : X = (s.body1.mass * s.body1.x + s.body2.mass * s.body2.x) / (s.body1.mass + s.body2.mass) := by
    rw [eq_div_iff hM.ne']
    linarith
  obtain rfl : Y = (s.body1.mass * s.body1.y + s.body2.mass * s.body2.y) / (s.body1.mass + s.body2.mass) := by
    rw [eq_div_iff hM.ne']
    linarith
  obtain rfl : U = (s.body1.mass * s.body1.vx + s.body2.mass * s.body2.vx) / (s.body1.mass + s.body2.mass) := by
    rw [eq_div_iff hM.ne']
    linarith
  obtain rfl : V = (s.body1.mass * s.body1.vy + s.body2.mass * s.body2.vy) / (s.body1.mass + s.body2.mass) := by
    rw [eq_div_iff hM.ne']
    linarith
  rw [hF.E, hF.L]
  constructor
  · unfold energy
    rw [hdist]
    unfold seenFrom
    dsimp only
    field_simp
    ring
  · unfold angularMomentum seenFrom
    dsimp only
    field_simp
    ring

/-- The check of the divisors before the energy is passed. -/
theorem Pair.check {s : State} {X Y U V : ℝ} (h : Pair s X Y U V) (hE : (frameOf s).E ≠ 0) (t : ℝ) :
    computeOrbitalElements s t = if (frameOf s).E ≥ 0 then .throws .invalidArgument
      else elementsOf s.body1.mass s.body2.mass (frameOf s) t := by
  have hF := frame_facts h.apart
  obtain ⟨f1, f2, _, _⟩ := h.frame
  obtain ⟨h1, h2, hd, c1, c2, c3, c4⟩ := h
  have hM : 0 < s.body1.mass + s.body2.mass := by linarith
  have hr1 : 0 < (frameOf s).r1 := by
    rw [hF.r1]
    positivity
  unfold computeOrbitalElements
  dsimp only
  rw [if_neg]
  rintro (h' | h' | h' | h' | ⟨h', h''⟩ | h')
  · exact hM.ne' h'
  · exact h1.ne' h'
  · exact h2.ne' h'
  · exact hr1.ne' h'
  · rw [f1] at h'
    rw [f2] at h''
    have e1 : s.body1.x = s.body2.x := by
      have : s.body1.mass * (s.body1.x - s.body2.x) = 0 := by
        linear_combination c1 - (s.body1.mass + s.body2.mass) * h'
      have := (mul_eq_zero.mp this).resolve_left h1.ne'
      linarith
    have e2 : s.body1.y = s.body2.y := by
      have : s.body1.mass * (s.body1.y - s.body2.y) = 0 := by
        linear_combination c2 - (s.body1.mass + s.body2.mass) * h''
      have := (mul_eq_zero.mp this).resolve_left h1.ne'
      linarith
    unfold distance at hd
    rw [e1, e2] at hd
    simp at hd
  · exact hE h'

/-- **C61, unbound.** Two bodies with positive energy are refused with an exception.  Missing: energy exactly zero, for which
the code divides by zero before it gets to the exception. -/
theorem unbound_throws_partial (s : State) (t X Y U V : ℝ) (h1 : 0 < s.body1.mass) (h2 : 0 < s.body2.mass)
    (hd : 0 < distance s) (hc : CentreOfMass s X Y U V) (hE : 0 < energy (seenFrom s X Y U V)) :
    computeOrbitalElements s t = .throws .invalidArgument := by
  have h : Pair s X Y U V := ⟨h1, h2, hd, hc⟩
  rw [h.seen.1] at hE
  rw [h.check hE.ne', if_pos hE.le]

/-- What is computed for a bound, non-radial orbit. -/
theorem Pair.elements {s : State} {X Y U V : ℝ} (h : Pair s X Y U V) (t : ℝ) (hE : energy (seenFrom s X Y U V) < 0)
    (hL : angularMomentum (seenFrom s X Y U V) ≠ 0) :
    ∃ a e cn sn : ℝ, 0 < a ∧ energy (seenFrom s X Y U V) = -(s.body1.mass * s.body2.mass) / (2 * a) ∧ 0 ≤ e ∧ e < 1
      ∧ angularMomentum (seenFrom s X Y U V) ^ 2 * (s.body1.mass + s.body2.mass)
        = (s.body1.mass * s.body2.mass) ^ 2 * a * (1 - e ^ 2)
      ∧ cn ^ 2 + sn ^ 2 = 1 ∧ e * cn = 1 - distance s / a
      ∧ e * sn * sqrt ((s.body1.mass + s.body2.mass) * a) = (s.body1.x - s.body2.x) * (s.body1.vx - s.body2.vx)
        + (s.body1.y - s.body2.y) * (s.body1.vy - s.body2.vy)
      ∧ computeOrbitalElements s t = .ok ⟨atan2 ((cn - e) * (s.body1.y - Y) - sn * sqrt (1 - e * e) * (s.body1.x - X))
            ((cn - e) * (s.body1.x - X) + sn * sqrt (1 - e * e) * (s.body1.y - Y)),
          t - (atan2 sn cn - e * sn) / sqrt ((s.body1.mass + s.body2.mass) / a / a / a), X, Y, U, V,
          ⟨a, s.body1.mass + s.body2.mass, s.body2.mass / s.body1.mass, e⟩⟩ := by
  have hF := frame_facts h.apart
  obtain ⟨g1, g2⟩ := h.seen
  obtain ⟨f1, f2, f3, f4⟩ := h.frame
  rw [g1] at hE
  rw [g2] at hL
  have hM : 0 < s.body1.mass + s.body2.mass := by linarith [h.m1, h.m2]
  have hh : (s.body1.x - s.body2.x) * (s.body1.vy - s.body2.vy) - (s.body1.y - s.body2.y) * (s.body1.vx - s.body2.vx) ≠ 0 := by
    rw [hF.L] at hL
    exact (mul_ne_zero_iff.mp hL).2
  have hdsq : distance s ^ 2 = (s.body1.x - s.body2.x) ^ 2 + (s.body1.y - s.body2.y) ^ 2 := by
    unfold distance
    rw [sq_sqrt (by positivity)]
    ring
  obtain ⟨a, e, cn, sn, k1, k2, k3, k4, k5, k6, k7, k8, k9⟩ :=
    elementsOf_eq (frameOf s) t _ _ _ _ _ h.m1 h.m2 h.d hdsq hh hF.x1 hF.y1 hF.vx1 hF.vy1 hF.r1 hF.v1 hF.L hF.E hE
  refine ⟨a, e, cn, sn, k1, ?_, k3, k4, ?_, k6, k7, k8, ?_⟩
  · rw [g1]
    rw [k2]
    have := hE.ne
    have := h.m1.ne'
    have := h.m2.ne'
    field_simp
  · rw [g2, k5, hF.L]
    have := k1.ne'
    field_simp
    ring
  · rw [h.check hE.ne, if_neg (by linarith), k9]
    have x1 : (frameOf s).x1 = s.body1.x - X := by
      rw [← f1]
      rfl
    have y1 : (frameOf s).y1 = s.body1.y - Y := by
      rw [← f2]
      rfl
    rw [x1, y1, f1, f2, f3, f4]

/-- **C61.** From two bodies on a bound orbit that is not radial, mass, mass ratio and motion of the centre of mass are
recovered, and the semi-major axis and eccentricity are those that belong to the energy and angular momentum seen from the
centre of mass. -/
theorem elements_recovered (s : State) (t X Y U V : ℝ) (h1 : 0 < s.body1.mass) (h2 : 0 < s.body2.mass)
    (hd : 0 < distance s) (hc : CentreOfMass s X Y U V) (hE : energy (seenFrom s X Y U V) < 0)
    (hL : angularMomentum (seenFrom s X Y U V) ≠ 0) :
    ∃ P, computeOrbitalElements s t = .ok P
      ∧ P.elements.totalMass = s.body1.mass + s.body2.mass ∧ s.body2.mass = P.elements.massRatio * s.body1.mass
      ∧ P.cmX = X ∧ P.cmY = Y ∧ P.cmVx = U ∧ P.cmVy = V
      ∧ 0 < P.elements.separation ∧ 0 ≤ P.elements.eccentricity ∧ P.elements.eccentricity < 1
      ∧ energy (seenFrom s X Y U V) = -(s.body1.mass * s.body2.mass) / (2 * P.elements.separation)
      ∧ angularMomentum (seenFrom s X Y U V) ^ 2 * (s.body1.mass + s.body2.mass)
        = (s.body1.mass * s.body2.mass) ^ 2 * P.elements.separation * (1 - P.elements.eccentricity ^ 2) := by
  have h : Pair s X Y U V := ⟨h1, h2, hd, hc⟩
  obtain ⟨a, e, cn, sn, k1, k2, k3, k4, k5, _, _, _, k9⟩ := h.elements t hE hL
  refine ⟨_, k9, rfl, ?_, rfl, rfl, rfl, rfl, k1, k3, k4, k2, k5⟩
  field_simp

/-- A computed state is a pair of bodies with the given centre of mass, on a bound orbit with positive angular momentum. -/
theorem pair_of_full {p : FullElements} {t : ℝ} {s : State} (h : Elliptic p.elements) (hs : fullTwoBodyState p t = .ok s) :
    Pair s p.cmX p.cmY p.cmVx p.cmVy ∧ 0 < angularMomentum (seenFrom s p.cmX p.cmY p.cmVx p.cmVy)
    ∧ angularMomentum (seenFrom s p.cmX p.cmY p.cmVx p.cmVy) ^ 2 * p.elements.totalMass
      = (s.body1.mass * s.body2.mass) ^ 2 * p.elements.separation * (1 - p.elements.eccentricity ^ 2) := by
  obtain ⟨_, _, hc, _⟩ := full_state_elements p t s h.a h.M h.q h.e0 h.e1 hs
  obtain ⟨n, hn⟩ := full_eq h t
  rw [hn, Outcome.map_eq_ok] at hs
  obtain ⟨s0, hs0, rfl⟩ := hs
  obtain ⟨_, _, m3, m4, _, _, hl, hlp, _⟩ := state_elements p.elements _ s0 h.a h.M h.q h.e0 h.e1 hs0
  refine ⟨⟨m3, m4, ?_, hc⟩, ?_, ?_⟩
  · have hd : ∀ (s : State) (X Y U V : ℝ), distance (seenFrom s X Y U V) = distance s := by
      intro s X Y U V
      unfold distance seenFrom
      dsimp only
      congr 1
      ring
    rw [← hd _ p.cmX p.cmY p.cmVx p.cmVy, seenFrom_place, distance_turn]
    obtain ⟨E, rfl, _⟩ := twoBodyState_orbit h hs0
    rw [distance_orbit h]
    exact mul_pos h.a (slope_pos h.e0 h.e1 E)
  · rw [seenFrom_place, angularMomentum_turn]
    exact hlp
  · rw [seenFrom_place, angularMomentum_turn]
    exact hl

/-- **C61, round trip.** The elements of a state that was computed from elements are these elements again, and so is the motion
of the centre of mass. -/
theorem elements_roundtrip (p : FullElements) (t t' : ℝ) (s : State) (ha : 0 < p.elements.separation)
    (hM : 0 < p.elements.totalMass) (hq : 0 < p.elements.massRatio) (h0 : 0 ≤ p.elements.eccentricity)
    (h1 : p.elements.eccentricity < 1) (hs : fullTwoBodyState p t = .ok s) :
    ∃ P, computeOrbitalElements s t' = .ok P ∧ P.elements = p.elements
      ∧ P.cmX = p.cmX ∧ P.cmY = p.cmY ∧ P.cmVx = p.cmVx ∧ P.cmVy = p.cmVy := by
  have h : Elliptic p.elements := ⟨ha, hM, hq, h0, h1⟩
  obtain ⟨m1, m2, hc, he, _, _⟩ := full_state_elements p t s ha hM hq h0 h1 hs
  obtain ⟨hp, hlp, hl⟩ := pair_of_full h hs
  have hneg : energy (seenFrom s p.cmX p.cmY p.cmVx p.cmVy) < 0 := by
    rw [he]
    have := mul_pos hp.m1 hp.m2
    exact div_neg_of_neg_of_pos (by linarith) (by linarith)
  obtain ⟨P, k0, k1, k2, k3, k4, k5, k6, k7, k8, k9, k10, k11⟩ :=
    elements_recovered s t' _ _ _ _ hp.m1 hp.m2 hp.d hp.cm hneg hlp.ne'
  have hmm := mul_pos hp.m1 hp.m2
  have ea : P.elements.separation = p.elements.separation := by
    rw [he] at k10
    have := ha.ne'
    have := k7.ne'
    field_simp at k10
    exact mul_left_cancel₀ hmm.ne' (neg_inj.mp k10)
  have ee : P.elements.eccentricity = p.elements.eccentricity := by
    rw [← m1, k11, ea] at hl
    have hpos : 0 < (s.body1.mass * s.body2.mass) ^ 2 * p.elements.separation := by positivity
    have := mul_left_cancel₀ hpos.ne' hl
    have h3 : P.elements.eccentricity ^ 2 = p.elements.eccentricity ^ 2 := by linarith
    exact (pow_left_inj₀ k8 h0 (by norm_num)).mp h3
  refine ⟨P, k0, ?_, k3, k4, k5, k6⟩
  ext
  · exact ea
  · rw [k1, m1]
  · rw [m2] at k2
    exact (mul_right_cancel₀ hp.m1.ne' k2).symm
  · exact ee

/-- Non-vacuity of the theorems above: the state of an eccentric binary. -/
example : ∃ s P, fullTwoBodyState ⟨1, 0, 2, 3, 1, -1, ⟨1, 1, 1 / 2, 1 / 2⟩⟩ 12 = .ok s
    ∧ computeOrbitalElements s 12 = .ok P ∧ P.elements = ⟨1, 1, 1 / 2, 1 / 2⟩ := by
  obtain ⟨s, hs⟩ := full_returns_partial ⟨1, 0, 2, 3, 1, -1, ⟨1, 1, 1 / 2, 1 / 2⟩⟩ 12 (by norm_num) (by norm_num)
    (by norm_num) (by norm_num) (by norm_num)
  obtain ⟨P, hP, he, _⟩ := elements_roundtrip ⟨1, 0, 2, 3, 1, -1, ⟨1, 1, 1 / 2, 1 / 2⟩⟩ 12 12 s (by norm_num) (by norm_num)
    (by norm_num) (by norm_num) (by norm_num) hs
  exact ⟨s, P, hs, hP, he⟩

theorem atan2_cos (y x : ℝ) : sqrt (x ^ 2 + y ^ 2) * cos (atan2 y x) = x
    ∧ sqrt (x ^ 2 + y ^ 2) * sin (atan2 y x) = y := by
  have h1 := Complex.norm_mul_cos_arg ⟨x, y⟩
  have h2 := Complex.norm_mul_sin_arg ⟨x, y⟩
  have h3 : ‖(⟨x, y⟩ : ℂ)‖ = sqrt (x ^ 2 + y ^ 2) := by
    rw [Complex.norm_def, Complex.normSq_mk]
    congr 1
    ring
  rw [h3] at h1 h2
  exact ⟨h1, h2⟩

/-- The geometry of the orbit: `X, Y` is the relative position, `c, s` cosine and sine of the eccentric anomaly, `C, S` those
of the argument of periapse as the code computes it. -/
theorem geometry {a e w c s d X Y U V K ax ay C S : ℝ} (ha : 0 < a) (hd : 0 < d) (hdsq : d ^ 2 = X ^ 2 + Y ^ 2)
    (hw : w ^ 2 = 1 - e * e) (hcs : c ^ 2 + s ^ 2 = 1) (hc : e * c = 1 - d / a) (hs : e * s * K = X * U + Y * V)
    (hK : K * w = X * V - Y * U) (hax : ax = (c - e) * X + s * w * Y) (hay : ay = (c - e) * Y - s * w * X)
    (hC : d ^ 2 / a * C = ax) (hS : d ^ 2 / a * S = ay) :
    X = a * ((c - e) * C - s * w * S) ∧ Y = a * ((c - e) * S + s * w * C)
    ∧ U = K / d * (-(s * C) - c * w * S) ∧ V = K / d * (-(s * S) + c * w * C) := by
  have hd' : 1 - e * c = d / a := by rw [hc]; ring
  have e1 : (c - e) ^ 2 + (s * w) ^ 2 = (d / a) ^ 2 := by
    rw [← hd', mul_pow, hw]
    linear_combination (1 - e * e) * hcs
  have e2 : -s * (c - e) + c * s * w ^ 2 = e * s * (d / a) := by
    rw [← hd', hw]
    ring
  have e3 : s ^ 2 * w + c * w * (c - e) = w * (d / a) := by
    rw [← hd']
    linear_combination w * hcs
  have hN : d ^ 2 / a ≠ 0 := by positivity
  have hC' : C = ax * (a / d ^ 2) := by
    rw [← hC]
    field_simp
  have hS' : S = ay * (a / d ^ 2) := by
    rw [← hS]
    field_simp
  have hi : a * (a / d ^ 2) * (d / a) ^ 2 = 1 := by field_simp
  have hj : d ^ 2 * (1 / d ^ 2) = 1 := by field_simp
  have hk : K / d * (a / d ^ 2) * (d / a) = K * (1 / d ^ 2) := by field_simp
  refine ⟨?_, ?_, ?_, ?_⟩
  · rw [hC', hS', hax, hay]
    linear_combination -X * hi - X * (a * (a / d ^ 2)) * e1
  · rw [hC', hS', hax, hay]
    linear_combination -Y * hi - Y * (a * (a / d ^ 2)) * e1
  · rw [hC', hS', hax, hay]
    have : K / d * (-(s * (((c - e) * X + s * w * Y) * (a / d ^ 2))) - c * w * (((c - e) * Y - s * w * X) * (a / d ^ 2)))
        = K * (1 / d ^ 2) * (e * s * X - w * Y) := by
      linear_combination K / d * (a / d ^ 2) * (X * e2 - Y * e3) + (e * s * X - w * Y) * hk
    rw [this]
    linear_combination -(1 / d ^ 2) * (X * hs - Y * hK) - U * hj + (1 / d ^ 2) * U * hdsq
  · rw [hC', hS', hax, hay]
    have : K / d * (-(s * (((c - e) * Y - s * w * X) * (a / d ^ 2))) + c * w * (((c - e) * X + s * w * Y) * (a / d ^ 2)))
        = K * (1 / d ^ 2) * (e * s * Y + w * X) := by
      linear_combination K / d * (a / d ^ 2) * (Y * e2 + X * e3) + (e * s * Y + w * X) * hk
    rw [this]
    linear_combination -(1 / d ^ 2) * (Y * hs + X * hK) - V * hj + (1 / d ^ 2) * V * hdsq

set_option maxHeartbeats 1000000 in
/-- The orbit of the recovered elements goes through the state. -/
theorem Pair.through {s : State} {X Y U V : ℝ} (h : Pair s X Y U V) (t : ℝ) (hE : energy (seenFrom s X Y U V) < 0)
    (hL : 0 < angularMomentum (seenFrom s X Y U V)) : ∃ P, computeOrbitalElements s t = .ok P
      ∧ ∃ hell : Elliptic P.elements, seenFrom s X Y U V = fullMotion P hell.e0 t := by
  obtain ⟨a, e, cn, sn, k1, k2, k3, k4, k5, k6, k7, k8, k9⟩ := h.elements t hE hL.ne'
  have hm1 := h.m1
  have hm2 := h.m2
  have hM : 0 < s.body1.mass + s.body2.mass := by linarith
  refine ⟨_, k9, ⟨k1, hM, div_pos hm2 hm1, k3, k4⟩, ?_⟩
  have hell : Elliptic ⟨a, s.body1.mass + s.body2.mass, s.body2.mass / s.body1.mass, e⟩ := ⟨k1, hM, div_pos hm2 hm1, k3, k4⟩
  have hfr : frequency ⟨a, s.body1.mass + s.body2.mass, s.body2.mass / s.body1.mass, e⟩
      = sqrt ((s.body1.mass + s.body2.mass) / a / a / a) := by
    unfold frequency
    rw [if_neg k1.ne']
  have hfp := freq_pos hell
  have hfs := freq_sq hell
  dsimp only at hfs
  -- the eccentric anomaly
  obtain ⟨hcos, hsin⟩ := atan2_cos sn cn
  rw [k6, sqrt_one, one_mul] at hcos
  rw [k6, sqrt_one, one_mul] at hsin
  have hroot : root k3 (frequency ⟨a, s.body1.mass + s.body2.mass, s.body2.mass / s.body1.mass, e⟩
      * (t - (t - (atan2 sn cn - e * sn) / sqrt ((s.body1.mass + s.body2.mass) / a / a / a)))) = atan2 sn cn := by
    refine (root_unique k3 k4 ?_).symm
    rw [← hfr]
    unfold kep
    rw [hsin]
    field_simp
    ring
  -- relative position and velocity
  obtain ⟨c1, c2, c3, c4⟩ := h.cm
  obtain ⟨X', hX'⟩ : ∃ X', X' = s.body1.x - s.body2.x := ⟨_, rfl⟩
  obtain ⟨Y', hY'⟩ : ∃ Y', Y' = s.body1.y - s.body2.y := ⟨_, rfl⟩
  obtain ⟨U', hU'⟩ : ∃ U', U' = s.body1.vx - s.body2.vx := ⟨_, rfl⟩
  obtain ⟨V', hV'⟩ : ∃ V', V' = s.body1.vy - s.body2.vy := ⟨_, rfl⟩
  obtain ⟨β, hβ⟩ : ∃ β, β = s.body2.mass / (s.body1.mass + s.body2.mass) := ⟨_, rfl⟩
  have hβM : β * (s.body1.mass + s.body2.mass) = s.body2.mass := by
    rw [hβ]
    field_simp
  have hβpos : 0 < β := by
    rw [hβ]
    positivity
  have rel : ∀ {z1 z2 Z : ℝ}, s.body1.mass * z1 + s.body2.mass * z2 = (s.body1.mass + s.body2.mass) * Z →
      z1 - Z = β * (z1 - z2) ∧ z2 - Z = -((1 - β) * (z1 - z2)) := by
    intro z1 z2 Z hz
    have h1 : z1 - Z = β * (z1 - z2) := by
      apply mul_left_cancel₀ hM.ne'
      linear_combination hz - (z1 - z2) * hβM
    exact ⟨h1, by linarith⟩
  obtain ⟨rx1, rx2⟩ := rel c1
  obtain ⟨ry1, ry2⟩ := rel c2
  obtain ⟨ru1, ru2⟩ := rel c3
  obtain ⟨rv1, rv2⟩ := rel c4
  rw [← hX'] at rx1 rx2
  rw [← hY'] at ry1 ry2
  rw [← hU'] at ru1 ru2
  rw [← hV'] at rv1 rv2
  have hdsq : distance s ^ 2 = X' ^ 2 + Y' ^ 2 := by
    unfold distance
    rw [sq_sqrt (by positivity), hX', hY']
    ring
  obtain ⟨w, hw⟩ : ∃ w, w = sqrt (1 - e * e) := ⟨_, rfl⟩
  have hwsq : w ^ 2 = 1 - e * e := by
    rw [hw]
    exact root_sq hell
  have hwpos : 0 < w := by
    rw [hw]
    have := mul_lt_mul'' k4 k4 k3 k3
    exact sqrt_pos.mpr (by rwa [sub_pos, ← mul_one (1 : ℝ)])
  have hKsq : sqrt ((s.body1.mass + s.body2.mass) * a) ^ 2 = (s.body1.mass + s.body2.mass) * a :=
    sq_sqrt (mul_pos hM k1).le
  have hKpos : 0 < sqrt ((s.body1.mass + s.body2.mass) * a) := sqrt_pos.mpr (mul_pos hM k1)
  have hKfr : a ^ 2 * frequency ⟨a, s.body1.mass + s.body2.mass, s.body2.mass / s.body1.mass, e⟩
      = sqrt ((s.body1.mass + s.body2.mass) * a) := by
    refine (pow_left_inj₀ (by positivity) hKpos.le two_ne_zero).mp ?_
    rw [hKsq, mul_pow, hfs]
    field_simp
  have hLrel : angularMomentum (seenFrom s X Y U V) = s.body1.mass * β * (X' * V' - Y' * U') := by
    unfold angularMomentum seenFrom
    dsimp only
    rw [rx1, rx2, ry1, ry2, ru1, ru2, rv1, rv2]
    linear_combination (-(1 - β) * (X' * V' - Y' * U')) * hβM
  have hhpos : 0 < X' * V' - Y' * U' := by
    rw [hLrel] at hL
    exact (pos_iff_pos_of_mul_pos hL).mp (by positivity)
  have hKw : sqrt ((s.body1.mass + s.body2.mass) * a) * w = X' * V' - Y' * U' := by
    refine (pow_left_inj₀ (by positivity) hhpos.le two_ne_zero).mp ?_
    rw [mul_pow, hKsq, hwsq]
    rw [hLrel] at k5
    have e1 : (s.body1.mass * β) ^ 2 * (s.body1.mass + s.body2.mass)
        * ((s.body1.mass + s.body2.mass) * a * (1 - e * e) - (X' * V' - Y' * U') ^ 2) = 0 := by
      linear_combination -k5 + (s.body1.mass ^ 2 * a * (1 - e ^ 2)) * (β * (s.body1.mass + s.body2.mass) + s.body2.mass) * hβM
    have e2 : (s.body1.mass * β) ^ 2 * (s.body1.mass + s.body2.mass) ≠ 0 := by positivity
    linarith [(mul_eq_zero.mp e1).resolve_left e2]
  -- the argument of periapse
  obtain ⟨ϖ, hϖ⟩ : ∃ ϖ, ϖ = atan2 ((cn - e) * (s.body1.y - Y) - sn * sqrt (1 - e * e) * (s.body1.x - X))
    ((cn - e) * (s.body1.x - X) + sn * sqrt (1 - e * e) * (s.body1.y - Y)) := ⟨_, rfl⟩
  obtain ⟨hC, hS⟩ := atan2_cos ((cn - e) * (s.body1.y - Y) - sn * sqrt (1 - e * e) * (s.body1.x - X))
    ((cn - e) * (s.body1.x - X) + sn * sqrt (1 - e * e) * (s.body1.y - Y))
  rw [← hϖ, ← hw, rx1, ry1] at hC hS
  have hnorm : sqrt (((cn - e) * (β * X') + sn * w * (β * Y')) ^ 2 + ((cn - e) * (β * Y') - sn * w * (β * X')) ^ 2)
      = β * (distance s ^ 2 / a) := by
    have hd' : 1 - e * cn = distance s / a := by
      rw [k7]
      ring
    have e1 : (cn - e) ^ 2 + (sn * w) ^ 2 = (distance s / a) ^ 2 := by
      rw [← hd', mul_pow, hwsq]
      linear_combination (1 - e * e) * k6
    rw [← sqrt_sq (show 0 ≤ β * (distance s ^ 2 / a) by positivity)]
    congr 1
    have : (β * (distance s ^ 2 / a)) ^ 2 = β ^ 2 * (distance s / a) ^ 2 * distance s ^ 2 := by
      field_simp
    rw [this, ← e1, hdsq]
    ring
  rw [hnorm] at hC hS
  have hC' : distance s ^ 2 / a * cos ϖ = (cn - e) * X' + sn * w * Y' := by
    apply mul_left_cancel₀ hβpos.ne'
    linear_combination hC
  have hS' : distance s ^ 2 / a * sin ϖ = (cn - e) * Y' - sn * w * X' := by
    apply mul_left_cancel₀ hβpos.ne'
    linear_combination hS
  rw [← hX', ← hY', ← hU', ← hV'] at k8
  obtain ⟨gX, gY, gU, gV⟩ := geometry k1 h.d hdsq hwsq k6 k7 k8 hKw rfl rfl hC' hS'
  have hmu : s.body2.mass / s.body1.mass / (1 + s.body2.mass / s.body1.mass) = β := by
    rw [hβ]
    field_simp
  have hnu : 1 / (1 + s.body2.mass / s.body1.mass) = 1 - β := by
    rw [hβ]
    field_simp
    ring
  have hak : a * (frequency ⟨a, s.body1.mass + s.body2.mass, s.body2.mass / s.body1.mass, e⟩ / (1 - e * cn))
      = sqrt ((s.body1.mass + s.body2.mass) * a) / distance s := by
    have hd' : 1 - e * cn = distance s / a := by
      rw [k7]
      ring
    have := h.d.ne'
    rw [hd', ← hKfr]
    field_simp
  unfold fullMotion motion
  dsimp only
  rw [← hϖ, hroot]
  unfold orbit
  dsimp only
  rw [hcos, hsin, hmu, hnu, ← hw]
  unfold seenFrom turn
  dsimp only
  rw [rx1, rx2, ry1, ry2, ru1, ru2, rv1, rv2]
  generalize frequency ⟨a, s.body1.mass + s.body2.mass, s.body2.mass / s.body1.mass, e⟩ / (1 - e * cn) = k at *
  rw [← hak] at gU gV
  ext <;> dsimp only
  · linear_combination hβM
  · linear_combination β * gX
  · linear_combination β * gY
  · linear_combination β * gU
  · linear_combination β * gV
  · linear_combination -hβM
  · linear_combination -(1 - β) * gX
  · linear_combination -(1 - β) * gY
  · linear_combination -(1 - β) * gU
  · linear_combination -(1 - β) * gV


/-- **C84, counterclockwise.** The elements computed from two bodies on a bound counterclockwise orbit describe, in the frame of
the centre of mass, a motion under Newton's law of gravity on which the bodies have at that time the positions and velocities
they were given with.  Missing: clockwise orbits, see `elements_on_orbit_violated`. -/
theorem elements_on_orbit_partial (s : State) (t X Y U V : ℝ) (h1 : 0 < s.body1.mass) (h2 : 0 < s.body2.mass)
    (hd : 0 < distance s) (hc : CentreOfMass s X Y U V) (hE : energy (seenFrom s X Y U V) < 0)
    (hL : 0 < angularMomentum (seenFrom s X Y U V)) :
    ∃ P, computeOrbitalElements s t = .ok P ∧ P.cmX = X ∧ P.cmY = Y ∧ P.cmVx = U ∧ P.cmVy = V
      ∧ ∃ m, IsOrbit P m ∧ m t = seenFrom s X Y U V := by
  have h : Pair s X Y U V := ⟨h1, h2, hd, hc⟩
  obtain ⟨P, hP, hell, hm⟩ := h.through t hE hL
  obtain ⟨P', hP', _, _, e1, e2, e3, e4, _⟩ := elements_recovered s t X Y U V h1 h2 hd hc hE hL.ne'
  obtain rfl : P' = P := by
    rw [hP] at hP'
    exact (Outcome.ok.inj hP').symm
  exact ⟨P', hP, e1, e2, e3, e4, _, fullMotion_isOrbit hell, hm.symm⟩

/-- The angular momentum of a motion does not change. -/
theorem newton_angularMomentum {m1 m2 : ℝ} {m : ℝ → State} (h : NewtonMotion m1 m2 m) (t t' : ℝ) :
    angularMomentum (m t) = angularMomentum (m t') := by
  have hder : ∀ t, HasDerivAt (fun t => angularMomentum (m t)) 0 t := by
    intro t
    have e : (fun t => angularMomentum (m t)) = fun t =>
        m1 * ((m t).body1.x * (m t).body1.vy - (m t).body1.y * (m t).body1.vx)
          + m2 * ((m t).body2.x * (m t).body2.vy - (m t).body2.y * (m t).body2.vx) := by
      funext t
      unfold angularMomentum
      rw [h.mass1, h.mass2]
    rw [e]
    exact (((((h.x1 t).mul (h.vy1 t)).sub ((h.y1 t).mul (h.vx1 t))).const_mul m1).add
      ((((h.x2 t).mul (h.vy2 t)).sub ((h.y2 t).mul (h.vx2 t))).const_mul m2)).congr_deriv (by ring)
  exact is_const_of_deriv_eq_zero (fun t => (hder t).differentiableAt) (fun t => (hder t).deriv) t t'

/-- A motion that elements stand for is counterclockwise. -/
theorem Spec.IsOrbit.counterclockwise {p : FullElements} {m : ℝ → State} (h : IsOrbit p m) (hM : 0 < p.elements.totalMass)
    (hq : 0 < p.elements.massRatio) (t : ℝ) : 0 < angularMomentum (m t) := by
  rw [newton_angularMomentum h.newton t p.tau]
  obtain ⟨c1, c2, c3, c4⟩ := h.rest p.tau
  obtain ⟨r, hr, hx, hy⟩ := h.direction
  obtain ⟨v, hv, hvx, hvy⟩ := h.across
  have hm1 : 0 < (m p.tau).body1.mass := by
    rw [h.newton.mass1]
    positivity
  have hm2 : 0 < (m p.tau).body2.mass := by
    rw [h.newton.mass2]
    positivity
  have key : (m p.tau).body2.mass * angularMomentum (m p.tau)
      = (m p.tau).body1.mass * ((m p.tau).body1.mass + (m p.tau).body2.mass) * (r * v) := by
    have hcs := sin_sq_add_cos_sq p.pomega
    unfold angularMomentum
    rw [hx] at c1 ⊢
    rw [hy] at c2 ⊢
    rw [hvx] at c3 ⊢
    rw [hvy] at c4 ⊢
    linear_combination (m p.tau).body2.mass * (m p.tau).body2.vy * c1 - (m p.tau).body1.mass * r * cos p.pomega * c4
      - (m p.tau).body2.mass * (m p.tau).body2.vx * c2 + (m p.tau).body1.mass * r * sin p.pomega * c3
      + (m p.tau).body1.mass * ((m p.tau).body1.mass + (m p.tau).body2.mass) * (r * v) * hcs
  have : 0 < (m p.tau).body2.mass * angularMomentum (m p.tau) := by
    rw [key]
    positivity
  exact (pos_iff_pos_of_mul_pos this).mp hm2

/-- **C84 fails for clockwise orbits.** For every bound clockwise orbit elements are computed, but the motion they stand for does
not go through the state they were computed from, at any time. -/
theorem elements_on_orbit_violated (s : State) (t X Y U V : ℝ) (h1 : 0 < s.body1.mass) (h2 : 0 < s.body2.mass)
    (hd : 0 < distance s) (hc : CentreOfMass s X Y U V) (hE : energy (seenFrom s X Y U V) < 0)
    (hL : angularMomentum (seenFrom s X Y U V) < 0) :
    ∃ P, computeOrbitalElements s t = .ok P ∧ ∀ m t', IsOrbit P m → m t' ≠ seenFrom s X Y U V := by
  obtain ⟨P, hP, e1, e2, _⟩ := elements_recovered s t X Y U V h1 h2 hd hc hE hL.ne
  refine ⟨P, hP, fun m t' hm hs => ?_⟩
  have hM : 0 < P.elements.totalMass := by linarith
  have hq : 0 < P.elements.massRatio := by
    rw [e2] at h2
    exact (pos_iff_pos_of_mul_pos h2).mpr h1
  have := hm.counterclockwise hM hq t'
  rw [hs] at this
  linarith

/-- **C61 fails for radial orbits.** For bodies that fall towards each other or fly apart along a line, the code divides by
zero. -/
theorem elements_radial_violated (s : State) (t X Y U V : ℝ) (h1 : 0 < s.body1.mass) (h2 : 0 < s.body2.mass)
    (hd : 0 < distance s) (hc : CentreOfMass s X Y U V) (hE : energy (seenFrom s X Y U V) < 0)
    (hL : angularMomentum (seenFrom s X Y U V) = 0) : computeOrbitalElements s t = .ub := by
  have h : Pair s X Y U V := ⟨h1, h2, hd, hc⟩
  rw [h.seen.1] at hE
  rw [h.seen.2] at hL
  rw [h.check hE.ne, if_neg (not_le.mpr hE)]
  have hF := frame_facts h.apart
  have hr : 0 < (frameOf s).r1 := by
    rw [hF.r1]
    positivity
  unfold elementsOf
  dsimp only
  rw [hL]
  simp only [mul_zero, zero_div, zero_mul, sqrt_zero, sub_zero]
  have hcl : clamp 0 1 1 = 1 := by
    unfold clamp
    simp
  rw [hcl, sqrt_one, if_neg one_ne_zero]
  have ha : 0 < -(1 / 2) * s.body1.mass * s.body2.mass / (frameOf s).E := by
    have := mul_pos h1 h2
    exact div_pos_of_neg_of_neg (by linarith) hE
  generalize -(1 / 2) * s.body1.mass * s.body2.mass / (frameOf s).E = a at *
  have ha1 : 0 < a * (s.body2.mass / s.body1.mass) / (1 + s.body2.mass / s.body1.mass) := by positivity
  generalize a * (s.body2.mass / s.body1.mass) / (1 + s.body2.mass / s.body1.mass) = a1 at *
  rw [if_pos]
  iterate 5 right
  field_simp
  ring

/-- Non-vacuity: equal masses at distance one, at rest, or moving past each other in either sense. -/
example (v : ℝ) (hv : v ^ 2 ≤ 1 / 4) : ∃ s, 0 < s.body1.mass ∧ 0 < s.body2.mass ∧ 0 < distance s ∧ CentreOfMass s 0 0 0 0
    ∧ energy (seenFrom s 0 0 0 0) < 0 ∧ angularMomentum (seenFrom s 0 0 0 0) = v / 2 := by
  refine ⟨⟨⟨1 / 2, 1 / 2, 0, 0, v⟩, ⟨1 / 2, -1 / 2, 0, 0, -v⟩⟩, by norm_num, by norm_num, ?_, ?_, ?_, ?_⟩
  · unfold distance
    norm_num
  · unfold CentreOfMass
    norm_num
  · unfold energy distance seenFrom
    norm_num
    linarith
  · unfold angularMomentum seenFrom
    norm_num
    ring

/-- Non-vacuity: equal masses at distance one that fly past each other at high speed are not bound. -/
example : computeOrbitalElements ⟨⟨1 / 2, 1 / 2, 0, 0, 1⟩, ⟨1 / 2, -1 / 2, 0, 0, -1⟩⟩ 0 = .throws .invalidArgument := by
  refine unbound_throws_partial _ _ 0 0 0 0 (by norm_num) (by norm_num) ?_ ?_ ?_
  · unfold distance
    norm_num
  · unfold CentreOfMass
    norm_num
  · unfold energy distance seenFrom
    norm_num

/-- `elements_recovered`, `elements_on_orbit_partial` for equal masses that move past each other. -/
example : ∃ P, computeOrbitalElements ⟨⟨1 / 2, 1 / 2, 0, 0, 1 / 4⟩, ⟨1 / 2, -1 / 2, 0, 0, -(1 / 4)⟩⟩ 3 = .ok P ∧
    P.elements.totalMass = 1 ∧ ∃ m, IsOrbit P m ∧
      m 3 = seenFrom ⟨⟨1 / 2, 1 / 2, 0, 0, 1 / 4⟩, ⟨1 / 2, -1 / 2, 0, 0, -(1 / 4)⟩⟩ 0 0 0 0 := by
  have hd : 0 < distance ⟨⟨1 / 2, 1 / 2, 0, 0, 1 / 4⟩, ⟨1 / 2, -1 / 2, 0, 0, -(1 / 4)⟩⟩ := by
    unfold distance
    norm_num
  have hc : CentreOfMass ⟨⟨1 / 2, 1 / 2, 0, 0, 1 / 4⟩, ⟨1 / 2, -1 / 2, 0, 0, -(1 / 4)⟩⟩ 0 0 0 0 := by
    unfold CentreOfMass
    norm_num
  have hE : energy (seenFrom ⟨⟨1 / 2, 1 / 2, 0, 0, 1 / 4⟩, ⟨1 / 2, -1 / 2, 0, 0, -(1 / 4)⟩⟩ 0 0 0 0) < 0 := by
    unfold energy distance seenFrom
    norm_num
  have hL : 0 < angularMomentum (seenFrom ⟨⟨1 / 2, 1 / 2, 0, 0, 1 / 4⟩, ⟨1 / 2, -1 / 2, 0, 0, -(1 / 4)⟩⟩ 0 0 0 0) := by
    unfold angularMomentum seenFrom
    norm_num
  obtain ⟨P, h1, h2, _⟩ := elements_recovered _ 3 0 0 0 0 (by norm_num) (by norm_num) hd hc hE hL.ne'
  obtain ⟨P', h1', _, _, _, _, h3⟩ := elements_on_orbit_partial _ 3 0 0 0 0 (by norm_num) (by norm_num) hd hc hE hL
  have : P' = P := Outcome.ok.inj (h1'.symm.trans h1)
  subst this
  exact ⟨P', h1, by rw [h2]; norm_num, h3⟩

end Verif.TwoBody
