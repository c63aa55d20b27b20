import Verif.Props.TwoBodyFull
import Mathlib.Analysis.Calculus.Deriv.Add
import Mathlib.Analysis.Calculus.Deriv.Mul

/-!
# C99: the centre of mass of a binary moves with its velocity
-/

namespace Verif.TwoBody

open Verif Spec

/-- Adding `diff_cm` moves both bodies, with whatever the state of the binary at that time is, by the velocity of the centre of mass times the time that
passed.  The time is arbitrary, and so are the elements. -/
theorem drift_exact (p : FullElements) (dt t : ℝ) : fullTwoBodyState (p.add (diffCm p dt)) t = (fullTwoBodyState p t).map fun s =>
    ⟨⟨s.body1.mass, s.body1.x + p.cmVx * dt, s.body1.y + p.cmVy * dt, s.body1.vx, s.body1.vy⟩,
      ⟨s.body2.mass, s.body2.x + p.cmVx * dt, s.body2.y + p.cmVy * dt, s.body2.vx, s.body2.vy⟩⟩ := by
  have h : ∃ X Y, p.add (diffCm p dt) = ⟨p.pomega, p.tau, X, Y, p.cmVx, p.cmVy, p.elements⟩ ∧ X = p.cmX + p.cmVx * dt ∧ Y = p.cmY + p.cmVy * dt := by
    refine ⟨_, _, ?_, rfl, rfl⟩
    unfold FullElements.add diffCm
    simp only [add_zero]
  obtain ⟨X, Y, h, rfl, rfl⟩ := h
  rw [h]
  unfold fullTwoBodyState
  show (catchUp p t).bind _ = _
  cases catchUp p t with
  | ok t' =>
    rw [Outcome.bind_ok, Outcome.bind_ok]
    show Outcome.map _ (twoBodyState p.elements (t' - p.tau)) = _
    cases twoBodyState p.elements (t' - p.tau) with
    | ok s =>
      simp only [Outcome.map_ok]
      unfold place
      dsimp only
      congr 3 <;> ring
    | _ => rfl
  | _ => rfl

/-- **C99**: elements that are drifted with the centre of mass describe a motion under Newton's law of gravity in which the centre of mass moves uniformly:
at the time `t0 + dt` the bodies are where that motion has them, up to a distance set by the tolerance of the solver. -/
theorem drift_newton (p : FullElements) (ha : 0 < p.elements.separation) (hM : 0 < p.elements.totalMass)
    (hq : 0 < p.elements.massRatio) (h0 : 0 ≤ p.elements.eccentricity) (h1 : p.elements.eccentricity < 1) (t0 : ℝ) :
    ∃ w : ℝ → State, NewtonMotion (p.elements.totalMass / (1 + p.elements.massRatio))
        (p.elements.totalMass * p.elements.massRatio / (1 + p.elements.massRatio)) w ∧
      (∀ t, CentreOfMass (w t) (p.cmX + p.cmVx * (t - t0)) (p.cmY + p.cmVy * (t - t0)) p.cmVx p.cmVy) ∧
      ∀ dt s', fullTwoBodyState (p.add (diffCm p dt)) (t0 + dt) = .ok s' →
        Near (2 * (p.elements.separation * (1 / 10 ^ 10 / (1 - p.elements.eccentricity)))) s' (w (t0 + dt)) := by
  obtain ⟨s, hs, hnear⟩ := full_on_orbit p ha hM hq h0 h1
  have hN := hs.newton
  let w : ℝ → State := fun t =>
    ⟨⟨(s t).body1.mass, (s t).body1.x + (p.cmX + p.cmVx * (t - t0)), (s t).body1.y + (p.cmY + p.cmVy * (t - t0)), (s t).body1.vx + p.cmVx, (s t).body1.vy + p.cmVy⟩,
      ⟨(s t).body2.mass, (s t).body2.x + (p.cmX + p.cmVx * (t - t0)), (s t).body2.y + (p.cmY + p.cmVy * (t - t0)), (s t).body2.vx + p.cmVx,
        (s t).body2.vy + p.cmVy⟩⟩
  have hd : ∀ t, distance (w t) = distance (s t) := by
    intro t
    show Real.sqrt (((s t).body2.x + _ - ((s t).body1.x + _)) ^ 2 + ((s t).body2.y + _ - ((s t).body1.y + _)) ^ 2) = Real.sqrt _
    rw [add_sub_add_right_eq_sub, add_sub_add_right_eq_sub]
  have hlin : ∀ (x v t : ℝ), HasDerivAt (fun t => x + v * (t - t0)) v t := by
    intro x v t
    simpa using (((hasDerivAt_id t).sub_const t0).const_mul v).const_add x
  refine ⟨w, ⟨hN.mass1, hN.mass2, fun t => by rw [hd]; exact hN.apart t, fun t => (hN.x1 t).add (hlin _ _ t), fun t => (hN.y1 t).add (hlin _ _ t),
    fun t => (hN.x2 t).add (hlin _ _ t), fun t => (hN.y2 t).add (hlin _ _ t), fun t => ?_, fun t => ?_, fun t => ?_, fun t => ?_⟩, fun t => ?_,
    fun dt s' h => ?_⟩
  · rw [hd]
    show HasDerivAt (fun t => (s t).body1.vx + p.cmVx) (_ * ((s t).body2.x + _ - ((s t).body1.x + _)) / _) t
    rw [add_sub_add_right_eq_sub]
    exact (hN.vx1 t).add_const _
  · rw [hd]
    show HasDerivAt (fun t => (s t).body1.vy + p.cmVy) (_ * ((s t).body2.y + _ - ((s t).body1.y + _)) / _) t
    rw [add_sub_add_right_eq_sub]
    exact (hN.vy1 t).add_const _
  · rw [hd]
    show HasDerivAt (fun t => (s t).body2.vx + p.cmVx) (_ * ((s t).body1.x + _ - ((s t).body2.x + _)) / _) t
    rw [add_sub_add_right_eq_sub]
    exact (hN.vx2 t).add_const _
  · rw [hd]
    show HasDerivAt (fun t => (s t).body2.vy + p.cmVy) (_ * ((s t).body1.y + _ - ((s t).body2.y + _)) / _) t
    rw [add_sub_add_right_eq_sub]
    exact (hN.vy2 t).add_const _
  · obtain ⟨c1, c2, c3, c4⟩ := hs.rest t
    refine ⟨?_, ?_, ?_, ?_⟩
    · show (s t).body1.mass * ((s t).body1.x + _) + (s t).body2.mass * ((s t).body2.x + _) = ((s t).body1.mass + (s t).body2.mass) * _
      linear_combination c1
    · show (s t).body1.mass * ((s t).body1.y + _) + (s t).body2.mass * ((s t).body2.y + _) = ((s t).body1.mass + (s t).body2.mass) * _
      linear_combination c2
    · show (s t).body1.mass * ((s t).body1.vx + _) + (s t).body2.mass * ((s t).body2.vx + _) = ((s t).body1.mass + (s t).body2.mass) * _
      linear_combination c3
    · show (s t).body1.mass * ((s t).body1.vy + _) + (s t).body2.mass * ((s t).body2.vy + _) = ((s t).body1.mass + (s t).body2.mass) * _
      linear_combination c4
  · rw [drift_exact] at h
    obtain ⟨s0, hs0, rfl⟩ := Outcome.map_eq_ok.1 h
    obtain ⟨n1, n2, n3, n4⟩ := hnear _ _ hs0
    refine ⟨?_, ?_, ?_, ?_⟩
    · refine le_of_eq_of_le (congrArg abs ?_) n1
      show s0.body1.x + p.cmVx * dt - ((s (t0 + dt)).body1.x + (p.cmX + p.cmVx * (t0 + dt - t0))) = s0.body1.x - p.cmX - (s (t0 + dt)).body1.x
      ring
    · refine le_of_eq_of_le (congrArg abs ?_) n2
      show s0.body1.y + p.cmVy * dt - ((s (t0 + dt)).body1.y + (p.cmY + p.cmVy * (t0 + dt - t0))) = s0.body1.y - p.cmY - (s (t0 + dt)).body1.y
      ring
    · refine le_of_eq_of_le (congrArg abs ?_) n3
      show s0.body2.x + p.cmVx * dt - ((s (t0 + dt)).body2.x + (p.cmX + p.cmVx * (t0 + dt - t0))) = s0.body2.x - p.cmX - (s (t0 + dt)).body2.x
      ring
    · refine le_of_eq_of_le (congrArg abs ?_) n4
      show s0.body2.y + p.cmVy * dt - ((s (t0 + dt)).body2.y + (p.cmY + p.cmVy * (t0 + dt - t0))) = s0.body2.y - p.cmY - (s (t0 + dt)).body2.y
      ring

/-- Non-vacuity: an eccentric binary that moves. -/
example : ∃ s, fullTwoBodyState (FullElements.add ⟨1, 100, 2, 3, 1, -1, ⟨1, 1, 1 / 2, 1 / 2⟩⟩ (diffCm ⟨1, 100, 2, 3, 1, -1, ⟨1, 1, 1 / 2, 1 / 2⟩⟩ 5)) (7 + 5) = .ok s := by
  rw [drift_exact]
  obtain ⟨s, hs⟩ := full_returns_partial ⟨1, 100, 2, 3, 1, -1, ⟨1, 1, 1 / 2, 1 / 2⟩⟩ (7 + 5) (by norm_num) (by norm_num) (by norm_num) (by norm_num) (by norm_num)
  rw [hs]
  exact ⟨_, rfl⟩

end Verif.TwoBody
