import Verif.Lemmas.BinaryUnits

/-!
# The orbit of the binary in other units
-/

namespace Verif.Binary
open Verif Verif.Nd Verif.Tree Iso2d TwoBody Geometry

namespace Scale

variable {c : Scale}

theorem div_of {k j i x y x' y' : ℝ} (hx : x' = k * x) (hy : y' = j * y) (hi : k / j = i) : x' / y' = i * (x / y) := by
  rw [hx, hy, mul_div_mul_comm, hi]

theorem frequencySquared_units (c : Scale) (M a : ℝ) : c.bodyMass * M / (c.length * a) / (c.length * a) / (c.length * a) = c.time⁻¹ ^ 2 * (M / a / a / a) := by
  have hl := c.length_pos
  have ht := c.time_pos
  refine div_of (k := c.bodyMass / c.length / c.length) (div_of (k := c.bodyMass / c.length) (div_of rfl rfl rfl) rfl rfl) rfl ?_
  unfold bodyMass
  field_simp

theorem period_units (p : Elements) (p' : Elements) (hs : p'.separation = c.length * p.separation) (hm : p'.totalMass = c.bodyMass * p.totalMass) :
    Alike (times c.time) (orbitalPeriod p) (orbitalPeriod p') := by
  have ht := c.time_pos
  have hi : 0 < c.time⁻¹ := inv_pos.2 ht
  unfold orbitalPeriod
  dsimp only
  rw [hs, hm, frequencySquared_units]
  refine Alike.guard (or_congr (scale_eq_zero c.length_pos) ?_) fun _ _ => Alike.ok ?_
  · exact (not_lt.symm.trans (not_congr (scale_pos (pow_pos hi 2)))).trans not_lt
  · rw [sqrt_scale hi]
    show 2 * Real.pi / (c.time⁻¹ * _) = c.time * (2 * Real.pi / _)
    exact div_of (one_mul _).symm rfl (by rw [one_div, inv_inv])

theorem frequency_units (p : Elements) (p' : Elements) (hs : p'.separation = c.length * p.separation) (hm : p'.totalMass = c.bodyMass * p.totalMass) :
    frequency p' = c.time⁻¹ * frequency p := by
  have hi : 0 < c.time⁻¹ := inv_pos.2 c.time_pos
  unfold frequency
  rw [hs, hm, frequencySquared_units, sqrt_scale hi, mul_ite, mul_zero]
  exact ite_related (R := Eq) (scale_eq_zero c.length_pos).symm rfl rfl

theorem makeResult_units (p : Elements) (E : ℝ) :
    Alike (fun b b' => b' = c.bodies b) (makeResult p E) (makeResult ⟨c.length * p.separation, c.bodyMass * p.totalMass, p.massRatio, p.eccentricity⟩ E) := by
  have ht := c.time_pos
  unfold makeResult
  dsimp only
  rw [frequency_units (c := c) p ⟨c.length * p.separation, c.bodyMass * p.totalMass, p.massRatio, p.eccentricity⟩ rfl rfl]
  refine Alike.guard Iff.rfl fun _ _ => Alike.ok ?_
  refine TwoBody.State.ext (PointMass.ext ?_ ?_ ?_ ?_ ?_) (PointMass.ext ?_ ?_ ?_ ?_ ?_)
  all_goals
    dsimp only [bodies, point]
    first
    | ring1
    | (unfold velocity; ring1)

theorem twoBodyState_units (p : Elements) (t : ℝ) :
    Alike (fun b b' => b' = c.bodies b) (twoBodyState p t)
      (twoBodyState ⟨c.length * p.separation, c.bodyMass * p.totalMass, p.massRatio, p.eccentricity⟩ (c.time * t)) := by
  have ht := c.time_pos
  have hi : 0 < c.time⁻¹ := inv_pos.2 ht
  unfold twoBodyState
  dsimp only
  rw [frequencySquared_units, frequency_units (c := c) p ⟨c.length * p.separation, c.bodyMass * p.totalMass, p.massRatio, p.eccentricity⟩ rfl rfl]
  have hM : c.time⁻¹ * frequency p * (c.time * t) = frequency p * t := by
    field_simp
  rw [hM]
  refine Alike.guard (or_congr (and_congr (not_congr (scale_eq_zero c.length_pos)) (scale_neg (pow_pos hi 2))) Iff.rfl) fun _ _ => ?_
  exact Alike.ite Iff.rfl (fun _ _ => Alike.same fun E => makeResult_units p E) fun _ _ => makeResult_units p _

theorem fullTwoBodyState_units (p : FullElements) (t : ℝ) :
    Alike (fun b b' => b' = c.bodies b) (fullTwoBodyState p t) (fullTwoBodyState (c.orbit p) (c.time * t)) := by
  unfold fullTwoBodyState
  refine Alike.bind (R := times c.time) ?_ fun s s' hs => ?_
  · unfold catchUp
    refine Alike.whileLoop_related (R := times c.time) ?_ rfl
    rintro s _ rfl
    refine Alike.ite (scale_lt c.time_pos) (fun _ _ => ?_) fun _ _ => Alike.ok (.inr rfl)
    refine (period_units p.elements (c.orbit p).elements rfl rfl).map fun P P' hP => .inl ?_
    exact times.add (rfl : times c.time s (c.time * s)) hP
  · have e : s' - (c.orbit p).tau = c.time * (s - p.tau) := by
      rw [hs]
      show c.time * s - c.time * p.tau = _
      ring
    rw [e]
    refine (twoBodyState_units p.elements (s - p.tau)).map ?_
    rintro b _ rfl
    have key : ∀ q : PointMass, place (c.orbit p) (c.point q) = c.point (place p q) := by
      intro q
      refine PointMass.ext rfl ?_ ?_ ?_ ?_
      all_goals
        dsimp only [place, point, orbit]
        ring
    show State.mk (place (c.orbit p) (c.point b.body1)) (place (c.orbit p) (c.point b.body2)) = _
    rw [key, key]
    rfl

/-! ### From the bodies to the elements -/

/-- The quantities in the frame of the centre of mass, in other units. -/
noncomputable def frame (c : Scale) (F : TwoBody.Frame) : TwoBody.Frame where
  xcm := c.length * F.xcm
  ycm := c.length * F.ycm
  vxcm := c.velocity * F.vxcm
  vycm := c.velocity * F.vycm
  x1 := c.length * F.x1
  y1 := c.length * F.y1
  vx1 := c.velocity * F.vx1
  vy1 := c.velocity * F.vy1
  r1 := c.length * F.r1
  v1 := c.velocity * F.v1
  L := c.bodyMass * c.length * c.velocity * F.L
  E := c.bodyMass * c.velocity ^ 2 * F.E

theorem frameOf_units (s : State) : frameOf (c.bodies s) = c.frame (frameOf s) := by
  have hl := c.length_pos
  have hv := c.velocity_pos
  have hm := c.bodyMass_pos
  have mean : ∀ k m1 m2 x1 x2 : ℝ, (k * x1 * (c.bodyMass * m1) + k * x2 * (c.bodyMass * m2)) / (c.bodyMass * m1 + c.bodyMass * m2)
      = k * ((x1 * m1 + x2 * m2) / (m1 + m2)) := by
    intro k m1 m2 x1 x2
    refine div_of (k := k * c.bodyMass) (j := c.bodyMass) ?_ ?_ ?_
    · ring
    · ring
    · field_simp
  have norm : ∀ k x y : ℝ, 0 < k → Real.sqrt (k * x * (k * x) + k * y * (k * y)) = k * Real.sqrt (x * x + y * y) := fun k x y hk => sqrt_of hk (by ring)
  have cross : ∀ x y u w r : ℝ, -(c.velocity * u) * (c.length * y) / (c.length * r) + c.velocity * w * (c.length * x) / (c.length * r)
      = c.velocity * (-u * y / r + w * x / r) := by
    intro x y u w r
    rw [mul_add]
    congr 1
    · exact div_of (k := c.velocity * c.length) (by ring) rfl (by field_simp)
    · exact div_of (k := c.velocity * c.length) (by ring) rfl (by field_simp)
  obtain ⟨⟨m1, x1, y1, u1, w1⟩, ⟨m2, x2, y2, u2, w2⟩⟩ := s
  dsimp only [frameOf, bodies, point, frame]
  simp only [mean, ← mul_sub]
  rw [norm _ _ _ hl, norm _ _ _ hl, norm _ _ _ hv, cross, cross]
  generalize (x1 * m1 + x2 * m2) / (m1 + m2) = X
  generalize (y1 * m1 + y2 * m2) / (m1 + m2) = Y
  generalize (u1 * m1 + u2 * m2) / (m1 + m2) = U
  generalize (w1 * m1 + w2 * m2) / (m1 + m2) = W
  generalize Real.sqrt ((x1 - X) * (x1 - X) + (y1 - Y) * (y1 - Y)) = r1
  generalize Real.sqrt ((x2 - X) * (x2 - X) + (y2 - Y) * (y2 - Y)) = r2
  have hE : c.bodyMass * m1 * (c.bodyMass * m2) / (c.length * r1 + c.length * r2) = c.bodyMass * c.velocity ^ 2 * (m1 * m2 / (r1 + r2)) := by
    refine div_of (k := c.bodyMass * c.bodyMass) (j := c.length) ?_ ?_ ?_
    · ring
    · ring
    · rw [show c.bodyMass * c.bodyMass = c.bodyMass * (c.length * c.velocity ^ 2) from congrArg _ (bodyMass_eq c)]
      field_simp
  rw [hE]
  congr 1
  · ring
  · ring

theorem elementsOf_units (M1 M2 : ℝ) (F : TwoBody.Frame) (t : ℝ) :
    Alike (fun e e' => e' = c.orbit e) (elementsOf M1 M2 F t) (elementsOf (c.bodyMass * M1) (c.bodyMass * M2) (c.frame F) (c.time * t)) := by
  have hl := c.length_pos
  have hv := c.velocity_pos
  have hm := c.bodyMass_pos
  have ht := c.time_pos
  have hi : 0 < c.time⁻¹ := inv_pos.2 ht
  have hmass := bodyMass_eq c
  have hMM : c.bodyMass * M1 + c.bodyMass * M2 = c.bodyMass * (M1 + M2) := by ring
  have hq : c.bodyMass * M2 / (c.bodyMass * M1) = M2 / M1 := mul_div_mul_left _ _ hm.ne'
  have ha : -(1 / 2) * (c.bodyMass * M1) * (c.bodyMass * M2) / (c.bodyMass * c.velocity ^ 2 * F.E) = c.length * (-(1 / 2) * M1 * M2 / F.E) := by
    refine div_of (k := c.bodyMass * c.bodyMass) (by ring) rfl ?_
    rw [hmass]
    field_simp
  have hb : Real.sqrt (-(1 / 2) * (c.bodyMass * c.length * c.velocity * F.L) * (c.bodyMass * c.length * c.velocity * F.L) / (c.bodyMass * c.velocity ^ 2 * F.E)
        * (c.bodyMass * M1 + c.bodyMass * M2) / (c.bodyMass * M1 * (c.bodyMass * M2)))
      = c.length * Real.sqrt (-(1 / 2) * F.L * F.L / F.E * (M1 + M2) / (M1 * M2)) := by
    refine sqrt_of hl (div_of (k := c.bodyMass * c.length ^ 2 * c.bodyMass) (j := c.bodyMass * c.bodyMass) ?_ (by ring) (by field_simp))
    rw [div_of (k := (c.bodyMass * c.length * c.velocity) ^ 2) (x := -(1 / 2) * F.L * F.L) (y := F.E) (i := c.bodyMass * c.length ^ 2) (by ring) rfl
      (by field_simp)]
    ring
  unfold elementsOf
  dsimp only [frame]
  rw [ha, hb, hMM, hq, frequencySquared_units, sqrt_scale hi]
  generalize -(1 / 2) * M1 * M2 / F.E = a
  generalize Real.sqrt (-(1 / 2) * F.L * F.L / F.E * (M1 + M2) / (M1 * M2)) = b
  generalize Real.sqrt ((M1 + M2) / a / a / a) = omega
  generalize M2 / M1 = q
  have he : c.length * b * (c.length * b) / (c.length * a) / (c.length * a) = b * b / a / a := by
    rw [div_of (k := c.length) (x := b * b / a) (y := a) (i := 1) (div_of (k := c.length * c.length) (by ring) rfl (by field_simp)) rfl (div_self hl.ne'), one_mul]
  rw [he]
  generalize Real.sqrt (clamp 0 1 (1 - b * b / a / a)) = e
  have ha1 : c.length * a * q / (1 + q) = c.length * (a * q / (1 + q)) := by ring
  have hb1 : c.length * b * q / (1 + q) = c.length * (b * q / (1 + q)) := by ring
  have hrat : ∀ x y : ℝ, c.length * x / (c.length * y) = x / y := fun x y => mul_div_mul_left _ _ hl.ne'
  rw [ha1, hb1, hrat, hrat, hrat, hrat, hrat]
  generalize a * q / (1 + q) = a1
  generalize b * q / (1 + q) = b1
  have hsn : (c.velocity * F.vx1 * (c.length * F.x1) + c.velocity * F.vy1 * (c.length * F.y1)) / (e * (c.velocity * F.v1) * (c.length * F.r1))
      = (F.vx1 * F.x1 + F.vy1 * F.y1) / (e * F.v1 * F.r1) := by
    rw [div_of (k := c.velocity * c.length) (j := c.velocity * c.length) (i := 1) (x := F.vx1 * F.x1 + F.vy1 * F.y1) (y := e * F.v1 * F.r1) (by ring) (by ring)
      (by field_simp), one_mul]
  rw [hsn]
  generalize (if e = 0 then F.x1 / F.r1 else (1 - F.r1 / a1) / e) = cn
  generalize (if e = 0 then F.y1 / F.r1 else (F.vx1 * F.x1 + F.vy1 * F.y1) / (e * F.v1 * F.r1) * Real.sqrt (1 - e * e * cn * cn)) = sn
  have hat : ∀ x y : ℝ, atan2 (c.length * y) (c.length * x) = atan2 y x := by
    intro x y
    unfold atan2
    have : (⟨c.length * x, c.length * y⟩ : ℂ) = (c.length : ℂ) * ⟨x, y⟩ := by
      apply Complex.ext
      · simp
      · simp
    rw [this, Complex.arg_real_mul _ hl]
  refine Alike.guard ?_ fun _ _ => Alike.ok ?_
  · refine or_congr (scale_eq_zero hl) (or_congr (scale_eq_zero hi) (or_congr Iff.rfl (or_congr (scale_eq_zero hl) (or_congr (and_congr Iff.rfl (or_congr ?_ Iff.rfl)) Iff.rfl))))
    exact scale_eq_zero hv
  · refine FullElements.ext ?_ ?_ rfl rfl rfl rfl rfl
    · show atan2 _ _ = atan2 _ _
      refine Eq.trans ?_ (hat _ _)
      congr 1
      · ring
      · ring
    · show c.time * t - _ / (c.time⁻¹ * omega) = c.time * (t - _ / omega)
      refine Eq.trans ?_ (mul_sub _ _ _).symm
      refine congrArg (c.time * t - ·) ?_
      exact div_of (j := c.time⁻¹) (i := c.time) (one_mul _).symm rfl (by rw [one_div, inv_inv])

theorem computeOrbitalElements_units (s : State) (t : ℝ) :
    Alike (fun e e' => e' = c.orbit e) (computeOrbitalElements s t) (computeOrbitalElements (c.bodies s) (c.time * t)) := by
  have hl := c.length_pos
  have hm := c.bodyMass_pos
  have hE : 0 < c.bodyMass * c.velocity ^ 2 := mul_pos hm (pow_pos c.velocity_pos 2)
  unfold computeOrbitalElements
  dsimp only
  rw [frameOf_units]
  refine Alike.guard ?_ fun _ _ => Alike.guardThrows ?_ fun _ _ => elementsOf_units _ _ _ _
  · show _ ↔ c.bodyMass * s.body1.mass + c.bodyMass * s.body2.mass = 0 ∨ c.bodyMass * s.body1.mass = 0 ∨ c.bodyMass * s.body2.mass = 0
      ∨ c.length * _ = 0 ∨ (c.length * s.body2.x - c.length * _ = 0 ∧ c.length * s.body2.y - c.length * _ = 0) ∨ c.bodyMass * c.velocity ^ 2 * _ = 0
    rw [← mul_add, ← mul_sub, ← mul_sub]
    exact or_congr (scale_eq_zero hm) (or_congr (scale_eq_zero hm) (or_congr (scale_eq_zero hm) (or_congr (scale_eq_zero hl)
      (or_congr (and_congr (scale_eq_zero hl) (scale_eq_zero hl)) (scale_eq_zero hE)))))
  · exact (not_lt.symm.trans (not_congr (scale_neg hE))).trans not_lt

theorem wrapDiff_units {k : ℝ} (hk : 0 < k) (d p : ℝ) : wrapDiff (k * d) (k * p) = k * wrapDiff d p := by
  unfold wrapDiff
  dsimp only
  rw [← mul_add, ← mul_sub, abs_mul, abs_mul, abs_mul, abs_of_pos hk, ← mul_min_of_nonneg _ _ hk.le, mul_ite, mul_ite]
  exact ite_related (R := Eq) (scale_lt hk).symm rfl (ite_related (R := Eq) (scale_lt hk).symm rfl rfl)

theorem diff_units (a b : FullElements) : Alike (fun e e' => e' = c.orbit e) (TwoBody.diff a b) (TwoBody.diff (c.orbit a) (c.orbit b)) := by
  unfold TwoBody.diff
  refine (period_units b.elements (c.orbit b).elements rfl rfl).map ?_
  rintro P _ rfl
  refine FullElements.ext rfl ?_ ?_ ?_ ?_ ?_ (Elements.ext ?_ ?_ rfl rfl)
  · show wrapDiff (c.time * b.tau - c.time * a.tau) (c.time * P) = c.time * wrapDiff (b.tau - a.tau) P
    rw [← mul_sub, wrapDiff_units c.time_pos]
  all_goals exact (mul_sub _ _ _).symm

theorem orbit_add (a b : FullElements) : (c.orbit a).add (c.orbit b) = c.orbit (a.add b) :=
  FullElements.ext rfl (mul_add _ _ _).symm (mul_add _ _ _).symm (mul_add _ _ _).symm (mul_add _ _ _).symm (mul_add _ _ _).symm
    (Elements.ext (mul_add _ _ _).symm (mul_add _ _ _).symm rfl rfl)

theorem orbit_scale (a : FullElements) (k : ℝ) : (c.orbit a).scale k = c.orbit (a.scale k) :=
  FullElements.ext rfl (mul_assoc _ _ _) (mul_assoc _ _ _) (mul_assoc _ _ _) (mul_assoc _ _ _) (mul_assoc _ _ _)
    (Elements.ext (mul_assoc _ _ _) (mul_assoc _ _ _) rfl rfl)

theorem diffCm_units (a : FullElements) (dt : ℝ) : diffCm (c.orbit a) (c.time * dt) = c.orbit (diffCm a dt) := by
  refine FullElements.ext rfl (mul_zero _).symm ?_ ?_ (mul_zero _).symm (mul_zero _).symm (Elements.ext (mul_zero _).symm (mul_zero _).symm rfl rfl)
  · show c.velocity * a.cmVx * (c.time * dt) = c.length * (a.cmVx * dt)
    rw [length_eq]
    ring
  · show c.velocity * a.cmVy * (c.time * dt) = c.length * (a.cmVy * dt)
    rw [length_eq]
    ring

end Scale

end Verif.Binary
