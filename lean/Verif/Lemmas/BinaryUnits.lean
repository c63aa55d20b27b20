import Verif.Lemmas.Relate
import Verif.Spec.BinaryUnits
import Verif.Props.Frame

/-!
# The formulas of the binary program in other units
-/

namespace Verif.Binary
open Verif Verif.Nd Verif.Tree Iso2d TwoBody Geometry

namespace Scale

/-- Numbers that are larger by a factor. -/
def times (k x x' : ℝ) : Prop := x' = k * x

/-- Both components are larger by a factor. -/
def pairTimes (k : ℝ) (x x' : ℝ × ℝ) : Prop := x' = (k * x.1, k * x.2)

/-- The first component is larger by one factor, the other two are by another one. -/
def triTimes (k l : ℝ) (x x' : Tri) : Prop := x' = ⟨k * x.a, l * x.b, l * x.c⟩

/-- What does not change during a run. -/
structure Setup (c : Scale) (m m' : SolverData) : Prop where
  params : m'.params = c.params m.params
  recommendedStep : m'.recommendedStep = c.time * m.recommendedStep
  cfl : m'.cfl = m.cfl
  beginLive : m'.beginLive = c.time * m.beginLive
  rkOrder : m'.rkOrder = m.rkOrder
  conserveLinear : m'.conserveLinear = m.conserveLinear
  fixedDt : m'.fixedDt = m.fixedDt
  noAccretionForce : m'.noAccretionForce = m.noAccretionForce
  blockSize : m'.blockSize = m.blockSize
  vertices : TreeR (ArrR (pairTimes c.length)) m.vertices m'.vertices
  centers : TreeR (ArrR (pairTimes c.length)) m.centers m'.centers
  areas : TreeR (ArrR (times (c.length ^ 2))) m.areas m'.areas
  initialU : TreeR (ArrR (triTimes c.density (c.density * c.velocity))) m.initialU m'.initialU
  initialQ : TreeR (ArrR (triTimes c.density (c.density * c.length * c.velocity))) m.initialQ m'.initialQ
  bufferRate : TreeR (ArrR (times c.time⁻¹)) m.bufferRate m'.bufferRate

/-- The state of a run.  The changes of the orbit by the gas, and the work, are only comparable if gas and bodies are weighed in the same unit. -/
structure Run (c : Scale) (s s' : Solution) : Prop where
  time : s'.time = c.time * s.time
  iteration : s'.iteration = s.iteration
  u : TreeR (ArrR (triTimes c.density (c.density * c.velocity))) s.u s'.u
  q : TreeR (ArrR (triTimes c.density (c.density * c.length * c.velocity))) s.q s'.q
  massAccreted : ∀ k, s'.massAccreted k = c.gasMass * s.massAccreted k
  angmomAccreted : ∀ k, s'.angmomAccreted k = c.gasMass * (c.length * c.velocity) * s.angmomAccreted k
  torque : ∀ k, s'.torque k = c.gasMass * (c.length * c.velocity) * s.torque k
  massEjected : s'.massEjected = c.gasMass * s.massEjected
  angmomEjected : s'.angmomEjected = c.gasMass * (c.length * c.velocity) * s.angmomEjected
  orbit : s'.orbit = c.orbit s.orbit
  work : c.gasMass = c.bodyMass → ∀ k, s'.work k = c.gasMass * c.velocity ^ 2 * s.work k
  orbitAcc : c.gasMass = c.bodyMass → s'.orbitAcc = c.orbit s.orbitAcc
  orbitGrav : c.gasMass = c.bodyMass → s'.orbitGrav = c.orbit s.orbitGrav

theorem velocity_pos (c : Scale) : 0 < c.velocity := div_pos c.length_pos c.time_pos

theorem bodyMass_pos (c : Scale) : 0 < c.bodyMass := div_pos (pow_pos c.length_pos 3) (pow_pos c.time_pos 2)

theorem gasMass_pos (c : Scale) : 0 < c.gasMass := mul_pos c.density_pos (pow_pos c.length_pos 2)

theorem length_eq (c : Scale) : c.length = c.velocity * c.time := (div_mul_cancel₀ _ c.time_pos.ne').symm

theorem bodyMass_eq (c : Scale) : c.bodyMass = c.length * c.velocity ^ 2 := by
  unfold bodyMass velocity
  field_simp

variable {c : Scale}

/-! ### Numbers -/

theorem scale_eq_zero {k x : ℝ} (hk : 0 < k) : x = 0 ↔ k * x = 0 := by
  rw [mul_eq_zero]
  exact ⟨Or.inr, fun h => h.resolve_left hk.ne'⟩

theorem scale_neg {k x : ℝ} (hk : 0 < k) : x < 0 ↔ k * x < 0 := ⟨fun h => mul_neg_of_pos_of_neg hk h, fun h => (pos_iff_neg_of_mul_neg h).1 hk⟩

theorem scale_pos {k x : ℝ} (hk : 0 < k) : x > 0 ↔ k * x > 0 := (mul_pos_iff_of_pos_left hk).symm

theorem scale_lt {k x y : ℝ} (hk : 0 < k) : x < y ↔ k * x < k * y := (mul_lt_mul_iff_right₀ hk).symm

theorem sqrt_scale {k : ℝ} (hk : 0 < k) (x : ℝ) : Real.sqrt (k ^ 2 * x) = k * Real.sqrt x := by
  rw [Real.sqrt_mul (sq_nonneg k), Real.sqrt_sq hk.le]

theorem sqrt_of {k : ℝ} (hk : 0 < k) {x y : ℝ} (h : y = k ^ 2 * x) : Real.sqrt y = k * Real.sqrt x := by rw [h, sqrt_scale hk]

theorem minmod_scale {k : ℝ} (hk : 0 < k) (za zb zc : Bool) (theta x y z : ℝ) :
    Plm.plmGradient za zb zc theta (k * x) (k * y) (k * z) = k * Plm.plmGradient za zb zc theta x y z := by
  have hs : ∀ (b : Bool) (u : ℝ), Plm.sgn b (k * u) = Plm.sgn b u := by
    intro b u
    unfold Plm.sgn
    refine ite_related (R := Eq) (scale_neg hk).symm rfl (ite_related (R := Eq) ?_ rfl rfl)
    exact (scale_pos hk).symm
  have hm : ∀ u v w : ℝ, Plm.minabs (k * u) (k * v) (k * w) = k * Plm.minabs u v w := by
    intro u v w
    unfold Plm.minabs
    rw [abs_mul, abs_mul, abs_mul, abs_of_pos hk, ← mul_min_of_nonneg _ _ hk.le, ← mul_min_of_nonneg _ _ hk.le]
  unfold Plm.plmGradient
  have h1 : (k * y - k * x) * theta = k * ((y - x) * theta) := by ring
  have h2 : (k * z - k * x) * (1 / 2) = k * ((z - x) * (1 / 2)) := by ring
  have h3 : (k * z - k * y) * theta = k * ((z - y) * theta) := by ring
  simp only [h1, h2, h3, hs, hm]
  ring

/-! ### Triples -/

theorem triTimes_linear (k l : ℝ) : LinearR (triTimes k l) where
  default := Tri.ext (mul_zero _).symm (mul_zero _).symm (mul_zero _).symm
  add := by
    rintro x _ y _ rfl rfl
    exact Tri.ext (mul_add _ _ _).symm (mul_add _ _ _).symm (mul_add _ _ _).symm
  sub := by
    rintro x _ y _ rfl rfl
    exact Tri.ext (mul_sub _ _ _).symm (mul_sub _ _ _).symm (mul_sub _ _ _).symm
  smul := by
    rintro r x _ rfl
    exact Tri.ext (mul_assoc _ _ _) (mul_assoc _ _ _) (mul_assoc _ _ _)

theorem triTimes.mul {k l j : ℝ} {x x' : Tri} {r r' : ℝ} (h : triTimes k l x x') (hr : times j r r') {k' l' : ℝ} (hk : k' = k * j) (hl : l' = l * j) :
    triTimes k' l' (x.mul r) (x'.mul r') := by
  subst hk hl
  rw [h, hr]
  refine Tri.ext ?_ ?_ ?_
  · show k * x.a * (j * r) = k * j * (x.a * r)
    ring
  · show l * x.b * (j * r) = l * j * (x.b * r)
    ring
  · show l * x.c * (j * r) = l * j * (x.c * r)
    ring

theorem triTimes.add {k l : ℝ} {x x' y y' : Tri} (h : triTimes k l x x') (h' : triTimes k l y y') : triTimes k l (x.add y) (x'.add y') :=
  (triTimes_linear k l).add _ _ _ _ h h'

theorem triTimes.sub {k l : ℝ} {x x' y y' : Tri} (h : triTimes k l x x') (h' : triTimes k l y y') : triTimes k l (x.sub y) (x'.sub y') :=
  (triTimes_linear k l).sub _ _ _ _ h h'

theorem triTimes.neg {k l : ℝ} {x x' : Tri} (h : triTimes k l x x') : triTimes k l x.neg x'.neg := by
  rw [h]
  exact Tri.ext (mul_neg _ _).symm (mul_neg _ _).symm (mul_neg _ _).symm

theorem times.mul {j k i : ℝ} {x x' y y' : ℝ} (h : times j x x') (h' : times k y y') (hi : i = j * k) : times i (x * y) (x' * y') := by
  rw [h, h', hi]
  show j * x * (k * y) = j * k * (x * y)
  ring

theorem times.add {k : ℝ} {x x' y y' : ℝ} (h : times k x x') (h' : times k y y') : times k (x + y) (x' + y') := by
  rw [h, h']
  exact (mul_add _ _ _).symm

theorem times.sub {k : ℝ} {x x' y y' : ℝ} (h : times k x x') (h' : times k y y') : times k (x - y) (x' - y') := by
  rw [h, h']
  exact (mul_sub _ _ _).symm

theorem times.neg {k : ℝ} {x x' : ℝ} (h : times k x x') : times k (-x) (-x') := by
  rw [h]
  exact (mul_neg _ _).symm

theorem times.rfl {x : ℝ} : times 1 x x := (one_mul x).symm

/-! ### Bodies -/

/-- A body in other units. -/
noncomputable def point (c : Scale) (b : PointMass) : PointMass := ⟨c.bodyMass * b.mass, c.length * b.x, c.length * b.y, c.velocity * b.vx, c.velocity * b.vy⟩

/-- Two bodies in other units. -/
noncomputable def bodies (c : Scale) (b : State) : State := ⟨c.point b.body1, c.point b.body2⟩

theorem gravVdot_units (p : Params) (b : PointMass) {x x' : ℝ × ℝ} (h : pairTimes c.length x x') :
    Alike (pairTimes (c.velocity / c.time)) (gravVdot p (position b) b.mass x) (gravVdot (c.params p) (position (c.point b)) (c.point b).mass x') := by
  have hl := c.length_pos
  have ht := c.time_pos
  rw [h]
  unfold gravVdot
  have hd : (c.length * x.1 - (position (c.point b)).1) * (c.length * x.1 - (position (c.point b)).1)
      + (c.length * x.2 - (position (c.point b)).2) * (c.length * x.2 - (position (c.point b)).2) + (c.params p).softening * (c.params p).softening
      = c.length ^ 2 * ((x.1 - (position b).1) * (x.1 - (position b).1) + (x.2 - (position b).2) * (x.2 - (position b).2) + p.softening * p.softening) := by
    show (c.length * x.1 - c.length * b.x) * (c.length * x.1 - c.length * b.x) + (c.length * x.2 - c.length * b.y) * (c.length * x.2 - c.length * b.y)
      + c.length * p.softening * (c.length * p.softening)
      = c.length ^ 2 * ((x.1 - b.x) * (x.1 - b.x) + (x.2 - b.y) * (x.2 - b.y) + p.softening * p.softening)
    ring
  dsimp only
  rw [hd]
  have h0 : 0 ≤ (x.1 - (position b).1) * (x.1 - (position b).1) + (x.2 - (position b).2) * (x.2 - (position b).2) + p.softening * p.softening :=
    add_nonneg (add_nonneg (mul_self_nonneg _) (mul_self_nonneg _)) (mul_self_nonneg _)
  generalize hD : (x.1 - (position b).1) * (x.1 - (position b).1) + (x.2 - (position b).2) * (x.2 - (position b).2) + p.softening * p.softening = D at h0 ⊢
  refine Alike.guard (scale_eq_zero (pow_pos hl 2)) fun hD0 _ => Alike.ok ?_
  have hp : (c.length ^ 2 * D) ^ (3 / 2 : ℝ) = c.length ^ 3 * D ^ (3 / 2 : ℝ) := by
    rw [Real.mul_rpow (by positivity) h0]
    congr 1
    rw [← Real.rpow_natCast, ← Real.rpow_mul hl.le, ← Real.rpow_natCast]
    norm_num
  have hD1 : D ^ (3 / 2 : ℝ) ≠ 0 := (Real.rpow_pos_of_pos (lt_of_le_of_ne h0 (Ne.symm hD0)) _).ne'
  rw [hp]
  generalize D ^ (3 / 2 : ℝ) = W at hD1
  refine Prod.ext ?_ ?_
  · show -(c.length * x.1 - c.length * b.x) / (c.length ^ 3 * W) * 1 * (c.bodyMass * b.mass) = c.velocity / c.time * (-(x.1 - b.x) / W * 1 * b.mass)
    unfold bodyMass velocity
    field_simp
  · show -(c.length * x.2 - c.length * b.y) / (c.length ^ 3 * W) * 1 * (c.bodyMass * b.mass) = c.velocity / c.time * (-(x.2 - b.y) / W * 1 * b.mass)
    unfold bodyMass velocity
    field_simp

theorem gravPhi_units (p : Params) (b : PointMass) {x x' : ℝ × ℝ} (h : pairTimes c.length x x') :
    Alike (times (c.velocity ^ 2)) (gravPhi p (position b) b.mass x) (gravPhi (c.params p) (position (c.point b)) (c.point b).mass x') := by
  have hl := c.length_pos
  have ht := c.time_pos
  rw [h]
  unfold gravPhi
  have hd : (c.length * x.1 - (position (c.point b)).1) * (c.length * x.1 - (position (c.point b)).1)
      + (c.length * x.2 - (position (c.point b)).2) * (c.length * x.2 - (position (c.point b)).2) + (c.params p).softening * (c.params p).softening
      = c.length ^ 2 * ((x.1 - (position b).1) * (x.1 - (position b).1) + (x.2 - (position b).2) * (x.2 - (position b).2) + p.softening * p.softening) := by
    show (c.length * x.1 - c.length * b.x) * (c.length * x.1 - c.length * b.x) + (c.length * x.2 - c.length * b.y) * (c.length * x.2 - c.length * b.y)
      + c.length * p.softening * (c.length * p.softening)
      = c.length ^ 2 * ((x.1 - b.x) * (x.1 - b.x) + (x.2 - b.y) * (x.2 - b.y) + p.softening * p.softening)
    ring
  dsimp only
  rw [hd]
  have h0 : 0 ≤ (x.1 - (position b).1) * (x.1 - (position b).1) + (x.2 - (position b).2) * (x.2 - (position b).2) + p.softening * p.softening :=
    add_nonneg (add_nonneg (mul_self_nonneg _) (mul_self_nonneg _)) (mul_self_nonneg _)
  generalize hD : (x.1 - (position b).1) * (x.1 - (position b).1) + (x.2 - (position b).2) * (x.2 - (position b).2) + p.softening * p.softening = D at h0 ⊢
  refine Alike.guard (scale_eq_zero (pow_pos hl 2)) fun hD0 _ => Alike.ok ?_
  have hp : (c.length ^ 2 * D) ^ (1 / 2 : ℝ) = c.length * D ^ (1 / 2 : ℝ) := by
    rw [Real.mul_rpow (by positivity) h0]
    congr 1
    rw [← Real.rpow_natCast, ← Real.rpow_mul hl.le]
    norm_num
  have hD1 : D ^ (1 / 2 : ℝ) ≠ 0 := (Real.rpow_pos_of_pos (lt_of_le_of_ne h0 (Ne.symm hD0)) _).ne'
  rw [hp]
  generalize D ^ (1 / 2 : ℝ) = W at hD1
  show -1 * (c.bodyMass * b.mass) / (c.length * W) = c.velocity ^ 2 * (-1 * b.mass / W)
  unfold bodyMass velocity
  field_simp

theorem sinkRate_units (p : Params) (b : PointMass) {x x' : ℝ × ℝ} (h : pairTimes c.length x x') :
    Alike (times c.time⁻¹) (sinkRate p (position b) x) (sinkRate (c.params p) (position (c.point b)) x') := by
  have hl := c.length_pos
  have ht := c.time_pos
  rw [h]
  unfold sinkRate
  dsimp only
  have hs : (c.params p).sinkRadius * (c.params p).sinkRadius = c.length ^ 2 * (p.sinkRadius * p.sinkRadius) := by
    show c.length * p.sinkRadius * (c.length * p.sinkRadius) = _
    ring
  rw [hs]
  refine Alike.guard (scale_eq_zero (pow_pos hl 2)) fun h0 _ => Alike.ok ?_
  have he : ((c.length * x.1 - (position (c.point b)).1) * (c.length * x.1 - (position (c.point b)).1)
      + (c.length * x.2 - (position (c.point b)).2) * (c.length * x.2 - (position (c.point b)).2)) / (c.length ^ 2 * (p.sinkRadius * p.sinkRadius))
      = ((x.1 - (position b).1) * (x.1 - (position b).1) + (x.2 - (position b).2) * (x.2 - (position b).2)) / (p.sinkRadius * p.sinkRadius) := by
    show ((c.length * x.1 - c.length * b.x) * (c.length * x.1 - c.length * b.x) + (c.length * x.2 - c.length * b.y) * (c.length * x.2 - c.length * b.y))
      / (c.length ^ 2 * (p.sinkRadius * p.sinkRadius)) = ((x.1 - b.x) * (x.1 - b.x) + (x.2 - b.y) * (x.2 - b.y)) / (p.sinkRadius * p.sinkRadius)
    rw [← mul_div_mul_left ((x.1 - b.x) * (x.1 - b.x) + (x.2 - b.y) * (x.2 - b.y)) _ (pow_pos hl 2).ne']
    congr 1
    ring
  rw [he]
  show p.sinkRate / c.time * _ = c.time⁻¹ * (p.sinkRate * _)
  rw [div_eq_inv_mul, mul_assoc]

theorem radius_units {x x' : ℝ × ℝ} (h : pairTimes c.length x x') : radius x' = c.length * radius x := by
  rw [h]
  exact sqrt_of c.length_pos (by ring)

theorem cs2At_units {p : Params} (hp : c.Fits p) (b : State) {x x' : ℝ × ℝ} (h : pairTimes c.length x x') :
    Alike (times (c.velocity ^ 2)) (cs2At p b x) (cs2At (c.params p) (c.bodies b) x') := by
  have hl := c.length_pos
  have hr := radius_units h
  unfold cs2At
  refine Alike.guard Iff.rfl fun hm _ => ?_
  have hax : (c.params p).axisymmetric = p.axisymmetric := rfl
  rw [hax]
  refine Alike.ite Iff.rfl (fun ha _ => ?_) fun _ _ => ?_
  · have hmu : c.bodyMass = 1 := hp.2.resolve_left (by rw [ha]; exact Bool.noConfusion)
    have hx : x'.1 * x'.1 + x'.2 * x'.2 = c.length ^ 2 * (x.1 * x.1 + x.2 * x.2) := by
      rw [h]
      ring
    dsimp only
    rw [hx]
    refine Alike.guard (scale_eq_zero (pow_pos hl 2)) fun h0 _ => Alike.ok ?_
    rw [sqrt_scale hl]
    show 1 / (c.length * _) / p.mach / p.mach = c.velocity ^ 2 * (1 / _ / p.mach / p.mach)
    rw [bodyMass_eq] at hmu
    have hv : c.velocity ^ 2 = 1 / c.length := by
      field_simp
      linarith
    rw [hv]
    have hw : Real.sqrt (x.1 * x.1 + x.2 * x.2) ≠ 0 := (Real.sqrt_pos.2 (lt_of_le_of_ne (add_nonneg (mul_self_nonneg _) (mul_self_nonneg _)) (Ne.symm h0))).ne'
    generalize Real.sqrt (x.1 * x.1 + x.2 * x.2) = W at hw
    field_simp
  · refine (gravPhi_units p b.body1 h).bind fun a a' ha => (gravPhi_units p b.body2 h).bind fun d d' hd => Alike.ok ?_
    show -(a' + d') / p.mach / p.mach = c.velocity ^ 2 * (-(a + d) / p.mach / p.mach)
    rw [ha, hd]
    ring

theorem nuProfile_units {p : Params} (hp : c.Fits p) {x x' : ℝ × ℝ} (h : pairTimes c.length x x') : nuProfile (c.params p) x' = nuProfile p x := by
  unfold nuProfile
  by_cases hc : p.alphaCutoff > 0
  · rw [if_pos hc, if_pos (show (c.params p).alphaCutoff > 0 from (scale_pos c.length_pos).1 hc), radius_units h]
    show 1 / 2 * (1 + Real.tanh (3 * (c.length * radius x - c.length * p.alphaCutoff))) = _
    rw [hp.1.resolve_left (not_le.2 hc), one_mul, one_mul]
  · rw [if_neg hc, if_neg fun h' : (c.params p).alphaCutoff > 0 => hc ((scale_pos c.length_pos).2 h')]

theorem nuAt_units {p : Params} (hp : c.Fits p) {x x' : ℝ × ℝ} (h : pairTimes c.length x x') {k k' : ℝ} (hk : times (c.velocity ^ 2) k k') :
    Alike (times (c.length * c.velocity)) (nuAt p x k) (nuAt (c.params p) x' k') := by
  have hl := c.length_pos
  have hv := c.velocity_pos
  unfold nuAt
  rw [nuProfile_units hp h]
  refine Alike.ite (scale_pos (mul_pos hl hv)) (fun _ _ => Alike.ok ?_) fun _ _ => Alike.guard ?_ fun _ _ => Alike.ok ?_
  · show nuProfile p x * (c.length * c.velocity * p.nu) = c.length * c.velocity * (nuProfile p x * p.nu)
    ring
  · rw [hk]
    exact or_congr (scale_neg (pow_pos hv 2)) Iff.rfl
  · show nuProfile p x * p.alpha * Real.sqrt k' * (radius x' / p.mach) = c.length * c.velocity * (nuProfile p x * p.alpha * Real.sqrt k * (radius x / p.mach))
    rw [hk, sqrt_scale hv, radius_units h]
    ring

/-! ### Fluxes -/

/-- The units of the formulas for the gas. -/
noncomputable def gas (c : Scale) : Frame.Units := ⟨c.density, c.velocity, c.density_pos, c.velocity_pos⟩

theorem hlleChecked_units {P P' Q Q' : Tri} (hP : triTimes c.density c.velocity P P') (hQ : triTimes c.density c.velocity Q Q') {k k' : ℝ}
    (hk : times (c.velocity ^ 2) k k') (n : UnitVec ℝ) :
    Alike (triTimes (c.density * c.velocity) (c.density * c.velocity ^ 2)) (hlleChecked P Q k n) (hlleChecked P' Q' k' n) := by
  have hv := c.velocity_pos
  have e1 : P' = c.gas.planePrimitive P := hP
  have e2 : Q' = c.gas.planePrimitive Q := hQ
  have e3 : k' = c.gas.velocity ^ 2 * k := hk
  rw [e1, e2, e3]
  obtain ⟨-, -, hw, hh, -, -⟩ := Frame.iso2d_units c.gas P Q P n k k
  obtain ⟨-, -, hw', -, -, -⟩ := Frame.iso2d_units c.gas Q Q P n k k
  unfold hlleChecked
  rw [hw, hw', hh]
  refine Alike.guard (or_congr (scale_neg (pow_pos hv 2)) ?_) fun _ _ => Alike.ok ?_
  · have : ∀ a b d e : ℝ, max 0 (max (c.velocity * a) (c.velocity * b)) - min 0 (min (c.velocity * d) (c.velocity * e))
        = c.velocity * (max 0 (max a b) - min 0 (min d e)) := by
      intro a b d e
      rw [mul_sub, mul_max_of_nonneg _ _ hv.le, mul_max_of_nonneg _ _ hv.le, mul_min_of_nonneg _ _ hv.le, mul_min_of_nonneg _ _ hv.le, mul_zero]
    show _ ↔ max 0 (max (c.velocity * _) (c.velocity * _)) - min 0 (min (c.velocity * _) (c.velocity * _)) = 0
    rw [this]
    exact scale_eq_zero hv
  · refine Tri.ext ?_ ?_ ?_
    · show c.velocity * (c.density * _) = c.density * c.velocity * _
      ring
    · show c.velocity * (c.density * c.velocity * _) = c.density * c.velocity ^ 2 * _
      ring
    · show c.velocity * (c.density * c.velocity * _) = c.density * c.velocity ^ 2 * _
      ring

theorem viscousFlux_units (a : Nat) {G G' H H' : Tri × Tri} (hG : PairR (triTimes (c.density / c.length) (c.velocity / c.length))
    (triTimes (c.density / c.length) (c.velocity / c.length)) G G') (hH : PairR (triTimes (c.density / c.length) (c.velocity / c.length))
    (triTimes (c.density / c.length) (c.velocity / c.length)) H H') {mu mu' : ℝ} (hmu : times (c.density * (c.length * c.velocity)) mu mu') :
    Alike (triTimes (c.density * c.velocity) (c.density * c.velocity ^ 2)) (viscousFlux a G H mu) (viscousFlux a G' H' mu') := by
  have hl := c.length_pos
  obtain ⟨gl, gr⟩ := G
  obtain ⟨gl', gr'⟩ := G'
  obtain ⟨kl, kr⟩ := H
  obtain ⟨kl', kr'⟩ := H'
  obtain ⟨h1, h2⟩ := hG
  obtain ⟨h3, h4⟩ := hH
  dsimp only at h1 h2 h3 h4
  subst h1 h2 h3 h4
  rw [hmu]
  unfold viscousFlux
  have key : ∀ x y z w : ℝ, c.density * (c.length * c.velocity) * mu * (1 / 2 * (c.velocity / c.length * x + c.velocity / c.length * y)
      - 1 / 2 * (c.velocity / c.length * z + c.velocity / c.length * w)) = c.density * c.velocity ^ 2 * (mu * (1 / 2 * (x + y) - 1 / 2 * (z + w))) := by
    intro x y z w
    field_simp
  have key' : ∀ x y z w : ℝ, c.density * (c.length * c.velocity) * mu * (1 / 2 * (c.velocity / c.length * x + c.velocity / c.length * y)
      + 1 / 2 * (c.velocity / c.length * z + c.velocity / c.length * w)) = c.density * c.velocity ^ 2 * (mu * (1 / 2 * (x + y) + 1 / 2 * (z + w))) := by
    intro x y z w
    field_simp
  match a with
  | 0 =>
    dsimp only
    rw [key, key']
    exact Alike.ok (Tri.ext (mul_zero _).symm (mul_neg _ _).symm (mul_neg _ _).symm)
  | 1 =>
    dsimp only
    refine Alike.ok (Tri.ext (mul_zero _).symm ?_ ?_)
    · show -(c.density * (c.length * c.velocity) * mu * _) = c.density * c.velocity ^ 2 * -(mu * _)
      rw [key']
      ring
    show -(-(c.density * (c.length * c.velocity) * mu) * _) = c.density * c.velocity ^ 2 * -(-mu * _)
    rw [neg_mul, key, neg_mul]
    ring
  | _ + 2 => exact Alike.ub

theorem intercellFluxU_units {p : Params} (hp : c.Fits p) (a : Nat) (b : State) {h h' : ℝ} (hh : times c.length h h') {x x' : ℝ × ℝ} (hx : pairTimes c.length x x')
    {P P' G G' H H' : Tri × Tri} (hP : PairR (triTimes c.density c.velocity) (triTimes c.density c.velocity) P P')
    (hG : PairR (triTimes (c.density / c.length) (c.velocity / c.length)) (triTimes (c.density / c.length) (c.velocity / c.length)) G G')
    (hH : PairR (triTimes (c.density / c.length) (c.velocity / c.length)) (triTimes (c.density / c.length) (c.velocity / c.length)) H H') :
    Alike (triTimes (c.density * c.velocity) (c.density * c.velocity ^ 2)) (intercellFluxU p a b h x P G H)
      (intercellFluxU (c.params p) a (c.bodies b) h' x' P' G' H') := by
  have hl := c.length_pos
  have half : ∀ {g g' : Tri}, triTimes (c.density / c.length) (c.velocity / c.length) g g' →
      triTimes c.density c.velocity ((g.mul (1 / 2)).mul h) ((g'.mul (1 / 2)).mul h') := fun hg =>
    (hg.mul times.rfl (mul_one _).symm (mul_one _).symm).mul hh (by field_simp) (by field_simp)
  have hpl := hP.1.add (half hG.1)
  have hpr := hP.2.sub (half hG.2)
  unfold intercellFluxU
  dsimp only
  refine (cs2At_units hp b hx).bind fun k k' hk => (nuAt_units hp hx hk).bind fun n n' hn => Alike.same fun e => ?_
  refine (hlleChecked_units hpl hpr hk e).bind fun f f' hf => (viscousFlux_units a hG hH ?_).bind fun g g' hg => Alike.ok (hf.add hg)
  rw [hn, hpl, hpr]
  show 1 / 2 * (c.length * c.velocity * n) * (c.density * _ + c.density * _) = c.density * (c.length * c.velocity) * (1 / 2 * n * (_ + _))
  ring

theorem toAngmomFluxes_units (p : Params) (a : Nat) {x x' : ℝ × ℝ} (hx : pairTimes c.length x x') {f f' : Tri}
    (hf : triTimes (c.density * c.velocity) (c.density * c.velocity ^ 2) f f') :
    triTimes (c.density * c.velocity) (c.density * c.length * c.velocity ^ 2) (toAngmomFluxes a p.domainRadius x f)
      (toAngmomFluxes a (c.params p).domainRadius x' f') := by
  have hl := c.length_pos
  rw [hx, hf]
  unfold toAngmomFluxes
  have hb : ∀ y : ℝ, (c.length * y = -(c.params p).domainRadius ∨ c.length * y = (c.params p).domainRadius) ↔ (y = -p.domainRadius ∨ y = p.domainRadius) := by
    intro y
    have e : (c.params p).domainRadius = c.length * p.domainRadius := rfl
    rw [e, ← mul_neg, mul_right_inj' hl.ne', mul_right_inj' hl.ne']
  dsimp only
  simp only [hb]
  refine Tri.ext rfl ?_ ?_
  · show c.length * x.1 * (c.density * c.velocity ^ 2 * f.b) + c.length * x.2 * (c.density * c.velocity ^ 2 * f.c)
      = c.density * c.length * c.velocity ^ 2 * (x.1 * f.b + x.2 * f.c)
    ring
  · dsimp only
    rw [mul_ite, mul_ite, mul_zero]
    congr 2
    ring

theorem gradient_units (z : Fin 9 → Bool) (theta : ℝ) {k l : ℝ} (hk : 0 < k) (hl : 0 < l) {h h' : ℝ} (hh : times c.length h h') {x x' y y' w w' : Tri}
    (hx : triTimes k l x x') (hy : triTimes k l y y') (hw : triTimes k l w w') :
    triTimes (k / c.length) (l / c.length) (gradient z theta h x y w) (gradient z theta h' x' y' w') := by
  rw [hx, hy, hw, hh]
  unfold gradient
  dsimp only
  rw [minmod_scale hk, minmod_scale hl, minmod_scale hl]
  exact Tri.ext (mul_div_mul_comm _ _ _ _) (mul_div_mul_comm _ _ _ _) (mul_div_mul_comm _ _ _ _)

end Scale

end Verif.Binary
