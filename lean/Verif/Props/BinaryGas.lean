import Verif.Spec.Binary
import Verif.Spec.BinaryGas
import Verif.Lemmas.BinaryPositive
import Verif.Props.Binary
import Mathlib.Analysis.SpecialFunctions.Sqrt
import Mathlib.Analysis.SpecialFunctions.Artanh

/-!
# C110: pressure and viscosity of the binary program
-/

namespace Verif.Binary

open Verif Iso2d Geometry

theorem radius_eq (x : ℝ × ℝ) : radius x = Real.sqrt (x.1 ^ 2 + x.2 ^ 2) := by
  unfold radius
  rw [sq, sq]

theorem cs2At_sound {s : Params} {b : TwoBody.State} (hP : Physical s b) {x : ℝ × ℝ} (hx : s.axisymmetric = true → x ≠ (0, 0)) :
    cs2At s b x = .ok (sound2 s b x) ∧ 0 < sound2 s b x := by
  have hm : 0 < s.mach ^ 2 := by have := hP.mach; positivity
  unfold sound2
  cases hax : s.axisymmetric with
  | true =>
    have h0 : 0 < x.1 ^ 2 + x.2 ^ 2 := by
      by_contra h
      have h1 := sq_nonneg x.1
      have h2 := sq_nonneg x.2
      refine hx hax (Prod.ext ?_ ?_)
      · exact pow_eq_zero_iff (two_ne_zero) |>.1 (by linarith)
      · exact pow_eq_zero_iff (two_ne_zero) |>.1 (by linarith)
    have h0' : x.1 * x.1 + x.2 * x.2 = x.1 ^ 2 + x.2 ^ 2 := by ring
    rw [if_pos rfl]
    constructor
    · unfold cs2At
      rw [if_neg hP.mach, hax, if_pos rfl]
      dsimp only
      rw [h0', if_neg h0.ne', div_div, ← sq]
    · have := Real.sqrt_pos.2 h0
      positivity
  | false =>
    rw [if_neg (by decide)]
    refine ⟨cs2At_eq hP hax x, ?_⟩
    have h1 := reach_pos hP.softening b.body1 x
    have h2 := reach_pos hP.softening b.body2 x
    have h3 := hP.mass1
    have h4 := hP.mass2
    positivity

theorem nuAt_viscosity {s : Params} {b : TwoBody.State} (hP : Physical s b) {x : ℝ × ℝ} (hx : s.axisymmetric = true → x ≠ (0, 0)) :
    nuAt s x (sound2 s b x) = .ok (viscosity s b x) := by
  have h := (cs2At_sound hP hx).2
  have hc : nuProfile s x = cutoff s.alphaCutoff (Real.sqrt (x.1 ^ 2 + x.2 ^ 2)) := by
    unfold nuProfile cutoff
    rw [radius_eq]
    split
    · ring
    · rfl
  unfold nuAt viscosity
  rw [hc]
  by_cases hnu : s.nu > 0
  · rw [if_pos hnu, if_pos hnu]
  · rw [if_neg hnu, if_neg hnu, if_neg (by rintro (h' | h'); exacts [absurd h' (not_lt.2 h.le), hP.mach h']), radius_eq]
    congr 1
    ring

/-- **C110**: where the states on the two sides of a face extrapolate to the same state `P`, the flux of the binary program is that of an isothermal gas with the
speed of sound and the viscosity given for this point, whatever the cell size.  `G` are the derivatives of the velocity, averaged over the two sides. -/
theorem face_flux {s : Params} {b : TwoBody.State} (hP : Physical s b) {x : ℝ × ℝ} (hx : s.axisymmetric = true → x ≠ (0, 0)) (h : ℝ) (P gl gr hl hr : Tri)
    {G : Matrix (Fin 2) (Fin 2) ℝ} (h00 : G 0 0 = (gl.b + gr.b) / 2) (h01 : G 0 1 = (gl.c + gr.c) / 2) (h10 : G 1 0 = (hl.b + hr.b) / 2)
    (h11 : G 1 1 = (hl.c + hr.c) / 2) :
    (∀ pl pr : Tri, pl + (h / 2) • gl = P → pr - (h / 2) • gr = P → intercellFluxU s 0 b h x (pl, pr) (gl, gr) (hl, hr) = .ok ⟨P.a * P.b,
      P.a * P.b * P.b + P.a * sound2 s b x - stress (viscosity s b x * P.a) G 0 0, P.a * P.b * P.c - stress (viscosity s b x * P.a) G 0 1⟩) ∧
    (∀ pl pr : Tri, pl + (h / 2) • hl = P → pr - (h / 2) • hr = P → intercellFluxU s 1 b h x (pl, pr) (hl, hr) (gl, gr) = .ok ⟨P.a * P.c,
      P.a * P.c * P.b - stress (viscosity s b x * P.a) G 1 0, P.a * P.c * P.c + P.a * sound2 s b x - stress (viscosity s b x * P.a) G 1 1⟩) := by
  obtain ⟨e1, e2⟩ := cs2At_sound hP hx
  have e3 := nuAt_viscosity hP hx
  have hext : ∀ p g : Tri, p.add ((g.mul (1 / 2)).mul h) = p + (h / 2) • g := by
    intro p g
    refine Tri.ext ?_ ?_ ?_
    · show p.a + g.a * (1 / 2) * h = p.a + g.a * (h / 2); ring
    · show p.b + g.b * (1 / 2) * h = p.b + g.b * (h / 2); ring
    · show p.c + g.c * (1 / 2) * h = p.c + g.c * (h / 2); ring
  have hext' : ∀ p g : Tri, p.sub ((g.mul (1 / 2)).mul h) = p - (h / 2) • g := by
    intro p g
    refine Tri.ext ?_ ?_ ?_
    · show p.a - g.a * (1 / 2) * h = p.a - g.a * (h / 2); ring
    · show p.b - g.b * (1 / 2) * h = p.b - g.b * (h / 2); ring
    · show p.c - g.c * (1 / 2) * h = p.c - g.c * (h / 2); ring
  have hstress : ∀ mu : ℝ, stress mu G 0 0 = mu * (G 0 0 - G 1 1) ∧ stress mu G 0 1 = mu * (G 0 1 + G 1 0) ∧
      stress mu G 1 0 = mu * (G 0 1 + G 1 0) ∧ stress mu G 1 1 = mu * (G 1 1 - G 0 0) := by
    intro mu
    refine ⟨?_, ?_, ?_, ?_⟩ <;> simp [stress, Matrix.trace, Fin.sum_univ_two, -mul_eq_mul_left_iff] <;> ring
  obtain ⟨s1, s2, s3, s4⟩ := hstress (viscosity s b x * P.a)
  constructor
  · intro pl pr hl' hr'
    unfold intercellFluxU
    dsimp only
    rw [hext, hext', hl', hr', e1, Outcome.bind_ok, e3, Outcome.bind_ok]
    have en : (UnitVec.onAxis 0 : Outcome (UnitVec ℝ)) = .ok ⟨1, 0, 0⟩ := rfl
    rw [en, Outcome.bind_ok, hlleChecked_ok _ _ e2, Outcome.bind_ok, hlle_consistent _ _ _ e2]
    refine congrArg Outcome.ok (Tri.ext ?_ ?_ ?_)
    · show (P.b * 1 + P.c * 0 + 0 * 0) * P.a + 0 = _
      ring
    · rw [s1, h00, h11]
      show (P.b * 1 + P.c * 0 + 0 * 0) * P.a * P.b + gasPressure P (sound2 s b x) * 1 + -(_) = _
      unfold gasPressure
      ring
    · rw [s2, h01, h10]
      show (P.b * 1 + P.c * 0 + 0 * 0) * P.a * P.c + gasPressure P (sound2 s b x) * 0 + -(_) = _
      ring
  · intro pl pr hl' hr'
    unfold intercellFluxU
    dsimp only
    rw [hext, hext', hl', hr', e1, Outcome.bind_ok, e3, Outcome.bind_ok]
    have en : (UnitVec.onAxis 1 : Outcome (UnitVec ℝ)) = .ok ⟨0, 1, 0⟩ := rfl
    rw [en, Outcome.bind_ok, hlleChecked_ok _ _ e2, Outcome.bind_ok, hlle_consistent _ _ _ e2]
    refine congrArg Outcome.ok (Tri.ext ?_ ?_ ?_)
    · show (P.b * 0 + P.c * 1 + 0 * 0) * P.a + 0 = _
      ring
    · rw [s3, h01, h10]
      show (P.b * 0 + P.c * 1 + 0 * 0) * P.a * P.b + gasPressure P (sound2 s b x) * 0 + -(_) = _
      ring
    · rw [s4, h00, h11]
      show (P.b * 0 + P.c * 1 + 0 * 0) * P.a * P.c + gasPressure P (sound2 s b x) * 1 + -(_) = _
      unfold gasPressure
      ring

theorem cutoff_bounds (rc r : ℝ) : 0 < cutoff rc r ∧ cutoff rc r ≤ 1 := by
  unfold cutoff
  split
  · have h1 := Real.neg_one_lt_tanh (3 * (r - rc))
    have h2 := Real.tanh_lt_one (3 * (r - rc))
    constructor <;> linarith
  · exact ⟨one_pos, le_rfl⟩

/-- **C110**, the cutoff: it leaves half of the viscosity at the cutoff radius and more farther out, and does nothing if the radius is zero. -/
theorem cutoff_shape : (∀ r, cutoff 0 r = 1) ∧ (∀ rc, 0 < rc → cutoff rc rc = 1 / 2) ∧ ∀ rc, 0 < rc → StrictMono (cutoff rc) := by
  refine ⟨fun r => ?_, fun rc h => ?_, fun rc h r1 r2 hr => ?_⟩
  · unfold cutoff
    rw [if_neg (lt_irrefl _)]
  · unfold cutoff
    rw [if_pos h, sub_self, mul_zero, Real.tanh_zero, add_zero]
  · unfold cutoff
    rw [if_pos h, if_pos h]
    have : Real.tanh (3 * (r1 - rc)) < Real.tanh (3 * (r2 - rc)) := by
      rw [← Real.artanh_lt_artanh_iff ⟨Real.neg_one_lt_tanh _, Real.tanh_lt_one _⟩ ⟨Real.neg_one_lt_tanh _, Real.tanh_lt_one _⟩, Real.artanh_tanh, Real.artanh_tanh]
      linarith
    linarith

/-- **C110**, the viscosity is not negative. -/
theorem viscosity_nonneg (s : Params) (b : TwoBody.State) (x : ℝ × ℝ) (ha : 0 ≤ s.alpha) (hm : 0 ≤ s.mach) : 0 ≤ viscosity s b x := by
  unfold viscosity
  refine mul_nonneg (cutoff_bounds _ _).1.le ?_
  split
  · rename_i h
    exact h.le
  · positivity

theorem circular_deriv {W : ℝ → ℝ} {W' x y r : ℝ} (hr : r = Real.sqrt (x ^ 2 + y ^ 2)) (h0 : 0 < r) (hW : HasDerivAt W W' r) :
    HasDerivAt (fun t => (circular W t y).1) (-(W' * (x / r) * y)) x ∧ HasDerivAt (fun t => (circular W t y).2) (W' * (x / r) * x + W r) x ∧
    HasDerivAt (fun t => (circular W x t).1) (-(W' * (y / r) * y + W r)) y ∧ HasDerivAt (fun t => (circular W x t).2) (W' * (y / r) * x) y := by
  have hne : x ^ 2 + y ^ 2 ≠ 0 := by
    intro h
    rw [h, Real.sqrt_zero] at hr
    exact h0.ne' hr
  have hx : HasDerivAt (fun t => Real.sqrt (t ^ 2 + y ^ 2)) (x / r) x := by
    have : HasDerivAt (fun t : ℝ => t ^ 2 + y ^ 2) (2 * x) x := by
      simpa using ((hasDerivAt_id x).pow 2).add_const (y ^ 2)
    refine (this.sqrt hne).congr_deriv ?_
    rw [← hr]
    field_simp
  have hy : HasDerivAt (fun t => Real.sqrt (x ^ 2 + t ^ 2)) (y / r) y := by
    have : HasDerivAt (fun t : ℝ => x ^ 2 + t ^ 2) (2 * y) y := by
      simpa using ((hasDerivAt_id y).pow 2).const_add (x ^ 2)
    refine (this.sqrt hne).congr_deriv ?_
    rw [← hr]
    field_simp
  have hWx : HasDerivAt (fun t => W (Real.sqrt (t ^ 2 + y ^ 2))) (W' * (x / r)) x := by
    rw [hr] at hW
    have := hW.comp x (hr ▸ hx)
    rw [hr]
    exact this
  have hWy : HasDerivAt (fun t => W (Real.sqrt (x ^ 2 + t ^ 2))) (W' * (y / r)) y := by
    rw [hr] at hW
    have := hW.comp y (hr ▸ hy)
    rw [hr]
    exact this
  refine ⟨(hWx.mul_const y).neg, ?_, ?_, hWy.mul_const x⟩
  · refine (hWx.mul (hasDerivAt_id x)).congr_deriv ?_
    rw [← hr]
    simp
  · refine (hWy.mul (hasDerivAt_id y)).neg.congr_deriv ?_
    rw [← hr]
    simp

/-- **C110**, the torque on a disk: where gas goes round in circles with the angular velocity `W`, on both sides of a face with the same derivatives, the fluxes
across the axes carry no mass outwards, and carry outwards angular momentum as viscosity demands: the stress `- nu sigma r W'` times the radius. -/
theorem disk_torque {s : Params} {b : TwoBody.State} (hP : Physical s b) (h sigma : ℝ) {W : ℝ → ℝ} {W' x y r : ℝ} (hr : r = Real.sqrt (x ^ 2 + y ^ 2)) (h0 : 0 < r)
    (hW : HasDerivAt W W' r) (g k : Tri)
    (g1 : HasDerivAt (fun t => (circular W t y).1) g.b x) (g2 : HasDerivAt (fun t => (circular W t y).2) g.c x)
    (k1 : HasDerivAt (fun t => (circular W x t).1) k.b y) (k2 : HasDerivAt (fun t => (circular W x t).2) k.c y)
    {pl pr ql qr : Tri} (hpl : pl + (h / 2) • g = ⟨sigma, (circular W x y).1, (circular W x y).2⟩) (hpr : pr - (h / 2) • g = ⟨sigma, (circular W x y).1, (circular W x y).2⟩)
    (hql : ql + (h / 2) • k = ⟨sigma, (circular W x y).1, (circular W x y).2⟩) (hqr : qr - (h / 2) • k = ⟨sigma, (circular W x y).1, (circular W x y).2⟩) :
    ∃ F H, intercellFluxU s 0 b h (x, y) (pl, pr) (g, g) (k, k) = .ok F ∧ intercellFluxU s 1 b h (x, y) (ql, qr) (k, k) (g, g) = .ok H ∧
      x / r * F.a + y / r * H.a = 0 ∧
      x / r * (x * F.c - y * F.b) + y / r * (x * H.c - y * H.b) = -(viscosity s b (x, y) * sigma * r ^ 2 * W') := by
  obtain ⟨d1, d2, d3, d4⟩ := circular_deriv hr h0 hW
  have e1 := g1.unique d1
  have e2 := g2.unique d2
  have e3 := k1.unique d3
  have e4 := k2.unique d4
  have hne : (x, y) ≠ ((0, 0) : ℝ × ℝ) := by
    intro e
    obtain ⟨rfl, rfl⟩ := Prod.mk.inj e
    rw [hr] at h0
    simp at h0
  have hr2 : r ^ 2 = x ^ 2 + y ^ 2 := by rw [hr, Real.sq_sqrt (by positivity)]
  obtain ⟨f1, f2⟩ := face_flux hP (x := (x, y)) (fun _ => hne) h ⟨sigma, (circular W x y).1, (circular W x y).2⟩ g g k k
    (G := !![g.b, g.c; k.b, k.c]) (by simp) (by simp) (by simp) (by simp)
  refine ⟨_, _, f1 pl pr hpl hpr, f2 ql qr hql hqr, ?_, ?_⟩
  · show x / r * (sigma * -(W _ * y)) + y / r * (sigma * (W _ * x)) = 0
    ring
  · have hstress : ∀ mu : ℝ, stress mu !![g.b, g.c; k.b, k.c] 0 0 = mu * (g.b - k.c) ∧ stress mu !![g.b, g.c; k.b, k.c] 0 1 = mu * (g.c + k.b) ∧
        stress mu !![g.b, g.c; k.b, k.c] 1 0 = mu * (g.c + k.b) ∧ stress mu !![g.b, g.c; k.b, k.c] 1 1 = mu * (k.c - g.b) := by
      intro mu
      refine ⟨?_, ?_, ?_, ?_⟩ <;> simp [stress, Matrix.trace, Fin.sum_univ_two, -mul_eq_mul_left_iff] <;> ring
    obtain ⟨s1, s2, s3, s4⟩ := hstress (viscosity s b (x, y) * sigma)
    dsimp only
    rw [s1, s2, s3, s4, e1, e2, e3, e4]
    have hw : Real.sqrt (x ^ 2 + y ^ 2) = r := hr.symm
    show x / r * (x * (sigma * -(W (Real.sqrt (x ^ 2 + y ^ 2)) * y) * (W (Real.sqrt (x ^ 2 + y ^ 2)) * x) - _) - y * (sigma * -(W (Real.sqrt (x ^ 2 + y ^ 2)) * y) * -(W (Real.sqrt (x ^ 2 + y ^ 2)) * y) + _ - _)) +
      y / r * (x * (sigma * (W (Real.sqrt (x ^ 2 + y ^ 2)) * x) * (W (Real.sqrt (x ^ 2 + y ^ 2)) * x) + _ - _) - y * (sigma * (W (Real.sqrt (x ^ 2 + y ^ 2)) * x) * -(W (Real.sqrt (x ^ 2 + y ^ 2)) * y) - _)) = _
    rw [hw]
    generalize viscosity s b (x, y) = nu
    generalize sound2 s b (x, y) = c
    generalize W r = w
    have hr0 := h0.ne'
    have key : x / r * (x * (sigma * -(w * y) * (w * x) - nu * sigma * (W' * (x / r) * x + w + -(W' * (y / r) * y + w))) -
        y * (sigma * -(w * y) * -(w * y) + sigma * c - nu * sigma * (-(W' * (x / r) * y) - W' * (y / r) * x))) +
      y / r * (x * (sigma * (w * x) * (w * x) + sigma * c - nu * sigma * (W' * (y / r) * x - -(W' * (x / r) * y))) -
        y * (sigma * (w * x) * -(w * y) - nu * sigma * (W' * (x / r) * x + w + -(W' * (y / r) * y + w)))) =
      -(nu * sigma * W' * ((x ^ 2 + y ^ 2) ^ 2 / r ^ 2)) := by
      field_simp
      ring
    rw [key, ← hr2]
    field_simp

theorem kepler_viscosity {s : Params} (b : TwoBody.State) (hax : s.axisymmetric = true) (hnu : s.nu ≤ 0) (hcut : s.alphaCutoff ≤ 0) (hm : 0 < s.mach)
    (sigma : ℝ) {x y r : ℝ} (hr : r = Real.sqrt (x ^ 2 + y ^ 2)) (h0 : 0 < r) :
    -(viscosity s b (x, y) * sigma * r ^ 2 * (-(3 / 2) * r ^ (-(5 / 2) : ℝ))) = 3 / 2 * s.alpha * sigma / s.mach ^ 2 := by
  unfold viscosity sound2 cutoff
  dsimp only
  rw [if_neg (not_lt.2 hcut), if_neg (not_lt.2 hnu), hax, if_pos rfl, ← hr, Real.sqrt_div (by positivity), Real.sqrt_sq hm.le, Real.sqrt_div zero_le_one, Real.sqrt_one]
  have e1 : r ^ 2 * r ^ (-(5 / 2) : ℝ) = 1 / Real.sqrt r := by
    rw [Real.sqrt_eq_rpow, one_div, ← Real.rpow_neg h0.le, ← Real.rpow_natCast, ← Real.rpow_add h0]
    norm_num
  have hs := Real.sqrt_pos.2 h0
  calc _ = 3 / 2 * sigma * s.alpha / s.mach ^ 2 * (1 / Real.sqrt r) * r * (r ^ 2 * r ^ (-(5 / 2) : ℝ)) := by field_simp
    _ = 3 / 2 * sigma * s.alpha / s.mach ^ 2 * (1 / Real.sqrt r) * r * (1 / Real.sqrt r) := by rw [e1]
    _ = 3 / 2 * sigma * s.alpha / s.mach ^ 2 * (r / (Real.sqrt r * Real.sqrt r)) := by field_simp
    _ = _ := by
      rw [Real.mul_self_sqrt h0.le, div_self h0.ne']
      ring

/-- **C110**, a disk around a unit mass with the `alpha` viscosity and no cutoff: the angular momentum carried outwards is `3/2 alpha sigma / M^2` at all radii. -/
theorem alpha_torque {s : Params} {b : TwoBody.State} (hP : Physical s b) (hax : s.axisymmetric = true) (hnu : s.nu ≤ 0) (hcut : s.alphaCutoff ≤ 0) (hm : 0 < s.mach)
    (h sigma : ℝ) {x y r : ℝ} (hr : r = Real.sqrt (x ^ 2 + y ^ 2)) (h0 : 0 < r) {W : ℝ → ℝ} (hK : W = fun t => t ^ (-(3 / 2) : ℝ)) (g k : Tri)
    (g1 : HasDerivAt (fun t => (circular W t y).1) g.b x) (g2 : HasDerivAt (fun t => (circular W t y).2) g.c x)
    (k1 : HasDerivAt (fun t => (circular W x t).1) k.b y) (k2 : HasDerivAt (fun t => (circular W x t).2) k.c y)
    {pl pr ql qr : Tri} (hpl : pl + (h / 2) • g = ⟨sigma, (circular W x y).1, (circular W x y).2⟩) (hpr : pr - (h / 2) • g = ⟨sigma, (circular W x y).1, (circular W x y).2⟩)
    (hql : ql + (h / 2) • k = ⟨sigma, (circular W x y).1, (circular W x y).2⟩) (hqr : qr - (h / 2) • k = ⟨sigma, (circular W x y).1, (circular W x y).2⟩) :
    ∃ F H, intercellFluxU s 0 b h (x, y) (pl, pr) (g, g) (k, k) = .ok F ∧ intercellFluxU s 1 b h (x, y) (ql, qr) (k, k) (g, g) = .ok H ∧
      x / r * F.a + y / r * H.a = 0 ∧ x / r * (x * F.c - y * F.b) + y / r * (x * H.c - y * H.b) = 3 / 2 * s.alpha * sigma / s.mach ^ 2 := by
  have hW : HasDerivAt W (-(3 / 2) * r ^ (-(5 / 2) : ℝ)) r := by
    rw [hK]
    refine (Real.hasDerivAt_rpow_const (.inl h0.ne')).congr_deriv ?_
    norm_num
  obtain ⟨F, H, h1, h2, h3, h4⟩ := disk_torque hP h sigma hr h0 hW g k g1 g2 k1 k2 hpl hpr hql hqr
  exact ⟨F, H, h1, h2, h3, by rw [h4, kepler_viscosity b hax hnu hcut hm sigma hr h0]⟩

/-- Non-vacuity: gas on a Kepler orbit through the point (3, 4), with cells of size one. -/
example : ∃ F H, ∃ pl pr ql qr g k, intercellFluxU { exParams with axisymmetric := true } 0 ⟨⟨1, 0, 0, 0, 0⟩, ⟨1, 0, 0, 0, 0⟩⟩ 1 (3, 4) (pl, pr) (g, g) (k, k) = .ok F ∧
    intercellFluxU { exParams with axisymmetric := true } 1 ⟨⟨1, 0, 0, 0, 0⟩, ⟨1, 0, 0, 0, 0⟩⟩ 1 (3, 4) (ql, qr) (k, k) (g, g) = .ok H ∧ pl ≠ pr ∧
    3 / 5 * (3 * F.c - 4 * F.b) + 4 / 5 * (3 * H.c - 4 * H.b) = 3 / 1000 := by
  have hr : (5 : ℝ) = Real.sqrt (3 ^ 2 + 4 ^ 2) := by
    rw [show (3 : ℝ) ^ 2 + 4 ^ 2 = 5 ^ 2 by norm_num, Real.sqrt_sq (by norm_num)]
  have hW : HasDerivAt (fun t : ℝ => t ^ (-(3 / 2) : ℝ)) (-(3 / 2) * 5 ^ (-(5 / 2) : ℝ)) 5 := by
    refine (Real.hasDerivAt_rpow_const (.inl (by norm_num))).congr_deriv ?_
    norm_num
  obtain ⟨d1, d2, d3, d4⟩ := circular_deriv hr (by norm_num) hW
  generalize e1 : -(-(3 / 2) * (5 : ℝ) ^ (-(5 / 2) : ℝ) * (3 / 5) * 4) = a1 at d1
  generalize -(3 / 2) * (5 : ℝ) ^ (-(5 / 2) : ℝ) * (3 / 5) * 3 + (5 : ℝ) ^ (-(3 / 2) : ℝ) = a2 at d2
  generalize -(-(3 / 2) * (5 : ℝ) ^ (-(5 / 2) : ℝ) * (4 / 5) * 4 + (5 : ℝ) ^ (-(3 / 2) : ℝ)) = a3 at d3
  generalize -(3 / 2) * (5 : ℝ) ^ (-(5 / 2) : ℝ) * (4 / 5) * 3 = a4 at d4
  set P : Tri := ⟨2, (circular (fun t : ℝ => t ^ (-(3 / 2) : ℝ)) 3 4).1, (circular (fun t : ℝ => t ^ (-(3 / 2) : ℝ)) 3 4).2⟩ with hPd
  obtain ⟨F, H, h1, h2, _, h4⟩ := alpha_torque (s := { exParams with axisymmetric := true }) (b := ⟨⟨1, 0, 0, 0, 0⟩, ⟨1, 0, 0, 0, 0⟩⟩)
    ⟨by norm_num [exParams], by norm_num [exParams], by norm_num, by norm_num⟩ rfl (by norm_num [exParams]) (by norm_num [exParams]) (by norm_num [exParams]) 1 2 hr (by norm_num)
    rfl ⟨0, a1, a2⟩ ⟨0, a3, a4⟩ d1 d2 d3 d4 (pl := P - ((1 : ℝ) / 2) • (⟨0, a1, a2⟩ : Tri)) (pr := P + ((1 : ℝ) / 2) • (⟨0, a1, a2⟩ : Tri))
    (ql := P - ((1 : ℝ) / 2) • (⟨0, a3, a4⟩ : Tri)) (qr := P + ((1 : ℝ) / 2) • (⟨0, a3, a4⟩ : Tri))
    (sub_add_cancel _ _) (add_sub_cancel_right _ _) (sub_add_cancel _ _) (add_sub_cancel_right _ _)
  refine ⟨F, H, _, _, _, _, _, _, h1, h2, fun e => ?_, ?_⟩
  · have hb := congrArg Tri.b e
    have hb : P.b - a1 * (1 / 2) = P.b + a1 * (1 / 2) := hb
    have : (0 : ℝ) < a1 := by
      rw [← e1]
      have : (0 : ℝ) < (5 : ℝ) ^ (-(5 / 2) : ℝ) := by positivity
      linarith
    linarith
  · rw [h4]
    norm_num [exParams]

example : 0 ≤ viscosity exParams ⟨⟨1, 0, 0, 0, 0⟩, ⟨1, 3, 0, 0, 0⟩⟩ (3, 4) := viscosity_nonneg _ _ _ (by norm_num [exParams]) (by norm_num [exParams])

example : cutoff 2 2 = 1 / 2 ∧ cutoff 2 1 < 1 / 2 ∧ 1 / 2 < cutoff 2 3 := by
  obtain ⟨_, h1, h2⟩ := cutoff_shape
  have h := h1 2 (by norm_num)
  exact ⟨h, h ▸ h2 2 (by norm_num) (show (1 : ℝ) < 2 by norm_num), h ▸ h2 2 (by norm_num) (show (2 : ℝ) < 3 by norm_num)⟩

end Verif.Binary
