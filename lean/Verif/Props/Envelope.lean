import Verif.Lemmas.Secant
import Verif.Props.Atmosphere
import Mathlib.MeasureTheory.Function.Jacobian
import Mathlib.Analysis.SpecialFunctions.Pow.Deriv
import Mathlib.Analysis.SpecialFunctions.Sqrt

/-!
# C101: the expanding cloud and envelope
-/

namespace Verif.Envelope

open Verif Real Set MeasureTheory

/-- Parameters for which there is an envelope around the cloud. -/
structure Model.Sensible (e : Model) : Prop where
  u1 : 0 < e.u1
  m1 : 0 < e.m1
  psi : 0 < e.psi
  psi' : e.psi ≤ 1 / 2
  mass : e.m1 ≤ e.envelopMass
  r0 : 0 < e.innerRadius

/-- What the program makes of its configuration is such. -/
example : (Model.make (3 * 10 ^ 8) 2).Sensible := by
  constructor <;> norm_num [Model.make, solarMass]

/-- The envelope has five thousandths of the mass of the sun, 1.989e33 grams; light goes 2.998e10 centimetres in a second. -/
example (r a : ℝ) : (Model.make r a).envelopMass = 9945000000000000000000000000000 ∧ solarMass / 1000 = 1989000000000000000000000000000 ∧
    lightSpeed = 29980000000 ∧ (Model.make r a).m1 = 100000000000000000000000000 := by
  norm_num [Model.make, solarMass, lightSpeed]

theorem lightSpeed_pos : 0 < lightSpeed := by
  unfold lightSpeed
  norm_num

section
variable {e : Model}

private noncomputable abbrev U (e : Model) (m : ℝ) : ℝ := e.u1 * (m / e.m1) ^ (-e.psi)

private noncomputable abbrev V (e : Model) (m : ℝ) : ℝ := U e m / √(1 + U e m * U e m) * lightSpeed

theorem U_pos (h : e.Sensible) {m : ℝ} (hm : 0 < m) : 0 < U e m := mul_pos h.u1 (rpow_pos_of_pos (div_pos hm h.m1) _)

theorem gammaBeta_ok (h : e.Sensible) {m : ℝ} (hm : 0 < m) : e.gammaBeta m = .ok (U e m) := by
  unfold Model.gammaBeta
  rw [Atmosphere.div_pos_ok h.m1, Outcome.bind_ok, Atmosphere.pow_ok (div_pos hm h.m1), Outcome.map_ok]

theorem velocity_ok (h : e.Sensible) {m : ℝ} (hm : 0 < m) : e.velocity m = .ok (V e m) := by
  unfold Model.velocity
  rw [gammaBeta_ok h hm, Outcome.map_ok]

theorem radius_ok (h : e.Sensible) {m : ℝ} (hm : 0 < m) (t : ℝ) : e.radius m t = .ok (V e m * t) := by
  unfold Model.radius
  rw [velocity_ok h hm, Outcome.map_ok]

theorem V_pos (h : e.Sensible) {m : ℝ} (hm : 0 < m) : 0 < V e m := by
  have := U_pos h hm
  have := lightSpeed_pos
  have : 0 < √(1 + U e m * U e m) := sqrt_pos.2 (by positivity)
  unfold V
  positivity

theorem V_lt (m : ℝ) : V e m < lightSpeed := by
  have h1 : 0 < √(1 + U e m * U e m) := sqrt_pos.2 (by nlinarith [mul_self_nonneg (U e m)])
  have h2 : U e m < √(1 + U e m * U e m) := lt_sqrt_of_sq_lt (by nlinarith)
  have h3 : U e m / √(1 + U e m * U e m) < 1 := by rwa [div_lt_one h1]
  have := lightSpeed_pos
  unfold V
  nlinarith

theorem U_deriv (h : e.Sensible) {m : ℝ} (hm : 0 < m) : HasDerivAt (U e) (-e.psi / m * U e m) m := by
  have hm1 := h.m1
  have hx : 0 < m / e.m1 := div_pos hm hm1
  have h1 : HasDerivAt (fun m => m / e.m1) (1 / e.m1) m := (hasDerivAt_id m).div_const _
  have h2 := (h1.rpow_const (p := -e.psi) (Or.inl hx.ne')).const_mul e.u1
  refine h2.congr_deriv ?_
  rw [rpow_sub_one hx.ne']
  unfold U
  field_simp

theorem V_deriv (h : e.Sensible) {m : ℝ} (hm : 0 < m) :
    HasDerivAt (V e) (-(e.psi / m * (V e m / (1 + U e m * U e m)))) m := by
  have hU := U_deriv h hm
  have hpos : 0 < 1 + U e m * U e m := by nlinarith [mul_self_nonneg (U e m)]
  have hs := sqrt_pos.2 hpos
  have h1 : HasDerivAt (fun m => 1 + U e m * U e m) (-e.psi / m * U e m * U e m + U e m * (-e.psi / m * U e m)) m :=
    (hU.mul hU).const_add 1
  have h2 := (hU.div (h1.sqrt hpos.ne') hs.ne').mul_const lightSpeed
  refine h2.congr_deriv ?_
  have e1 : √(1 + U e m * U e m) ^ 2 = 1 + U e m * U e m := sq_sqrt hpos.le
  unfold V
  have hs' := hs.ne'
  have hp' := hpos.ne'
  generalize hS : √(1 + U e m * U e m) = S at e1 hs hs' ⊢
  rw [← e1]
  field_simp
  rw [e1]
  ring

theorem V_anti (h : e.Sensible) {a b : ℝ} (ha : 0 < a) (hab : a < b) : V e b < V e a := by
  have key : StrictAntiOn (V e) (Ioi 0) := by
    refine strictAntiOn_of_deriv_neg (convex_Ioi 0) (fun m hm => (V_deriv h hm).continuousAt.continuousWithinAt) ?_
    intro m hm
    rw [interior_Ioi] at hm
    have hm : 0 < m := hm
    rw [(V_deriv h hm).deriv]
    have h1 := V_pos h hm
    have h2 := h.psi
    have h3 : 0 < 1 + U e m * U e m := by nlinarith [mul_self_nonneg (U e m)]
    have : 0 < e.psi / m * (V e m / (1 + U e m * U e m)) := by positivity
    linarith
  exact key ha (ha.trans hab) hab

/-- **C101, ordering.** Shells do not cross: at all times a shell with more mass outside of it is further in, and no shell is faster than light. -/
theorem shells_ordered (h : e.Sensible) {a b t : ℝ} (ha : 0 < a) (hab : a < b) (ht : 0 < t) :
    ∃ ra rb, e.radius a t = .ok ra ∧ e.radius b t = .ok rb ∧ 0 < rb ∧ rb < ra ∧ ra < lightSpeed * t :=
  ⟨_, _, radius_ok h ha t, radius_ok h (ha.trans hab) t, mul_pos (V_pos h (ha.trans hab)) ht,
    mul_lt_mul_of_pos_right (V_anti h ha hab) ht, mul_lt_mul_of_pos_right (V_lt a) ht⟩

theorem density_ok (h : e.Sensible) {m t : ℝ} (hm : 0 < m) (ht : 0 < t) :
    e.density m t = .ok ((1 + U e m ^ 2) * (V e m / lightSpeed) / (4 * π * (V e m * t) ^ 3) / |-e.psi / m * U e m|) := by
  have hU := U_pos h hm
  have hV := V_pos h hm
  have hpsi := h.psi
  unfold Model.density Model.dudm
  rw [gammaBeta_ok h hm, velocity_ok h hm, radius_ok h hm, Atmosphere.div_pos_ok hm]
  simp only [Outcome.bind_ok, Outcome.map_ok]
  rw [if_neg]
  rintro (h1 | h1)
  · exact (mul_pos hV ht).ne' h1
  · have : 0 < e.psi / m * U e m := by positivity
    rw [neg_div, neg_mul, neg_eq_zero] at h1
    exact this.ne' h1

theorem density_pos (h : e.Sensible) {m t : ℝ} (hm : 0 < m) (ht : 0 < t) : ∃ d, e.density m t = .ok d ∧ 0 < d := by
  have hU := U_pos h hm
  have hV := V_pos h hm
  have hpsi := h.psi
  have hc := lightSpeed_pos
  refine ⟨_, density_ok h hm ht, ?_⟩
  have : 0 < |-e.psi / m * U e m| := by
    rw [abs_pos, neg_div, neg_mul, neg_ne_zero]
    exact (mul_pos (div_pos hpsi hm) hU).ne'
  have hpi := pi_pos
  positivity

/-- **C101, mass.** The shells carry the mass that is named after them: gas whose comoving density is that of the shells, and whose density at rest is greater
by the Lorentz factor, has between two shells the difference of their mass coordinates. -/
theorem shells_mass (h : e.Sensible) {t : ℝ} (ht : 0 < t) : ∃ R ρ u : ℝ → ℝ,
    (∀ m, 0 < m → e.radius m t = .ok (R m) ∧ e.density m t = .ok (ρ m) ∧ e.gammaBeta m = .ok (u m)) ∧
    ∀ (D : ℝ → ℝ) (a b : ℝ), 0 < a → a ≤ b → (∀ m ∈ Icc a b, D (R m) = √(1 + u m ^ 2) * ρ m) →
      ∫ r in R b..R a, 4 * π * r ^ 2 * D r = b - a := by
  refine ⟨_, _, _, fun m hm => ⟨radius_ok h hm t, density_ok h hm ht, gammaBeta_ok h hm⟩, ?_⟩
  intro D a b ha hab hD
  set R : ℝ → ℝ := fun m => V e m * t with hR
  have hanti : ∀ x y, 0 < x → x < y → R y < R x := fun x y hx hxy => mul_lt_mul_of_pos_right (V_anti h hx hxy) ht
  have hderiv : ∀ m, 0 < m → HasDerivAt R (-(e.psi / m * (V e m / (1 + U e m * U e m))) * t) m := fun m hm => (V_deriv h hm).mul_const t
  have hle : R b ≤ R a := by
    rcases hab.eq_or_lt with rfl | hab
    · exact le_rfl
    · exact (hanti a b ha hab).le
  have himg : R '' Icc a b = Icc (R b) (R a) := by
    apply Subset.antisymm
    · rintro _ ⟨m, hm, rfl⟩
      have hm0 : 0 < m := ha.trans_le hm.1
      constructor
      · rcases hm.2.eq_or_lt with rfl | h1
        · exact le_rfl
        · exact (hanti m b hm0 h1).le
      · rcases hm.1.eq_or_lt with rfl | h1
        · exact le_rfl
        · exact (hanti a m ha h1).le
    · exact intermediate_value_Icc' hab fun m hm => (hderiv m (ha.trans_le hm.1)).continuousAt.continuousWithinAt
  have hinj : InjOn R (Icc a b) := by
    intro x hx y hy hxy
    by_contra hne
    rcases lt_or_gt_of_ne hne with h1 | h1
    · exact absurd hxy (hanti x y (ha.trans_le hx.1) h1).ne'
    · exact absurd hxy (hanti y x (ha.trans_le hy.1) h1).ne
  have hsub := integral_image_eq_integral_abs_deriv_smul measurableSet_Icc
    (fun m hm => (hderiv m (ha.trans_le hm.1)).hasDerivWithinAt) hinj (fun r => 4 * π * r ^ 2 * D r)
  rw [himg] at hsub
  rw [intervalIntegral.integral_of_le hle, ← integral_Icc_eq_integral_Ioc]
  refine hsub.trans ?_
  have hone : ∀ m ∈ Icc a b, |-(e.psi / m * (V e m / (1 + U e m * U e m))) * t| • (4 * π * R m ^ 2 * D (R m)) = 1 := by
    intro m hm
    have hm0 : 0 < m := ha.trans_le hm.1
    have hU := U_pos h hm0
    have hV := V_pos h hm0
    have hpsi := h.psi
    have hc := lightSpeed_pos
    have hpi := pi_pos
    have hpos : 0 < 1 + U e m * U e m := by positivity
    have hs := sqrt_pos.2 hpos
    have e1 : √(1 + U e m * U e m) ^ 2 = 1 + U e m * U e m := sq_sqrt hpos.le
    have hVU : V e m * √(1 + U e m * U e m) = U e m * lightSpeed := by
      unfold V
      field_simp
    rw [hD m hm, neg_mul, abs_neg, abs_of_pos (by positivity), neg_div, neg_mul, abs_neg, abs_of_pos (by positivity), smul_eq_mul]
    rw [show U e m ^ 2 = U e m * U e m by ring]
    show _ * (4 * π * (V e m * t) ^ 2 * _) = _
    generalize V e m = v at hV hVU ⊢
    generalize √(1 + U e m * U e m) = s at e1 hs hVU ⊢
    rw [← e1]
    generalize U e m = w at hU hVU ⊢
    field_simp
    linear_combination hVU
  rw [setIntegral_congr_fun measurableSet_Icc hone]
  simp [hab]

/-! ### The mass coordinate of a radius -/

theorem root_exists (h : e.Sensible) {r t : ℝ} (ht : 0 < t) (hr : 0 < r) (h1 : r ≤ V e e.m1 * t) :
    ∃ a, e.m1 ≤ a ∧ V e a * t = r := by
  have hc := lightSpeed_pos
  have hm1 := h.m1
  have hpsi := h.psi
  have hu1 := h.u1
  set b := r / (lightSpeed * t) with hb
  have hb0 : 0 < b := by positivity
  have hb1 : b < 1 := by
    rw [hb, div_lt_one (by positivity)]
    have := mul_lt_mul_of_pos_right (V_lt (e := e) e.m1) ht
    linarith
  have hpos : 0 < 1 - b ^ 2 := by nlinarith
  have hs := sqrt_pos.2 hpos
  have hs2 : √(1 - b ^ 2) ^ 2 = 1 - b ^ 2 := sq_sqrt hpos.le
  set w := b / √(1 - b ^ 2) with hw
  have hw0 : 0 < w := by positivity
  set a := e.m1 * (w / e.u1) ^ (-(1 / e.psi)) with ha
  have hq : 0 < w / e.u1 := by positivity
  have ha0 : 0 < a := mul_pos hm1 (rpow_pos_of_pos hq _)
  have hUa : U e a = w := by
    unfold U
    rw [ha, mul_div_cancel_left₀ _ hm1.ne', ← rpow_mul hq.le, show -(1 / e.psi) * -e.psi = 1 by field_simp, rpow_one]
    field_simp
  have hVa : V e a * t = r := by
    have e1 : √(1 + w * w) = 1 / √(1 - b ^ 2) := by
      rw [show 1 + w * w = (1 / √(1 - b ^ 2)) ^ 2 by
        rw [hw]
        field_simp
        linear_combination hs2, sqrt_sq (by positivity)]
    unfold V
    rw [hUa, e1, hw]
    have e2 : b * (lightSpeed * t) = r := by
      rw [hb]
      field_simp
    generalize √(1 - b ^ 2) = s at hs
    rw [← e2]
    field_simp
  refine ⟨a, ?_, hVa⟩
  by_contra hlt
  rw [not_le] at hlt
  have := mul_lt_mul_of_pos_right (V_anti h ha0 hlt) ht
  linarith

theorem bent (h : e.Sensible) {r t a : ℝ} (ht : 0 < t) (hr : 0 < r) (ha : 0 < a) (hroot : V e a * t = r) :
    Bent (fun m => (log10 r).bind fun a => (e.radius m t).bind fun x => (log10 x).map fun b => a - b)
      (fun m => logb 10 r - logb 10 (V e m * t)) (fun m => e.psi / (log 10 * (m * (1 + U e m * U e m)))) a := by
  have hlog : 0 < log 10 := log_pos (by norm_num)
  have hpsi := h.psi
  have hanti : ∀ x y, 0 < x → x ≤ y → U e y ≤ U e x := by
    intro x y hx hxy
    refine mul_le_mul_of_nonneg_left ?_ h.u1.le
    exact rpow_le_rpow_of_nonpos (div_pos hx h.m1) (div_le_div_of_nonneg_right hxy h.m1.le) (by linarith)
  refine ⟨fun m hm => ?_, fun m hm => ?_, fun m hm => ?_, fun x y hx hxy => ?_, fun x y hx hxy => ?_, ha, ?_⟩
  · have := mul_pos (V_pos h hm) ht
    simp only [log10]
    rw [if_neg (not_le.2 hr), Outcome.bind_ok, radius_ok h hm, Outcome.bind_ok, if_neg (not_le.2 this), Outcome.map_ok]
  · have hV := V_pos h hm
    have h1 := (((V_deriv h hm).mul_const t).log (mul_pos hV ht).ne').div_const (log 10)
    have h2 := h1.const_sub (logb 10 r)
    refine h2.congr_deriv ?_
    have : 0 < 1 + U e m * U e m := by nlinarith [mul_self_nonneg (U e m)]
    generalize V e m = v at hV
    generalize U e m = w at this
    field_simp
  · have := U_pos h hm
    positivity
  · have h1 := U_pos h hx
    have hy := hx.trans_le hxy
    have h2 := U_pos h hy
    beta_reduce
    refine div_le_div_of_nonneg_left hpsi.le (by positivity) (mul_le_mul_of_nonneg_left ?_ hlog.le)
    have key : ∀ m, 0 < m → m * (U e m * U e m) = e.u1 ^ 2 * e.m1 * (m / e.m1) ^ (1 - 2 * e.psi) := by
      intro m hm
      have hx := div_pos hm h.m1
      unfold U
      rw [sub_eq_add_neg, rpow_add hx, rpow_one, show -(2 * e.psi) = -e.psi + -e.psi by ring, rpow_add hx]
      have := h.m1
      field_simp
    have h3 : x * (U e x * U e x) ≤ y * (U e y * U e y) := by
      rw [key x hx, key y hy]
      have hm1 := h.m1
      have hu1 := h.u1
      refine mul_le_mul_of_nonneg_left ?_ (by positivity)
      exact rpow_le_rpow (div_pos hx hm1).le (div_le_div_of_nonneg_right hxy hm1.le) (by linarith [h.psi'])
    linarith
  · have h1 := U_pos h hx
    have hy := hx.trans_le hxy
    have h2 := U_pos h hy
    have h3 := hanti x y hx hxy
    beta_reduce
    have e1 : ∀ m, 0 < m → m * (e.psi / (log 10 * (m * (1 + U e m * U e m)))) = e.psi / (log 10 * (1 + U e m * U e m)) := by
      intro m hm
      have := U_pos h hm
      field_simp
    rw [e1 x hx, e1 y hy]
    refine div_le_div_of_nonneg_left hpsi.le (by positivity) (mul_le_mul_of_nonneg_left ?_ hlog.le)
    nlinarith
  · beta_reduce
    rw [hroot, sub_self]

/-- **C101, location.** The search for the shell at a radius ends for every radius up to the outer boundary, and the shell it finds is at this radius (to ten digits). -/
theorem shell_located (h : e.Sensible) {r t : ℝ} (ht : 0 < t) (hr : 0 < r) {r1 : ℝ} (h1 : e.envelopBoundary t = .ok r1) (h2 : r ≤ r1) :
    ∃ m x, e.massCoordinate r t = .ok m ∧ 0 < m ∧ e.radius m t = .ok x ∧ |logb 10 r - logb 10 x| ≤ 1 / 10 ^ 10 := by
  unfold Model.envelopBoundary at h1
  rw [radius_ok h h.m1] at h1
  cases h1
  obtain ⟨a, ha, hroot⟩ := root_exists h ht hr h2
  obtain ⟨m, hm, h3, h4⟩ := (bent h ht hr (h.m1.trans_le ha) hroot).solves (tol := 1 / 10 ^ 10) (by norm_num) h.m1 ha
  exact ⟨m, _, h3, hm, radius_ok h hm t, h4⟩

/-! ### Density and velocity at a radius -/

theorem boundaries (h : e.Sensible) {t : ℝ} (ht : 0 < t) :
    ∃ rc r1, e.cloudBoundary t = .ok rc ∧ e.envelopBoundary t = .ok r1 ∧ 0 < rc ∧ rc ≤ r1 ∧ r1 < lightSpeed * t := by
  have hM := h.m1.trans_le h.mass
  refine ⟨V e e.envelopMass * t, V e e.m1 * t, ?_, radius_ok h h.m1 t, mul_pos (V_pos h hM) ht, ?_, mul_lt_mul_of_pos_right (V_lt _) ht⟩
  · unfold Model.cloudBoundary
    rw [velocity_ok h hM, Outcome.map_ok]
  · rcases h.mass.eq_or_lt with h1 | h1
    · rw [h1]
    · exact (mul_lt_mul_of_pos_right (V_anti h h.m1 h1) ht).le

/-- **C101, density.** The density at a radius has everywhere a value; in the envelope it is that of a shell at this radius (to ten digits), inside it is continued by
the power law of the cloud, outside by the one of a wind. -/
theorem density_at (h : e.Sensible) {t : ℝ} (ht : 0 < t) {rc r1 : ℝ} (hc : e.cloudBoundary t = .ok rc) (h1 : e.envelopBoundary t = .ok r1) :
    (∀ r, rc ≤ r → r ≤ r1 → ∃ m x d, e.radius m t = .ok x ∧ |logb 10 r - logb 10 x| ≤ 1 / 10 ^ 10 ∧ e.density m t = .ok d ∧
      0 < d ∧ e.densityAt r t = .ok d) ∧
    (∀ r, 0 < r → r ≤ rc → ∃ d, e.densityAt rc t = .ok d ∧ 0 < d ∧ e.densityAt r t = .ok (d * (r / rc) ^ (-e.cloudIndex))) ∧
    (∀ r, r1 ≤ r → ∃ d, e.densityAt r1 t = .ok d ∧ 0 < d ∧ e.densityAt r t = .ok (d * (r1 / r) ^ 2)) := by
  obtain ⟨_, _, hc', h1', p1, p2, p3⟩ := boundaries h ht
  rw [hc] at hc'
  rw [h1] at h1'
  cases hc'
  cases h1'
  have hmid : ∀ r, rc ≤ r → r ≤ r1 → ∃ m x d, e.radius m t = .ok x ∧ |logb 10 r - logb 10 x| ≤ 1 / 10 ^ 10 ∧ e.density m t = .ok d ∧
      0 < d ∧ ((e.massCoordinate r t).bind fun m => e.density m t) = .ok d := by
    intro r hr hr1
    obtain ⟨m, x, g1, g2, g3, g4⟩ := shell_located h ht (p1.trans_le hr) h1 hr1
    obtain ⟨d, g5, g6⟩ := density_pos h g2 ht
    exact ⟨m, x, d, g3, g4, g5, g6, by rw [g1, Outcome.bind_ok, g5]⟩
  have hin : ∀ r, rc ≤ r → r ≤ r1 → e.densityAt r t = (e.massCoordinate r t).bind fun m => e.density m t := by
    intro r hr hr1
    unfold Model.densityAt
    rw [h1, hc, Outcome.bind_ok, Outcome.bind_ok]
    dsimp only
    rw [if_neg (not_lt.2 hr), if_neg (not_lt.2 hr1)]
  refine ⟨fun r hr hr1 => ?_, fun r hr hrc => ?_, fun r hr => ?_⟩
  · rw [hin r hr hr1]
    exact hmid r hr hr1
  · obtain ⟨m, x, d, -, -, -, g4, g5⟩ := hmid rc le_rfl p2
    refine ⟨d, by rw [hin rc le_rfl p2, g5], g4, ?_⟩
    rcases hrc.eq_or_lt with rfl | hrc
    · rw [hin _ le_rfl p2, g5, div_self hr.ne', one_rpow, mul_one]
    · unfold Model.densityAt
      rw [h1, hc, Outcome.bind_ok, Outcome.bind_ok]
      dsimp only
      rw [if_pos hrc, if_neg (not_lt.2 p2), g5, Outcome.bind_ok, Atmosphere.div_pos_ok p1, Outcome.bind_ok, Atmosphere.pow_ok (div_pos hr p1),
        Outcome.map_ok]
  · obtain ⟨m, x, d, -, -, -, g4, g5⟩ := hmid r1 p2 le_rfl
    have hr1 : 0 < r1 := p1.trans_le p2
    refine ⟨d, by rw [hin r1 p2 le_rfl, g5], g4, ?_⟩
    rcases hr.eq_or_lt with rfl | hr
    · rw [hin _ p2 le_rfl, g5, div_self hr1.ne', one_pow, mul_one]
    · unfold Model.densityAt
      rw [h1, hc, Outcome.bind_ok, Outcome.bind_ok]
      dsimp only
      rw [if_neg (not_lt.2 (p2.trans hr.le)), if_pos hr, if_neg (not_lt.2 p2), g5, Outcome.bind_ok, Atmosphere.div_pos_ok hr1, Outcome.bind_ok,
        Atmosphere.pow_ok (div_pos (hr1.trans hr) hr1), Outcome.map_ok]
      congr 2
      rw [rpow_neg (div_pos (hr1.trans hr) hr1).le, show (2 : ℝ) = ((2 : ℕ) : ℝ) by norm_num, rpow_natCast, ← inv_pow, inv_div]

/-- **C101, velocity.** The flow is homologous: in the envelope the velocity at a radius is the radius over the time (to ten digits), the cloud moves with the speed of its boundary, and
no gas is faster than light. -/
theorem velocity_at (h : e.Sensible) {t : ℝ} (ht : 0 < t) {rc r1 : ℝ} (hc : e.cloudBoundary t = .ok rc) (h1 : e.envelopBoundary t = .ok r1) {r : ℝ}
    (hr : 0 < r) : ∃ v, e.velocityAt r t = .ok v ∧ 0 < v ∧ v < lightSpeed ∧ (r < rc → v * t = rc) ∧
      (rc ≤ r → r ≤ r1 → |logb 10 r - logb 10 (v * t)| ≤ 1 / 10 ^ 10) ∧ (r1 < r → |logb 10 r1 - logb 10 (v * t)| ≤ 1 / 10 ^ 10) := by
  have hM := h.m1.trans_le h.mass
  have hcl := lightSpeed_pos
  obtain ⟨_, _, hc', h1', p1, p2, p3⟩ := boundaries h ht
  rw [hc] at hc'
  rw [h1] at h1'
  cases hc'
  cases h1'
  have hmid : ∀ r, 0 < r → r ≤ r1 → ∃ v, ((e.massCoordinate r t).bind e.gammaBeta).map (fun u => u / √(1 + u * u) * lightSpeed) = .ok v ∧ 0 < v ∧
      v < lightSpeed ∧ |logb 10 r - logb 10 (v * t)| ≤ 1 / 10 ^ 10 := by
    intro r hr hr1
    obtain ⟨m, x, g1, g2, g3, g4⟩ := shell_located h ht hr h1 hr1
    rw [radius_ok h g2] at g3
    cases g3
    exact ⟨V e m, by rw [g1, Outcome.bind_ok, gammaBeta_ok h g2, Outcome.map_ok], V_pos h g2, V_lt m, g4⟩
  unfold Model.velocityAt Model.gammaBetaAt
  rw [h1, hc, Outcome.bind_ok, Outcome.bind_ok]
  by_cases hlt : r < rc
  · rw [if_pos hlt]
    have hV := V_pos h hM
    have hVlt := V_lt (e := e) e.envelopMass
    have hrc : V e e.envelopMass * t = rc := by
      unfold Model.cloudBoundary at hc
      rw [velocity_ok h hM, Outcome.map_ok] at hc
      cases hc
      rfl
    refine ⟨V e e.envelopMass, ?_, hV, hVlt, fun _ => hrc, fun h2 => absurd hlt (not_lt.2 h2), fun h2 => absurd (hlt.trans_le p2) (not_lt.2 h2.le)⟩
    unfold Model.cloudGammaBeta
    rw [velocity_ok h hM, Outcome.bind_ok]
    dsimp only
    generalize V e e.envelopMass = v at hV hVlt
    have hb0 : 0 < v / lightSpeed := by positivity
    have hb1 : v / lightSpeed < 1 := by rwa [div_lt_one hcl]
    have hv : v / lightSpeed * lightSpeed = v := by field_simp
    generalize v / lightSpeed = b at hb0 hb1 hv
    have hpos : 0 < 1 - b * b := by nlinarith
    have hs := sqrt_pos.2 hpos
    have hs2 : √(1 - b * b) ^ 2 = 1 - b * b := sq_sqrt hpos.le
    rw [if_neg (not_le.2 hpos), Outcome.map_ok]
    generalize √(1 - b * b) = s at hs hs2
    rw [show 1 + b / s * (b / s) = (1 / s) ^ 2 by
      field_simp
      linear_combination hs2, sqrt_sq (by positivity), ← hv]
    congr 1
    field_simp
  · rw [if_neg hlt]
    have hrc := not_lt.1 hlt
    by_cases hgt : r1 < r
    · rw [if_pos hgt]
      obtain ⟨v, g1, g2, g3, g4⟩ := hmid r1 (p1.trans_le p2) le_rfl
      exact ⟨v, g1, g2, g3, fun h2 => absurd h2 hlt, fun _ h2 => absurd hgt (not_lt.2 h2), fun _ => g4⟩
    · rw [if_neg hgt]
      obtain ⟨v, g1, g2, g3, g4⟩ := hmid r hr (not_lt.1 hgt)
      exact ⟨v, g1, g2, g3, fun h2 => absurd h2 hlt, fun _ _ => g4, fun h2 => absurd h2 hgt⟩

/-- **C101, mass of the cloud.** The mass of the cloud is the integral of the density from the inner radius to its boundary, and the total mass is more by that of the
envelope. -/
theorem cloud_mass (h : e.Sensible) {t : ℝ} (ht : 0 < t) {rc : ℝ} (hc : e.cloudBoundary t = .ok rc) (hr0 : e.innerRadius < rc) :
    ∃ (ρ : ℝ → ℝ) (M : ℝ), (∀ r, e.innerRadius ≤ r → r ≤ rc → e.densityAt r t = .ok (ρ r)) ∧ e.cloudMass t = .ok M ∧
      M = ∫ r in e.innerRadius..rc, 4 * π * r ^ 2 * ρ r ∧ e.totalMass t = .ok (M + e.envelopMass) := by
  obtain ⟨_, r1, hc', h1, p1, p2, p3⟩ := boundaries h ht
  rw [hc] at hc'
  cases hc'
  have hr00 := h.r0
  obtain ⟨-, hin, -⟩ := density_at h ht hc h1
  obtain ⟨d, hd, hdpos, -⟩ := hin rc p1 le_rfl
  have hρ : ∀ r, 0 < r → r ≤ rc → e.densityAt r t = .ok (d * (r / rc) ^ (-e.cloudIndex)) := by
    intro r hr hrc
    obtain ⟨d', hd', -, g⟩ := hin r hr hrc
    rw [hd] at hd'
    cases hd'
    exact g
  have hcong : ∀ r ∈ uIcc e.innerRadius rc, 4 * π * r ^ 2 * (d * (r / rc) ^ (-e.cloudIndex)) = 4 * π * d * rc ^ e.cloudIndex * r ^ (2 - e.cloudIndex) := by
    intro r hr
    rw [uIcc_of_le hr0.le] at hr
    linear_combination 4 * π * d * Atmosphere.power_split (n := e.cloudIndex) (hr00.trans_le hr.1) p1
  have hM : ∫ r in e.innerRadius..rc, 4 * π * r ^ 2 * (d * (r / rc) ^ (-e.cloudIndex))
      = 4 * π * d * rc ^ e.cloudIndex * ∫ r in e.innerRadius..rc, r ^ (2 - e.cloudIndex) := by
    rw [intervalIntegral.integral_congr hcong, intervalIntegral.integral_const_mul]
  have hcloud : e.cloudMass t = .ok (∫ r in e.innerRadius..rc, 4 * π * r ^ 2 * (d * (r / rc) ^ (-e.cloudIndex))) := by
    rw [hM]
    unfold Model.cloudMass
    rw [hc, Outcome.bind_ok, hd, hρ _ hr00 hr0.le, Atmosphere.div_pos_ok hr00]
    simp only [Outcome.bind_ok]
    split_ifs with h3 h4
    · exact absurd h4 (not_le.2 (div_pos p1 hr00))
    · congr 1
      have e1 : ∀ r : ℝ, r ^ (2 - e.cloudIndex) = r⁻¹ := by
        intro r
        rw [h3, ← rpow_neg_one]
        norm_num
      simp only [e1]
      rw [integral_inv_of_pos hr00 p1, h3, show (3 : ℝ) = ((3 : ℕ) : ℝ) by norm_num, rpow_natCast]
      ring
    · congr 1
      have hne : 3 - e.cloudIndex ≠ 0 := fun h4 => h3 (by linarith)
      rw [integral_rpow (Or.inr ⟨fun h4 => h3 (by linarith), notMem_uIcc_of_lt hr00 p1⟩)]
      have e1 : (2 - e.cloudIndex + 1 : ℝ) = 3 - e.cloudIndex := by ring
      have e2 := Atmosphere.power_split (n := e.cloudIndex) hr00 p1
      have e3 : rc ^ 3 = rc ^ e.cloudIndex * rc ^ (3 - e.cloudIndex) := by
        rw [← rpow_add p1, show e.cloudIndex + (3 - e.cloudIndex) = ((3 : ℕ) : ℝ) by norm_num, rpow_natCast]
      have e4 : e.innerRadius ^ (3 - e.cloudIndex) = e.innerRadius * e.innerRadius ^ (2 - e.cloudIndex) := by
        rw [show (3 - e.cloudIndex : ℝ) = 1 + (2 - e.cloudIndex) by ring, rpow_add hr00, rpow_one]
      rw [e1, e4]
      rw [← mul_div_assoc, div_left_inj' hne]
      linear_combination 4 * π * d * e3 - 4 * π * d * e.innerRadius * e2
  refine ⟨fun r => d * (r / rc) ^ (-e.cloudIndex), _, fun r g1 g2 => hρ r (hr00.trans_le g1) g2, hcloud, rfl, ?_⟩
  unfold Model.totalMass
  rw [hcloud, Outcome.map_ok]

/-- The default: the boundary of the cloud is outside of the inner radius. -/
example : (Model.make (3 * 10 ^ 8) 2).Sensible ∧
    ∃ rc, (Model.make (3 * 10 ^ 8) 2).cloudBoundary 1 = .ok rc ∧ (Model.make (3 * 10 ^ 8) 2).innerRadius < rc := by
  have h : (Model.make (3 * 10 ^ 8) 2).Sensible := by constructor <;> norm_num [Model.make, solarMass]
  have hM := h.m1.trans_le h.mass
  refine ⟨h, _, by unfold Model.cloudBoundary; rw [velocity_ok h hM, Outcome.map_ok], ?_⟩
  have hU1 : 1 / 5 ≤ U (Model.make (3 * 10 ^ 8) 2) (Model.make (3 * 10 ^ 8) 2).envelopMass := by
    have h2 : ((20 : ℝ) ^ 4) ^ (-(1 / 4) : ℝ) ≤ (5 / 1000 * solarMass / 10 ^ 26) ^ (-(1 / 4) : ℝ) :=
      rpow_le_rpow_of_nonpos (by norm_num [solarMass]) (by norm_num [solarMass]) (by norm_num)
    have h3 : ((20 : ℝ) ^ 4) ^ (-(1 / 4) : ℝ) = 1 / 20 := by
      rw [← rpow_natCast, ← rpow_mul (by norm_num)]
      norm_num
    show (1 : ℝ) / 5 ≤ 4 * (5 / 1000 * solarMass / 10 ^ 26) ^ (-(1 / 4) : ℝ)
    rw [h3] at h2
    linarith
  show 3 * 10 ^ 8 < U _ _ / √(1 + U _ _ * U _ _) * lightSpeed * 1
  generalize U (Model.make (3 * 10 ^ 8) 2) (Model.make (3 * 10 ^ 8) 2).envelopMass = u at hU1
  have h4 : √(1 + u * u) ≤ 6 * u := by
    rw [sqrt_le_left (by linarith)]
    nlinarith
  have h5 : 0 < √(1 + u * u) := sqrt_pos.2 (by nlinarith)
  have h6 : 1 / 6 ≤ u / √(1 + u * u) := by
    rw [le_div_iff₀ h5]
    linarith
  unfold lightSpeed
  nlinarith

end

theorem default_sensible : (Model.make (3 * 10 ^ 8) 2).Sensible := by
  constructor <;> norm_num [Model.make, solarMass]

/-- Shells of one and of two grams after a second, and the density and velocity at every radius. -/
example : (∃ ra rb, (Model.make (3 * 10 ^ 8) 2).radius 1 1 = .ok ra ∧ (Model.make (3 * 10 ^ 8) 2).radius 2 1 = .ok rb ∧ rb < ra) ∧
    ∃ rc r1, (Model.make (3 * 10 ^ 8) 2).cloudBoundary 1 = .ok rc ∧ (Model.make (3 * 10 ^ 8) 2).envelopBoundary 1 = .ok r1 ∧
      (∀ r, 0 < r → r ≤ rc → ∃ d, (Model.make (3 * 10 ^ 8) 2).densityAt r 1 = .ok d) ∧
      (∀ r, 0 < r → ∃ v, (Model.make (3 * 10 ^ 8) 2).velocityAt r 1 = .ok v ∧ v < lightSpeed) ∧
      ∀ r, 0 < r → r ≤ r1 → ∃ m, (Model.make (3 * 10 ^ 8) 2).massCoordinate r 1 = .ok m := by
  have h := default_sensible
  obtain ⟨r1, _, e1, _⟩ := shells_ordered h h.m1 (show _ < 2 * (Model.make (3 * 10 ^ 8) 2).m1 by have := h.m1; linarith) one_pos
  obtain ⟨rc, ec⟩ : ∃ rc, (Model.make (3 * 10 ^ 8) 2).cloudBoundary 1 = .ok rc :=
    ⟨_, by unfold Model.cloudBoundary; rw [velocity_ok h (h.m1.trans_le h.mass), Outcome.map_ok]⟩
  refine ⟨?_, rc, r1, ec, e1, fun r h0 h1 => ?_, fun r hr => ?_, fun r h0 h1 => ?_⟩
  · obtain ⟨ra, rb, h1, h2, _, h3, _⟩ := shells_ordered h one_pos one_lt_two one_pos
    exact ⟨ra, rb, h1, h2, h3⟩
  · obtain ⟨_, _, _, hd⟩ := (density_at h one_pos ec e1).2.1 r h0 h1
    exact ⟨_, hd⟩
  · obtain ⟨v, h1, _, h2, _⟩ := velocity_at h one_pos ec e1 hr
    exact ⟨v, h1, h2⟩
  · obtain ⟨m, _, hm, _⟩ := shell_located h one_pos h0 e1 h1
    exact ⟨m, hm⟩

end Verif.Envelope
