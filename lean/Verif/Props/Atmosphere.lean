import Verif.Spec.Atmosphere
import Mathlib.Analysis.SpecialFunctions.ImproperIntegrals
import Mathlib.Analysis.SpecialFunctions.Integrals.Basic
import Mathlib.Tactic.FieldSimp
import Mathlib.Tactic.LinearCombination
import Mathlib.Tactic.Positivity
import Mathlib.Tactic.Linarith
import Mathlib.Tactic.NormNum

/-!
# C64: the power-law atmosphere
-/

namespace Verif.Atmosphere

open Real Spec MeasureTheory Set

theorem div_pos_ok {x y : ℝ} (hy : 0 < y) : div x y = .ok (x / y) := by
  unfold div
  rw [if_neg hy.ne']

theorem pow_ok {x y : ℝ} (hx : 0 < x) : pow x y = .ok (x ^ y) := by
  unfold pow
  rw [if_neg (not_le.mpr hx)]

theorem inner_ok {m : Model} (h : 0 < m.r0) {r : ℝ} (hr : 0 < r) : m.inner r = .ok (m.f0 * (r / m.r0) ^ (-m.n1)) := by
  unfold Model.inner
  rw [div_pos_ok h]
  change (pow (r / m.r0) (-m.n1)).map _ = _
  rw [pow_ok (by positivity)]
  rfl

/-- **C64, profile.** At every radius the density is the documented one. -/
theorem density_documented (m : Model) (r : ℝ) (h0 : 0 < m.r0) (hc : 0 < m.rc) (hr : 0 < r) :
    m.densityAt r = .ok (profile m r) := by
  unfold Model.densityAt profile
  rcases lt_trichotomy r m.rc with h | h | h
  · rw [if_pos h.le, if_pos h, inner_ok h0 hr]
  · subst h
    rw [if_pos le_rfl, if_neg (lt_irrefl _), inner_ok h0 hr, div_self hr.ne', one_rpow, mul_one]
  · rw [if_neg (not_le.mpr h), if_neg (not_lt.mpr h.le), inner_ok h0 hc]
    change (div r m.rc).bind _ = _
    rw [div_pos_ok hc]
    change (pow (r / m.rc) (-m.n2)).map _ = _
    rw [pow_ok (by positivity)]
    rfl

/-- **C64, continuity.** The documented density is continuous, also at the cut-off. -/
theorem density_continuous (m : Model) (h0 : 0 < m.r0) (hc : 0 < m.rc) : ContinuousOn (profile m) (Ioi 0) := by
  intro r hr
  refine ContinuousAt.continuousWithinAt ?_
  have hr' : (0 : ℝ) < r := hr
  have c1 : ContinuousAt (fun r => m.f0 * (r / m.r0) ^ (-m.n1)) r :=
    continuousAt_const.mul ((continuousAt_id.div_const _).rpow_const (Or.inl (by simp; exact ⟨hr'.ne', h0.ne'⟩)))
  have c2 : ContinuousAt (fun r => m.f0 * (m.rc / m.r0) ^ (-m.n1) * (r / m.rc) ^ (-m.n2)) r :=
    continuousAt_const.mul ((continuousAt_id.div_const _).rpow_const (Or.inl (by simp; exact ⟨hr'.ne', hc.ne'⟩)))
  rcases lt_trichotomy r m.rc with h | h | h
  · refine c1.congr ?_
    filter_upwards [Iio_mem_nhds h] with x hx
    unfold profile
    rw [if_pos (show x < m.rc from hx)]
  · subst h
    have e1 : m.f0 * (m.rc / m.r0) ^ (-m.n1) * (m.rc / m.rc) ^ (-m.n2) = m.f0 * (m.rc / m.r0) ^ (-m.n1) := by
      rw [div_self hc.ne', one_rpow, mul_one]
    have e2 : profile m m.rc = m.f0 * (m.rc / m.r0) ^ (-m.n1) := by
      unfold profile
      rw [if_neg (lt_irrefl _), e1]
    unfold ContinuousAt at c1 c2 ⊢
    beta_reduce at c2
    rw [e1] at c2
    rw [e2]
    exact c1.if' c2
  · refine c2.congr ?_
    filter_upwards [Ioi_mem_nhds h] with x hx
    unfold profile
    rw [if_neg (not_lt.mpr (le_of_lt (show m.rc < x from hx)))]

theorem power_split {r s n : ℝ} (hr : 0 < r) (hs : 0 < s) : r ^ 2 * (r / s) ^ (-n) = s ^ n * r ^ (2 - n) := by
  rw [div_rpow hr.le hs.le, rpow_neg hs.le, sub_eq_add_neg, rpow_add hr, rpow_two]
  field_simp

/-- **C64, mass.** The mass inside of the cut-off is that of gas with this density between inner radius and cut-off. -/
theorem mass_within (m : Model) (h : Sound m) :
    ∃ M, m.massWithinCutoff = .ok M ∧ IsMass (profile m) (Ioc m.r0 m.rc) M := by
  have h0 := h.r0
  have hc : 0 < m.rc := h0.trans h.rc
  have hcongr : EqOn (fun r => 4 * π * r ^ 2 * profile m r) (fun r => 4 * π * m.f0 * m.r0 ^ m.n1 * r ^ (2 - m.n1)) (Ioc m.r0 m.rc) := by
    intro r hr
    have hr0 : 0 < r := h0.trans hr.1
    have e : profile m r = m.f0 * (r / m.r0) ^ (-m.n1) := by
      unfold profile
      split_ifs with h1
      · rfl
      · rw [le_antisymm hr.2 (not_lt.mp h1), div_self hc.ne', one_rpow, mul_one]
    dsimp only
    rw [e]
    linear_combination 4 * π * m.f0 * power_split (n := m.n1) hr0 h0
  have hint : IntegrableOn (fun r => 4 * π * m.f0 * m.r0 ^ m.n1 * r ^ (2 - m.n1)) (Ioc m.r0 m.rc) := by
    refine Integrable.const_mul ?_ _
    have := intervalIntegral.intervalIntegrable_rpow (μ := volume) (a := m.r0) (b := m.rc) (r := 2 - m.n1)
      (Or.inr (notMem_uIcc_of_lt h0 hc))
    exact (intervalIntegrable_iff_integrableOn_Ioc_of_le h.rc.le).mp this
  have hd : m.densityAt m.rc = .ok (m.f0 * (m.rc / m.r0) ^ (-m.n1)) := by
    rw [density_documented m _ h0 hc hc]
    unfold profile
    rw [if_neg (lt_irrefl _), div_self hc.ne', one_rpow, mul_one]
  have hd0 : m.densityAt m.r0 = .ok m.f0 := by
    rw [density_documented m _ h0 hc h0]
    unfold profile
    rw [if_pos h.rc, div_self h0.ne', one_rpow, mul_one]
  have hM : ∫ r in Ioc m.r0 m.rc, 4 * π * r ^ 2 * profile m r
      = 4 * π * m.f0 * m.r0 ^ m.n1 * ∫ r in m.r0..m.rc, r ^ (2 - m.n1) := by
    rw [setIntegral_congr_fun measurableSet_Ioc hcongr, intervalIntegral.integral_of_le h.rc.le, integral_const_mul]
  refine ⟨_, ?_, (integrableOn_congr_fun hcongr measurableSet_Ioc).mpr hint, rfl⟩
  rw [hM]
  unfold Model.massWithinCutoff
  rw [hd, hd0, div_pos_ok h0]
  have hsplit := power_split (n := m.n1) hc h0
  split_ifs with h3
  · change (if _ then _ else _) = _
    rw [if_neg (not_le.mpr (div_pos hc h0))]
    congr 1
    have e : ∀ r : ℝ, r ^ (2 - m.n1) = r⁻¹ := by
      intro r
      rw [h3, ← rpow_neg_one]
      norm_num
    simp only [e]
    rw [integral_inv_of_pos h0 hc]
    rw [e] at hsplit
    have e2 : m.rc ^ 3 * (m.rc / m.r0) ^ (-m.n1) = m.r0 ^ m.n1 := by
      calc _ = m.rc * (m.rc ^ 2 * (m.rc / m.r0) ^ (-m.n1)) := by ring
        _ = _ := by
          rw [hsplit]
          field_simp
    linear_combination 4 * π * m.f0 * log (m.rc / m.r0) * e2
  · change Outcome.ok _ = _
    congr 1
    rw [integral_rpow (Or.inr ⟨fun h4 => h3 (by linarith), notMem_uIcc_of_lt h0 hc⟩)]
    have e1 : (2 - m.n1 + 1 : ℝ) = 3 - m.n1 := by ring
    have hne : 3 - m.n1 ≠ 0 := fun h4 => h3 (by linarith)
    have e2 : m.rc ^ 3 * (m.rc / m.r0) ^ (-m.n1) = m.r0 ^ m.n1 * m.rc ^ (3 - m.n1) := by
      rw [show (3 - m.n1 : ℝ) = 1 + (2 - m.n1) by ring, rpow_add hc, rpow_one]
      linear_combination m.rc * hsplit
    have e3 : m.r0 ^ 3 = m.r0 ^ m.n1 * m.r0 ^ (3 - m.n1) := by
      rw [← rpow_add h0, show m.n1 + (3 - m.n1) = ((3 : ℕ) : ℝ) by norm_num, rpow_natCast]
    rw [e1]
    field_simp
    linear_combination m.f0 * (e2 - e3)

/-- **C64, mass.** The mass outside of the cut-off is that of gas with this density, if the outer index is above three.
Otherwise that mass is infinite, and the code throws an exception. -/
theorem mass_beyond (m : Model) (h : Sound m) :
    (3 < m.n2 → ∃ M, m.massBeyondCutoff = .ok M ∧ IsMass (profile m) (Ioi m.rc) M)
    ∧ (m.n2 ≤ 3 → m.massBeyondCutoff = .throws .invalidArgument ∧ (m.f0 ≠ 0 → ∀ M, ¬ IsMass (profile m) (Ioi m.rc) M)) := by
  have h0 := h.r0
  have hc : 0 < m.rc := h0.trans h.rc
  have hq : 0 < m.rc / m.r0 := by positivity
  have hcongr : EqOn (fun r => 4 * π * r ^ 2 * profile m r)
      (fun r => 4 * π * m.f0 * (m.rc / m.r0) ^ (-m.n1) * m.rc ^ m.n2 * r ^ (2 - m.n2)) (Ioi m.rc) := by
    intro r hr
    have hr' : m.rc < r := hr
    have hr0 : 0 < r := hc.trans hr'
    dsimp only
    unfold profile
    rw [if_neg (not_lt.mpr hr'.le)]
    linear_combination 4 * π * m.f0 * (m.rc / m.r0) ^ (-m.n1) * power_split (n := m.n2) hr0 hc
  have hd : m.densityAt m.rc = .ok (m.f0 * (m.rc / m.r0) ^ (-m.n1)) := by
    rw [density_documented m _ h0 hc hc]
    unfold profile
    rw [if_neg (lt_irrefl _), div_self hc.ne', one_rpow, mul_one]
  constructor
  · intro h3
    have hint : IntegrableOn (fun r => 4 * π * m.f0 * (m.rc / m.r0) ^ (-m.n1) * m.rc ^ m.n2 * r ^ (2 - m.n2)) (Ioi m.rc) :=
      (integrableOn_Ioi_rpow_of_lt (by linarith) hc).const_mul _
    refine ⟨_, ?_, (integrableOn_congr_fun hcongr measurableSet_Ioi).mpr hint, rfl⟩
    rw [setIntegral_congr_fun measurableSet_Ioi hcongr, integral_const_mul, integral_Ioi_rpow_of_lt (by linarith) hc]
    unfold Model.massBeyondCutoff
    rw [if_neg (not_le.mpr h3), hd]
    change Outcome.ok _ = _
    congr 1
    have e3 : m.rc ^ 3 = m.rc ^ m.n2 * m.rc ^ (2 - m.n2 + 1) := by
      rw [← rpow_add hc, show m.n2 + (2 - m.n2 + 1) = ((3 : ℕ) : ℝ) by push_cast; ring, rpow_natCast]
    have hne : m.n2 - 3 ≠ 0 := by linarith
    have hne' : 2 - m.n2 + 1 ≠ 0 := by linarith
    rw [e3]
    field_simp
    ring
  · intro h3
    refine ⟨?_, ?_⟩
    · unfold Model.massBeyondCutoff
      rw [if_pos h3]
    · rintro hf M ⟨hi, _⟩
      rw [integrableOn_congr_fun hcongr measurableSet_Ioi] at hi
      have hk : 4 * π * m.f0 * (m.rc / m.r0) ^ (-m.n1) * m.rc ^ m.n2 ≠ 0 := by
        have := (rpow_pos_of_pos hq (-m.n1)).ne'
        have := (rpow_pos_of_pos hc m.n2).ne'
        have := pi_pos.ne'
        positivity
      have := hi.const_mul (4 * π * m.f0 * (m.rc / m.r0) ^ (-m.n1) * m.rc ^ m.n2)⁻¹
      simp only [inv_mul_cancel_left₀ hk] at this
      have := (integrableOn_Ioi_rpow_iff hc).mp this
      linarith

/-- **C64, mass.** The total mass is that of gas with this density outside of the inner radius. -/
theorem mass_total (m : Model) (h : Sound m) (h3 : 3 < m.n2) :
    ∃ M, m.totalMass = .ok M ∧ IsMass (profile m) (Ioi m.r0) M := by
  obtain ⟨a, ha, ia, ra⟩ := mass_within m h
  obtain ⟨b, hb, ib, rb⟩ := (mass_beyond m h).1 h3
  refine ⟨a + b, ?_, ?_⟩
  · unfold Model.totalMass
    rw [ha, hb]
    rfl
  · rw [← Ioc_union_Ioi_eq_Ioi h.rc.le]
    refine ⟨ia.union ib, ?_⟩
    rw [setIntegral_union Ioc_disjoint_Ioi_same measurableSet_Ioi ia ib, ra, rb]

/-- The mass is proportional to the coefficient. -/
theorem mass_scale {m : Model} {A : Set ℝ} {M : ℝ} (k : ℝ) (h : IsMass (profile m) A M) :
    IsMass (profile (m.withCoefficient (k * m.f0))) A (k * M) := by
  have e : (fun r => 4 * π * r ^ 2 * profile (m.withCoefficient (k * m.f0)) r) = fun r => k * (4 * π * r ^ 2 * profile m r) := by
    funext r
    unfold profile Model.withCoefficient
    dsimp only
    split_ifs <;> ring
  obtain ⟨h1, h2⟩ := h
  unfold IsMass
  rw [e]
  exact ⟨h1.const_mul k, by rw [integral_const_mul, h2]⟩

theorem mass_unique {ρ : ℝ → ℝ} {A : Set ℝ} {M M' : ℝ} (h : IsMass ρ A M) (h' : IsMass ρ A M') : M = M' :=
  h.2.symm.trans h'.2

theorem total_pos {m : Model} (h : Sound m) (h3 : 3 < m.n2) (hf : 0 < m.f0) {M : ℝ} (hM : m.totalMass = .ok M) : 0 < M := by
  have h0 := h.r0
  have hc : 0 < m.rc := h0.trans h.rc
  have hq : 0 < m.rc / m.r0 := by positivity
  obtain ⟨a, ha, ia, ra⟩ := mass_within m h
  have ha0 : 0 ≤ a := by
    rw [← ra]
    refine setIntegral_nonneg measurableSet_Ioc fun r hr => ?_
    have hr0 : 0 < r := h0.trans hr.1
    unfold profile
    have := rpow_pos_of_pos hq (-m.n1)
    have := rpow_pos_of_pos (div_pos hr0 h0) (-m.n1)
    have := rpow_pos_of_pos (div_pos hr0 hc) (-m.n2)
    have := pi_pos
    split_ifs <;> positivity
  have hd : m.densityAt m.rc = .ok (m.f0 * (m.rc / m.r0) ^ (-m.n1)) := by
    rw [density_documented m _ h0 hc hc]
    unfold profile
    rw [if_neg (lt_irrefl _), div_self hc.ne', one_rpow, mul_one]
  unfold Model.totalMass Model.massBeyondCutoff at hM
  rw [ha, if_neg (not_le.mpr h3), hd] at hM
  obtain rfl := Outcome.ok.inj hM
  have := rpow_pos_of_pos hq (-m.n1)
  have := pi_pos
  have : 0 < m.n2 - 3 := by linarith
  positivity

/-- What setting the total mass does: it gives the requested mass divided by the coefficient. -/
theorem withTotalMass_eq {m : Model} (h : Sound m) (h3 : 3 < m.n2) (hf : 0 < m.f0) (M : ℝ) :
    ∃ m', m.withTotalMass M = .ok m' ∧ m'.r0 = m.r0 ∧ m'.rc = m.rc ∧ m'.n1 = m.n1 ∧ m'.n2 = m.n2
      ∧ IsMass (profile m') (Ioi m.r0) (M / m.f0) := by
  obtain ⟨M0, e0, i0⟩ := mass_total m h h3
  have hM0 := total_pos h h3 hf e0
  refine ⟨m.withCoefficient (M / M0), ?_, rfl, rfl, rfl, rfl, ?_⟩
  · unfold Model.withTotalMass
    rw [e0]
    change (div M M0).map _ = _
    rw [div_pos_ok hM0]
    rfl
  · have := mass_scale (M / M0 / m.f0) i0
    rw [show M / M0 / m.f0 * m.f0 = M / M0 by field_simp, show M / M0 / m.f0 * M0 = M / m.f0 by field_simp] at this
    exact this

/-- **C64, requested mass.** Setting the total mass of a model whose coefficient is one, as it is by default, gives a model of
that mass with the same radii and indexes.  Missing: other coefficients, see `total_mass_violated`. -/
theorem total_mass_partial (m : Model) (h : Sound m) (h3 : 3 < m.n2) (hf : m.f0 = 1) (M : ℝ) :
    ∃ m', m.withTotalMass M = .ok m' ∧ m'.r0 = m.r0 ∧ m'.rc = m.rc ∧ m'.n1 = m.n1 ∧ m'.n2 = m.n2
      ∧ m'.totalMass = .ok M ∧ IsMass (profile m') (Ioi m.r0) M := by
  obtain ⟨m', e, e1, e2, e3, e4, i⟩ := withTotalMass_eq h h3 (by rw [hf]; norm_num) M
  rw [hf, div_one] at i
  refine ⟨m', e, e1, e2, e3, e4, ?_, i⟩
  obtain ⟨M', e', i'⟩ := mass_total m' ⟨e1 ▸ h.r0, by rw [e1, e2]; exact h.rc⟩ (e4 ▸ h3)
  rw [e1] at i'
  rw [e', mass_unique i' i]

/-- **C64 fails for other coefficients.** The mass is not the requested one, whatever the model, if its coefficient is not one;
in particular if the mass was set before. -/
theorem total_mass_violated (m : Model) (h : Sound m) (h3 : 3 < m.n2) (hf : 0 < m.f0) (hf' : m.f0 ≠ 1) (M : ℝ) (hM : M ≠ 0) :
    ∃ m' M', m.withTotalMass M = .ok m' ∧ m'.totalMass = .ok M' ∧ M' ≠ M := by
  obtain ⟨m', e, e1, e2, e3, e4, i⟩ := withTotalMass_eq h h3 hf M
  obtain ⟨M', e', i'⟩ := mass_total m' ⟨e1 ▸ h.r0, by rw [e1, e2]; exact h.rc⟩ (e4 ▸ h3)
  rw [e1] at i'
  refine ⟨m', M', e, e', ?_⟩
  rw [mass_unique i' i]
  intro h'
  rw [div_eq_iff hf.ne'] at h'
  exact hf' (mul_left_cancel₀ hM (by rw [← h', mul_one]))

/-- Non-vacuity: the default model. -/
example : Sound Model.default ∧ 3 < Model.default.n2 ∧ Model.default.f0 = 1 := by
  unfold Model.default
  exact ⟨⟨by norm_num, by norm_num⟩, by norm_num, rfl⟩

/-- Non-vacuity: the default model with twice the density. -/
example : ∃ m : Model, Sound m ∧ 3 < m.n2 ∧ 0 < m.f0 ∧ m.f0 ≠ 1 :=
  ⟨Model.default.withCoefficient 2, by unfold Model.default Model.withCoefficient; exact
    ⟨⟨by norm_num, by norm_num⟩, by norm_num, by norm_num, by norm_num⟩⟩

/-- `density_continuous`, `density_documented`, `mass_beyond`, `mass_within`, `mass_total`, `total_mass_partial` for a steep model. -/
example : ContinuousOn (profile ⟨3, 1, 10, 5 / 2, 4⟩) (Ioi 0) := density_continuous _ (by norm_num) (by norm_num)
example : Model.densityAt ⟨3, 1, 10, 5 / 2, 4⟩ 20 = .ok (profile ⟨3, 1, 10, 5 / 2, 4⟩ 20) :=
  density_documented _ _ (by norm_num) (by norm_num) (by norm_num)
example : ∃ M, Model.massBeyondCutoff ⟨3, 1, 10, 5 / 2, 4⟩ = .ok M ∧ IsMass (profile ⟨3, 1, 10, 5 / 2, 4⟩) (Ioi 10) M :=
  (mass_beyond ⟨3, 1, 10, 5 / 2, 4⟩ ⟨by norm_num, by norm_num⟩).1 (by norm_num)
example (M : ℝ) : ¬ IsMass (profile ⟨3, 1, 10, 5 / 2, 2⟩) (Ioi 10) M :=
  ((mass_beyond ⟨3, 1, 10, 5 / 2, 2⟩ ⟨by norm_num, by norm_num⟩).2 (by norm_num)).2 (by norm_num) M
example : ∃ M, Model.massWithinCutoff ⟨3, 1, 10, 3, 4⟩ = .ok M ∧ IsMass (profile ⟨3, 1, 10, 3, 4⟩) (Ioc 1 10) M :=
  mass_within ⟨3, 1, 10, 3, 4⟩ ⟨by norm_num, by norm_num⟩
example : ∃ M, Model.totalMass ⟨3, 1, 10, 5 / 2, 4⟩ = .ok M ∧ IsMass (profile ⟨3, 1, 10, 5 / 2, 4⟩) (Ioi 1) M :=
  mass_total ⟨3, 1, 10, 5 / 2, 4⟩ ⟨by norm_num, by norm_num⟩ (by norm_num)
example : ∃ m', Model.withTotalMass ⟨1, 1, 10, 5 / 2, 4⟩ 7 = .ok m' ∧ m'.totalMass = .ok 7 := by
  obtain ⟨m', h1, _, _, _, _, h2, _⟩ := total_mass_partial ⟨1, 1, 10, 5 / 2, 4⟩ ⟨by norm_num, by norm_num⟩ (by norm_num) rfl 7
  exact ⟨m', h1, h2⟩

end Verif.Atmosphere
