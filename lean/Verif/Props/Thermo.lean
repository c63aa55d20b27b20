import Verif.Props.Euler
import Verif.Props.Srhd
import Verif.Model.Iso2d
import Verif.Model.SedovSeries
import Mathlib.Analysis.SpecialFunctions.Pow.Deriv
import Mathlib.Topology.Algebra.Order.Field

/-!
# C140: sound speed, enthalpy, entropy and fluxes of the three gases belong together
-/

namespace Verif.Thermo

open Geometry Filter Topology

/-- A gas of density `r` and pressure `p` with the velocity of `P`. -/
noncomputable def gas (P : Fin 5 → ℝ) (r p : ℝ) : Fin 5 → ℝ := ![r, P 1, P 2, P 3, p]

/-- The pressures at other densities that have the specific entropy of the gas `P`: an adiabatic change. -/
def Adiabat (P : Fin 5 → ℝ) (g : ℝ) (p : ℝ → ℝ) : Prop :=
  ∀ r, 0 < r → ∃ s, Sedov.specificEntropy g (gas P r (p r)) = .ok s ∧ Sedov.specificEntropy g P = .ok s

theorem adiabat_eq {P : Fin 5 → ℝ} {g : ℝ} {p : ℝ → ℝ} (hP : 0 < P 0 ∧ 0 < P 4) (h : Adiabat P g p) {r : ℝ} (hr : 0 < r) : p r = P 4 / P 0 ^ g * r ^ g := by
  obtain ⟨s, h1, h2⟩ := h r hr
  unfold Sedov.specificEntropy at h1 h2
  rw [if_pos hP] at h2
  by_cases hp : 0 < r ∧ 0 < p r
  · have e0 : gas P r (p r) 0 = r := rfl
    have e4 : gas P r (p r) 4 = p r := rfl
    rw [e0, e4, if_pos hp] at h1
    cases h2
    have h1' : Real.log (p r / r ^ g) = Real.log (P 4 / P 0 ^ g) := by injection h1
    have a : 0 < r ^ g := Real.rpow_pos_of_pos hr g
    have b : 0 < P 0 ^ g := Real.rpow_pos_of_pos hP.1 g
    have := Real.log_injOn_pos (Set.mem_Ioi.2 (div_pos hp.2 a)) (Set.mem_Ioi.2 (div_pos hP.2 b)) h1'
    rw [← this]
    field_simp
  · have e0 : gas P r (p r) 0 = r := rfl
    have e4 : gas P r (p r) 4 = p r := rfl
    rw [e0, e4, if_neg hp] at h1
    cases h1

theorem adiabat_deriv {P : Fin 5 → ℝ} {g : ℝ} {p : ℝ → ℝ} (hP : 0 < P 0 ∧ 0 < P 4) (h : Adiabat P g p) : HasDerivAt p (g * P 4 / P 0) (P 0) := by
  have h1 : HasDerivAt (fun r : ℝ => P 4 / P 0 ^ g * r ^ g) (P 4 / P 0 ^ g * (g * P 0 ^ (g - 1))) (P 0) :=
    (Real.hasDerivAt_rpow_const (Or.inl hP.1.ne')).const_mul _
  have e : P 4 / P 0 ^ g * (g * P 0 ^ (g - 1)) = g * P 4 / P 0 := by
    rw [Real.rpow_sub hP.1, Real.rpow_one]
    have b : P 0 ^ g ≠ 0 := (Real.rpow_pos_of_pos hP.1 g).ne'
    have c := hP.1.ne'
    field_simp
  rw [e] at h1
  refine h1.congr_of_eventuallyEq ?_
  filter_upwards [Ioi_mem_nhds hP.1] with r hr
  exact adiabat_eq hP h hr

theorem adiabat_at {P : Fin 5 → ℝ} {g : ℝ} {p : ℝ → ℝ} (hP : 0 < P 0 ∧ 0 < P 4) (h : Adiabat P g p) : p (P 0) = P 4 := by
  rw [adiabat_eq hP h hP.1, div_mul_cancel₀]
  exact (Real.rpow_pos_of_pos hP.1 g).ne'

/-- There is one adiabat through every gas. -/
theorem adiabat_exists {P : Fin 5 → ℝ} (hP : 0 < P 0 ∧ 0 < P 4) (g : ℝ) : Adiabat P g fun r => P 4 / P 0 ^ g * r ^ g := by
  intro r hr
  have a : 0 < r ^ g := Real.rpow_pos_of_pos hr g
  have b : 0 < P 0 ^ g := Real.rpow_pos_of_pos hP.1 g
  refine ⟨Real.log (P 4 / P 0 ^ g), ?_, ?_⟩
  · unfold Sedov.specificEntropy
    show (if 0 < r ∧ 0 < P 4 / P 0 ^ g * r ^ g then _ else _) = _
    rw [if_pos ⟨hr, mul_pos (div_pos hP.2 b) a⟩]
    show Outcome.ok (Real.log (P 4 / P 0 ^ g * r ^ g / r ^ g)) = _
    rw [mul_div_cancel_right₀ _ a.ne']
  · unfold Sedov.specificEntropy
    rw [if_pos hP]

/-- **C140.** Newtonian gas: along states of one specific entropy, the square of the sound speed is the change of pressure with density, and the specific enthalpy changes by the
change of pressure over the density. -/
theorem euler_sound {P : Euler.Vec} (hP : Euler.Physical P) {g : ℝ} (hg : 1 < g) {p : ℝ → ℝ} (h : Adiabat P g p) :
    HasDerivAt p (Euler.soundSpeedSquared P g) (P 0) ∧
    HasDerivAt (fun r => Euler.specificEnthalpy (gas P r (p r)) g) (Euler.soundSpeedSquared P g / P 0) (P 0) := by
  have d := adiabat_deriv hP h
  refine ⟨d, ?_⟩
  have h1 := (d.mul_const (1 + 1 / (g - 1))).div (hasDerivAt_id (P 0)) hP.1.ne'
  have e : (g * P 4 / P 0 * (1 + 1 / (g - 1)) * id (P 0) - p (P 0) * (1 + 1 / (g - 1)) * 1) / id (P 0) ^ 2 = Euler.soundSpeedSquared P g / P 0 := by
    rw [adiabat_at hP h]
    unfold Euler.soundSpeedSquared
    have c := hP.1.ne'
    have c2 : g - 1 ≠ 0 := by linarith
    simp only [id]
    field_simp
    ring
  rw [e] at h1
  exact h1

/-- **C140.** Relativistic gas: along states of one specific entropy, the pressure changes by the square of the sound speed times the change of the energy density (rest mass and
internal), and the specific enthalpy by the change of pressure over the density. -/
theorem srhd_sound {P : Srhd.Vec} (hP : Srhd.Physical P) {g : ℝ} (hg : 1 < g) {p : ℝ → ℝ} (h : Adiabat P g p) :
    ∃ e', HasDerivAt (fun r => r + p r / (g - 1)) e' (P 0) ∧ HasDerivAt p (Srhd.soundSpeedSquared P g * e') (P 0) ∧
      HasDerivAt (fun r => Srhd.specificEnthalpy (gas P r (p r)) g) (Srhd.soundSpeedSquared P g * e' / P 0) (P 0) := by
  have d := adiabat_deriv hP h
  have c := hP.1
  have c4 := hP.2
  have c2 : 0 < g - 1 := by linarith
  have hH : Srhd.enthalpyDensity P g = P 0 * (1 + g * P 4 / P 0 / (g - 1)) := by
    unfold Srhd.enthalpyDensity
    field_simp
    ring
  have hs : Srhd.soundSpeedSquared P g * (1 + g * P 4 / P 0 / (g - 1)) = g * P 4 / P 0 := by
    unfold Srhd.soundSpeedSquared
    rw [hH]
    have : 0 < 1 + g * P 4 / P 0 / (g - 1) := by positivity
    field_simp
  refine ⟨1 + g * P 4 / P 0 / (g - 1), (hasDerivAt_id (P 0)).add (d.div_const _), by rw [hs]; exact d, ?_⟩
  rw [hs]
  have h1 := ((hasDerivAt_id (P 0)).add (d.mul_const (1 + 1 / (g - 1)))).div (hasDerivAt_id (P 0)) c.ne'
  refine h1.congr_deriv ?_
  simp only [id, Pi.add_apply]
  rw [adiabat_at hP h]
  field_simp
  ring

/-- **C140.** Newtonian gas: the flux of momentum is symmetric (the flux along `n` of the momentum along `m` is that along `m` of the momentum along `n`), and the flux of energy is
the flux of mass times the specific enthalpy and kinetic energy. -/
theorem euler_flux (P : Euler.Vec) (hP : P 0 ≠ 0) (n m : UnitVec ℝ) {g : ℝ} (hg : g ≠ 1) :
    m.project (Euler.flux P n g 1) (Euler.flux P n g 2) (Euler.flux P n g 3) = n.project (Euler.flux P m g 1) (Euler.flux P m g 2) (Euler.flux P m g 3) ∧
    Euler.flux P n g 4 = Euler.flux P n g 0 * (Euler.specificEnthalpy P g + Euler.velocitySquared P / 2) := by
  have c : g - 1 ≠ 0 := sub_ne_zero.2 hg
  constructor
  · simp [Euler.flux, Euler.fluxWith, Euler.toConserved, Euler.velocityAlong, UnitVec.project]
    ring
  · simp [Euler.flux, Euler.fluxWith, Euler.toConserved, Euler.specificEnthalpy, Euler.enthalpyDensity]
    field_simp
    ring

/-- **C140.** Relativistic gas: the flux of momentum is symmetric, and the flux of energy (with the rest mass) is the density of momentum. -/
theorem srhd_flux (P : Srhd.Vec) (n m : UnitVec ℝ) (g : ℝ) :
    m.project (Srhd.flux P n g 1) (Srhd.flux P n g 2) (Srhd.flux P n g 3) = n.project (Srhd.flux P m g 1) (Srhd.flux P m g 2) (Srhd.flux P m g 3) ∧
    Srhd.flux P n g 4 + Srhd.flux P n g 0 = n.project (Srhd.toConserved P g 1) (Srhd.toConserved P g 2) (Srhd.toConserved P g 3) := by
  have hW : Srhd.lorentzFactor P ≠ 0 := by
    unfold Srhd.lorentzFactor Srhd.gammaBetaSquared
    have : 0 < 1 + (P 1 * P 1 + P 2 * P 2 + P 3 * P 3) := by nlinarith [mul_self_nonneg (P 1), mul_self_nonneg (P 2), mul_self_nonneg (P 3)]
    exact (Real.sqrt_pos.2 this).ne'
  constructor
  · simp [Srhd.flux, Srhd.fluxWith, Srhd.toConserved, Srhd.betaAlong, UnitVec.project]
    field_simp
    ring
  · simp [Srhd.flux, Srhd.fluxWith, Srhd.toConserved, Srhd.betaAlong, UnitVec.project]
    field_simp
    ring

/-- **C140.** Isothermal gas: the flux of momentum is symmetric, the source term of the radial momentum is its trace, there is none of the angular momentum, and the pressure changes with
the density by the square of the sound speed. -/
theorem iso2d_flux (P : Iso2d.Tri) (n m : UnitVec ℝ) (cs2 : ℝ) :
    m.n1 * (Iso2d.flux P n cs2).b + m.n2 * (Iso2d.flux P n cs2).c = n.n1 * (Iso2d.flux P m cs2).b + n.n2 * (Iso2d.flux P m cs2).c ∧
    (Iso2d.flux P ⟨1, 0, 0⟩ cs2).c = (Iso2d.flux P ⟨0, 1, 0⟩ cs2).b ∧
    (Iso2d.sourceAngmom P cs2).b = (Iso2d.flux P ⟨1, 0, 0⟩ cs2).b + (Iso2d.flux P ⟨0, 1, 0⟩ cs2).c ∧ (Iso2d.sourceAngmom P cs2).c = 0 ∧
    HasDerivAt (fun r => Iso2d.gasPressure { P with a := r } cs2) cs2 P.a := by
  refine ⟨?_, ?_, ?_, rfl, ?_⟩
  · simp [Iso2d.flux, Iso2d.velocityAlong, Iso2d.gasPressure, UnitVec.project]
    ring
  · simp [Iso2d.flux, Iso2d.velocityAlong, Iso2d.gasPressure, UnitVec.project]
    try ring
  · simp [Iso2d.flux, Iso2d.sourceAngmom, Iso2d.velocityAlong, Iso2d.velocitySquared, Iso2d.gasPressure, UnitVec.project]
    ring
  · simp only [Iso2d.gasPressure]
    have := (hasDerivAt_id P.a).mul_const cs2
    simpa using this

/-! ### Slow gas -/

/-- The gas `P` in units in which the speed of light is `1 / ε`: slow and cold. -/
noncomputable def slow (P : Fin 5 → ℝ) (ε : ℝ) : Fin 5 → ℝ := ![P 0, ε * P 1, ε * P 2, ε * P 3, ε ^ 2 * P 4]

theorem lorentz_slow (P : Fin 5 → ℝ) (ε : ℝ) : Srhd.lorentzFactor (slow P ε) = Real.sqrt (1 + ε ^ 2 * Euler.velocitySquared P) := by
  unfold Srhd.lorentzFactor Srhd.gammaBetaSquared Euler.velocitySquared slow
  congr 1
  simp
  ring

theorem lorentz_pos (P : Fin 5 → ℝ) (ε : ℝ) : 1 ≤ Real.sqrt (1 + ε ^ 2 * Euler.velocitySquared P) ∧
    Real.sqrt (1 + ε ^ 2 * Euler.velocitySquared P) ^ 2 = 1 + ε ^ 2 * Euler.velocitySquared P := by
  have h : 0 ≤ Euler.velocitySquared P := by
    unfold Euler.velocitySquared
    nlinarith [mul_self_nonneg (P 1), mul_self_nonneg (P 2), mul_self_nonneg (P 3)]
  have : 0 ≤ ε ^ 2 * Euler.velocitySquared P := mul_nonneg (sq_nonneg _) h
  exact ⟨Real.one_le_sqrt.2 (by linarith), Real.sq_sqrt (by linarith)⟩

theorem lorentz_tendsto (P : Fin 5 → ℝ) : Tendsto (fun ε => Real.sqrt (1 + ε ^ 2 * Euler.velocitySquared P)) (𝓝[≠] 0) (𝓝 1) := by
  have h : Continuous fun ε : ℝ => Real.sqrt (1 + ε ^ 2 * Euler.velocitySquared P) := by fun_prop
  have := h.tendsto 0
  simp only [ne_eq, OfNat.ofNat_ne_zero, not_false_eq_true, zero_pow, zero_mul, add_zero, Real.sqrt_one] at this
  exact this.mono_left nhdsWithin_le_nhds

theorem sq_tendsto : Tendsto (fun ε : ℝ => ε ^ 2) (𝓝[≠] 0) (𝓝 0) := by
  have h : Continuous fun ε : ℝ => ε ^ 2 := by fun_prop
  have := h.tendsto 0
  simp only [ne_eq, OfNat.ofNat_ne_zero, not_false_eq_true, zero_pow] at this
  exact this.mono_left nhdsWithin_le_nhds

theorem enthalpy_slow {P : Fin 5 → ℝ} (hP : 0 < P 0) (ε g : ℝ) : Srhd.specificEnthalpy (slow P ε) g = 1 + ε ^ 2 * Euler.specificEnthalpy P g := by
  unfold Srhd.specificEnthalpy Srhd.enthalpyDensity Euler.specificEnthalpy Euler.enthalpyDensity slow
  simp
  field_simp

/-- **C140.** The conserved densities of slow and cold relativistic gas are those of Newtonian gas. -/
theorem slow_conserved {P : Fin 5 → ℝ} (hP : 0 < P 0) {g : ℝ} (hg : 1 < g) :
    Tendsto (fun ε => Srhd.toConserved (slow P ε) g 0) (𝓝[≠] 0) (𝓝 (Euler.toConserved P g 0)) ∧
    Tendsto (fun ε => Srhd.toConserved (slow P ε) g 1 / ε) (𝓝[≠] 0) (𝓝 (Euler.toConserved P g 1)) ∧
    Tendsto (fun ε => Srhd.toConserved (slow P ε) g 2 / ε) (𝓝[≠] 0) (𝓝 (Euler.toConserved P g 2)) ∧
    Tendsto (fun ε => Srhd.toConserved (slow P ε) g 3 / ε) (𝓝[≠] 0) (𝓝 (Euler.toConserved P g 3)) ∧
    Tendsto (fun ε => Srhd.toConserved (slow P ε) g 4 / ε ^ 2) (𝓝[≠] 0) (𝓝 (Euler.toConserved P g 4)) := by
  have hW := lorentz_tendsto P
  have hh : Tendsto (fun ε : ℝ => 1 + ε ^ 2 * Euler.specificEnthalpy P g) (𝓝[≠] 0) (𝓝 1) := by
    have := (sq_tendsto.mul_const (Euler.specificEnthalpy P g)).const_add 1
    simpa using this
  have mom : ∀ c : ℝ, Tendsto (fun ε : ℝ => P 0 * Real.sqrt (1 + ε ^ 2 * Euler.velocitySquared P) * (ε * c) * (1 + ε ^ 2 * Euler.specificEnthalpy P g) / ε) (𝓝[≠] 0) (𝓝 (P 0 * c)) := by
    intro c
    have h1 := ((hW.const_mul (P 0)).mul_const c).mul hh
    simp only [mul_one] at h1
    refine h1.congr' ?_
    filter_upwards [self_mem_nhdsWithin] with ε hε
    have hε : ε ≠ 0 := hε
    field_simp
  have form : ∀ ε, Srhd.toConserved (slow P ε) g = ![P 0 * Real.sqrt (1 + ε ^ 2 * Euler.velocitySquared P),
      P 0 * Real.sqrt (1 + ε ^ 2 * Euler.velocitySquared P) * (ε * P 1) * (1 + ε ^ 2 * Euler.specificEnthalpy P g),
      P 0 * Real.sqrt (1 + ε ^ 2 * Euler.velocitySquared P) * (ε * P 2) * (1 + ε ^ 2 * Euler.specificEnthalpy P g),
      P 0 * Real.sqrt (1 + ε ^ 2 * Euler.velocitySquared P) * (ε * P 3) * (1 + ε ^ 2 * Euler.specificEnthalpy P g),
      P 0 * Real.sqrt (1 + ε ^ 2 * Euler.velocitySquared P) * (1 + ε ^ 2 * Euler.specificEnthalpy P g) * Real.sqrt (1 + ε ^ 2 * Euler.velocitySquared P) - ε ^ 2 * P 4 -
        P 0 * Real.sqrt (1 + ε ^ 2 * Euler.velocitySquared P)] := by
    intro ε
    unfold Srhd.toConserved
    rw [lorentz_slow, enthalpy_slow hP]
    rfl
  simp only [form]
  refine ⟨?_, mom (P 1), mom (P 2), mom (P 3), ?_⟩
  · have := hW.const_mul (P 0)
    simpa [Euler.toConserved] using this
  · have h1 := (((hW.mul_const (Euler.velocitySquared P)).div (hW.add_const 1) (by norm_num)).const_mul (P 0)).add
      (((hW.pow 2).const_mul (P 0 * Euler.specificEnthalpy P g)).sub_const (P 4))
    have e : P 0 * (1 * Euler.velocitySquared P / (1 + 1)) + (P 0 * Euler.specificEnthalpy P g * 1 ^ 2 - P 4) = Euler.toConserved P g 4 := by
      have c : g - 1 ≠ 0 := by linarith
      simp [Euler.toConserved, Euler.specificEnthalpy, Euler.enthalpyDensity]
      field_simp
      ring
    rw [e] at h1
    refine h1.congr' ?_
    filter_upwards [self_mem_nhdsWithin] with ε hε
    have hε : ε ≠ 0 := hε
    obtain ⟨hW1, hW2⟩ := lorentz_pos P ε
    show P 0 * (Real.sqrt (1 + ε ^ 2 * Euler.velocitySquared P) * Euler.velocitySquared P / (Real.sqrt (1 + ε ^ 2 * Euler.velocitySquared P) + 1)) +
      (P 0 * Euler.specificEnthalpy P g * Real.sqrt (1 + ε ^ 2 * Euler.velocitySquared P) ^ 2 - P 4) =
      (P 0 * Real.sqrt (1 + ε ^ 2 * Euler.velocitySquared P) * (1 + ε ^ 2 * Euler.specificEnthalpy P g) * Real.sqrt (1 + ε ^ 2 * Euler.velocitySquared P) - ε ^ 2 * P 4 -
        P 0 * Real.sqrt (1 + ε ^ 2 * Euler.velocitySquared P)) / ε ^ 2
    generalize Real.sqrt (1 + ε ^ 2 * Euler.velocitySquared P) = W at hW1 hW2 ⊢
    generalize Euler.specificEnthalpy P g = h
    generalize Euler.velocitySquared P = v at hW2 ⊢
    have w : W + 1 ≠ 0 := by linarith
    have hv : v = (W ^ 2 - 1) / ε ^ 2 := by rw [hW2]; field_simp; ring
    have e1 : W * v / (W + 1) = W * (W - 1) / ε ^ 2 := by
      rw [hv, div_eq_iff w]
      ring
    rw [e1]
    field_simp
    ring

/-- **C140.** So are their fluxes and their sound speed. -/
theorem slow_flux {P : Fin 5 → ℝ} (hP : 0 < P 0) {g : ℝ} (hg : 1 < g) (n : UnitVec ℝ) :
    Tendsto (fun ε => Srhd.flux (slow P ε) n g 0 / ε) (𝓝[≠] 0) (𝓝 (Euler.flux P n g 0)) ∧
    Tendsto (fun ε => Srhd.flux (slow P ε) n g 1 / ε ^ 2) (𝓝[≠] 0) (𝓝 (Euler.flux P n g 1)) ∧
    Tendsto (fun ε => Srhd.flux (slow P ε) n g 2 / ε ^ 2) (𝓝[≠] 0) (𝓝 (Euler.flux P n g 2)) ∧
    Tendsto (fun ε => Srhd.flux (slow P ε) n g 3 / ε ^ 2) (𝓝[≠] 0) (𝓝 (Euler.flux P n g 3)) ∧
    Tendsto (fun ε => Srhd.flux (slow P ε) n g 4 / ε ^ 3) (𝓝[≠] 0) (𝓝 (Euler.flux P n g 4)) ∧
    Tendsto (fun ε => Srhd.soundSpeedSquared (slow P ε) g / ε ^ 2) (𝓝[≠] 0) (𝓝 (Euler.soundSpeedSquared P g)) := by
  obtain ⟨c0, c1, c2, c3, c4⟩ := slow_conserved hP hg
  have hv : Tendsto (fun ε => Srhd.betaAlong (slow P ε) n / ε) (𝓝[≠] 0) (𝓝 (Euler.velocityAlong P n)) := by
    have h1 := (tendsto_const_nhds (x := Euler.velocityAlong P n)).div (lorentz_tendsto P) one_ne_zero
    rw [div_one] at h1
    refine h1.congr' ?_
    filter_upwards [self_mem_nhdsWithin] with ε hε
    have hε : ε ≠ 0 := hε
    unfold Srhd.betaAlong
    rw [lorentz_slow]
    have := (lorentz_pos P ε).1
    have w : Real.sqrt (1 + ε ^ 2 * Euler.velocitySquared P) ≠ 0 := by linarith
    simp [slow, Euler.velocityAlong, UnitVec.project]
    field_simp
  have mom : ∀ (i : Fin 5) (c : ℝ), Tendsto (fun ε => Srhd.toConserved (slow P ε) g i / ε) (𝓝[≠] 0) (𝓝 (Euler.toConserved P g i)) →
      Tendsto (fun ε => (Srhd.betaAlong (slow P ε) n * Srhd.toConserved (slow P ε) g i + ε ^ 2 * P 4 * c) / ε ^ 2) (𝓝[≠] 0)
        (𝓝 (Euler.velocityAlong P n * Euler.toConserved P g i + P 4 * c)) := by
    intro i c h
    refine ((hv.mul h).add_const (P 4 * c)).congr' ?_
    filter_upwards [self_mem_nhdsWithin] with ε hε
    have hε : ε ≠ 0 := hε
    field_simp
  refine ⟨?_, mom 1 n.n1 c1, mom 2 n.n2 c2, mom 3 n.n3 c3, ?_, ?_⟩
  · refine (hv.mul c0).congr' ?_
    filter_upwards [self_mem_nhdsWithin] with ε hε
    show _ = Srhd.betaAlong (slow P ε) n * Srhd.toConserved (slow P ε) g 0 / ε
    ring
  · refine ((hv.mul c4).add (hv.const_mul (P 4))).congr' ?_
    filter_upwards [self_mem_nhdsWithin] with ε hε
    have hε : ε ≠ 0 := hε
    show _ = (Srhd.betaAlong (slow P ε) n * Srhd.toConserved (slow P ε) g 4 + ε ^ 2 * P 4 * Srhd.betaAlong (slow P ε) n) / ε ^ 3
    field_simp
  · have hh : Tendsto (fun ε : ℝ => P 0 * (1 + ε ^ 2 * Euler.specificEnthalpy P g)) (𝓝[≠] 0) (𝓝 (P 0)) := by
      have := ((sq_tendsto.mul_const (Euler.specificEnthalpy P g)).const_add 1).const_mul (P 0)
      simpa using this
    refine ((tendsto_const_nhds (x := g * P 4)).div hh hP.ne').congr' ?_
    filter_upwards [self_mem_nhdsWithin] with ε hε
    have hε : ε ≠ 0 := hε
    have e : Srhd.enthalpyDensity (slow P ε) g = P 0 * (1 + ε ^ 2 * Euler.specificEnthalpy P g) := by
      have := enthalpy_slow hP ε g
      unfold Srhd.specificEnthalpy at this
      rw [← this]
      show _ = P 0 * (_ / P 0)
      field_simp
    unfold Srhd.soundSpeedSquared
    rw [e]
    show g * P 4 / (P 0 * (1 + ε ^ 2 * Euler.specificEnthalpy P g)) = g * (ε ^ 2 * P 4) / _ / _
    field_simp

/-- Gas of density 2 and pressure 3, moving. -/
noncomputable def sample : Fin 5 → ℝ := ![2, 1, 5, 0, 3]

theorem sample_physical : 0 < sample 0 ∧ 0 < sample 4 := by
  have e4 : sample 4 = 3 := rfl
  have e0 : sample 0 = 2 := rfl
  rw [e0, e4]
  norm_num

example : Euler.Physical sample ∧ Srhd.Physical sample ∧ (1 : ℝ) < 5 / 3 ∧ ∃ p, Adiabat sample (5 / 3) p :=
  ⟨sample_physical, sample_physical, by norm_num, _, adiabat_exists sample_physical _⟩

example : sample 0 ≠ 0 ∧ (5 / 3 : ℝ) ≠ 1 := ⟨sample_physical.1.ne', by norm_num⟩

end Verif.Thermo
