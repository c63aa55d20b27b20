import Verif.Props.SrhdRecover
import Mathlib.Topology.Order.IntermediateValue
import Mathlib.Topology.Algebra.Order.Field

/-!
# Relativistic gas stays gas under first-order updates (C117)

Five numbers are the conserved densities of a gas exactly if the rest mass is positive and the energy exceeds what rest
mass and momentum alone would have; the gas is then unique.  Updates with HLLE fluxes keep this.
-/

namespace Verif.Srhd

open Geometry

/-- Conserved densities of a relativistic gas: positive density of rest mass, and total energy `U 4 + U 0` above that of
cold matter of the same rest mass and momentum. -/
def Admissible (U : Vec) : Prop :=
  0 < U 0 ∧ 0 < U 4 + U 0 ∧ U 0 ^ 2 + (U 1 ^ 2 + U 2 ^ 2 + U 3 ^ 2) < (U 4 + U 0) ^ 2

theorem admissible_smul {U : Vec} (h : Admissible U) {s : ℝ} (hs : 0 < s) : Admissible (fun i => s * U i) := by
  obtain ⟨h1, h2, h3⟩ := h
  refine ⟨mul_pos hs h1, by rw [← mul_add]; exact mul_pos hs h2, ?_⟩
  have := mul_lt_mul_of_pos_left h3 (pow_pos hs 2)
  dsimp only
  linarith

theorem admissible_add {U V : Vec} (hU : Admissible U) (hV : Admissible V) : Admissible (fun i => U i + V i) := by
  obtain ⟨u0, u1, u2⟩ := hU
  obtain ⟨v0, v1, v2⟩ := hV
  refine ⟨add_pos u0 v0, by dsimp only; linarith, ?_⟩
  dsimp only
  -- Cauchy and Schwarz
  obtain ⟨a, ha⟩ : ∃ a, a = U 0 ^ 2 + (U 1 ^ 2 + U 2 ^ 2 + U 3 ^ 2) := ⟨_, rfl⟩
  obtain ⟨b, hb⟩ : ∃ b, b = V 0 ^ 2 + (V 1 ^ 2 + V 2 ^ 2 + V 3 ^ 2) := ⟨_, rfl⟩
  obtain ⟨c, hc⟩ : ∃ c, c = U 0 * V 0 + U 1 * V 1 + U 2 * V 2 + U 3 * V 3 := ⟨_, rfl⟩
  have hcs : c ^ 2 ≤ a * b := by
    have : a * b - c ^ 2 = (U 0 * V 1 - U 1 * V 0) ^ 2 + (U 0 * V 2 - U 2 * V 0) ^ 2 + (U 0 * V 3 - U 3 * V 0) ^ 2 +
        (U 1 * V 2 - U 2 * V 1) ^ 2 + (U 1 * V 3 - U 3 * V 1) ^ 2 + (U 2 * V 3 - U 3 * V 2) ^ 2 := by
      rw [ha, hb, hc]; ring
    have h2 : 0 ≤ a * b - c ^ 2 := by rw [this]; positivity
    linarith
  have ha0 : 0 ≤ a := by rw [ha]; positivity
  have hb0 : 0 ≤ b := by rw [hb]; positivity
  rw [← ha] at u2
  rw [← hb] at v2
  have hlt : c < (U 4 + U 0) * (V 4 + V 0) := by
    refine lt_of_pow_lt_pow_left₀ 2 (mul_pos u1 v1).le ?_
    rw [mul_pow]
    exact lt_of_le_of_lt hcs (mul_lt_mul'' u2 v2 ha0 hb0)
  have e1 : (U 0 + V 0) ^ 2 + ((U 1 + V 1) ^ 2 + (U 2 + V 2) ^ 2 + (U 3 + V 3) ^ 2) = a + b + 2 * c := by
    rw [ha, hb, hc]; ring
  have e2 : (U 4 + V 4 + (U 0 + V 0)) ^ 2 =
      (U 4 + U 0) ^ 2 + (V 4 + V 0) ^ 2 + 2 * ((U 4 + U 0) * (V 4 + V 0)) := by ring
  rw [e1, e2]
  linarith

/-- The conserved densities in terms of the enthalpy density. -/
theorem conserved_eq (P : Vec) (h : Physical P) (g : ℝ) :
    let W := lorentzFactor P
    let H := enthalpyDensity P g
    toConserved P g 0 = P 0 * W ∧ toConserved P g 1 = W * H * P 1 ∧ toConserved P g 2 = W * H * P 2 ∧
      toConserved P g 3 = W * H * P 3 ∧ toConserved P g 4 + toConserved P g 0 = H * W ^ 2 - P 4 := by
  have h0 := h.1.ne'
  dsimp only
  have e : P 0 * specificEnthalpy P g = enthalpyDensity P g := by
    unfold specificEnthalpy; field_simp
  refine ⟨rfl, ?_, ?_, ?_, ?_⟩ <;> rw [← e] <;> simp only [toConserved, at0, at1, at2, at3, at4] <;> ring

/-- Enthalpy, with the number `m = 1 / (g - 1)`. -/
theorem enthalpy_facts {P : Vec} (h : Physical P) {g : ℝ} (hg : 1 < g) (hg2 : g ≤ 2) :
    P 0 + 2 * P 4 ≤ enthalpyDensity P g ∧
      P 4 * (enthalpyDensity P g - g * P 4) < g * (enthalpyDensity P g ^ 2 - P 0 ^ 2 - 2 * enthalpyDensity P g * P 4) := by
  obtain ⟨h0, h4⟩ := h
  obtain ⟨m, hm⟩ : ∃ m, m = 1 / (g - 1) := ⟨_, rfl⟩
  have hm1 : 1 ≤ m := by rw [hm, le_div_iff₀ (by linarith)]; linarith
  have hgm : g = 1 + 1 / m := by
    rw [hm]
    field_simp
    ring
  have hm0 : 0 < m := by linarith
  unfold enthalpyDensity
  rw [← hm]
  constructor
  · nlinarith
  · rw [hgm]
    have e : (1 + 1 / m) * ((P 0 + P 4 * (1 + m)) ^ 2 - P 0 ^ 2 - 2 * (P 0 + P 4 * (1 + m)) * P 4) -
        P 4 * (P 0 + P 4 * (1 + m) - (1 + 1 / m) * P 4) = P 4 * (P 0 * (2 * m + 1) + P 4 * (m ^ 2 - 1)) := by
      field_simp
      ring
    have : 0 < P 4 * (P 0 * (2 * m + 1) + P 4 * (m ^ 2 - 1)) := by
      have : 0 ≤ m ^ 2 - 1 := by nlinarith
      positivity
    linarith

theorem admissible_toConserved {P : Vec} (h : Physical P) {g : ℝ} (hg : 1 < g) (hg2 : g ≤ 2) :
    Admissible (toConserved P g) := by
  obtain ⟨c0, c1, c2, c3, c4⟩ := conserved_eq P h g
  obtain ⟨f1, f2⟩ := enthalpy_facts h hg hg2
  have hW := lorentz_pos P
  have hW2 := lorentz_sq P
  have hG := gammaBeta_nonneg P
  obtain ⟨h0, h4⟩ := h
  rw [Admissible, c0, c1, c2, c3, ← c0, c4, c0]
  have hH : 0 < enthalpyDensity P g := by linarith
  have hgp : g * P 4 < enthalpyDensity P g := by nlinarith
  refine ⟨mul_pos h0 hW, ?_, ?_⟩
  · rw [hW2]
    nlinarith
  · have e : (enthalpyDensity P g * lorentzFactor P ^ 2 - P 4) ^ 2 - ((P 0 * lorentzFactor P) ^ 2 +
        ((lorentzFactor P * enthalpyDensity P g * P 1) ^ 2 + (lorentzFactor P * enthalpyDensity P g * P 2) ^ 2 +
          (lorentzFactor P * enthalpyDensity P g * P 3) ^ 2)) =
        lorentzFactor P ^ 2 * (enthalpyDensity P g ^ 2 - P 0 ^ 2 - 2 * enthalpyDensity P g * P 4) + P 4 ^ 2 := by
      have : P 1 ^ 2 + P 2 ^ 2 + P 3 ^ 2 = lorentzFactor P ^ 2 - 1 := by
        rw [hW2]; unfold gammaBetaSquared; ring
      linear_combination -(lorentzFactor P * enthalpyDensity P g) ^ 2 * this
    have h1 : 0 < enthalpyDensity P g ^ 2 - P 0 ^ 2 - 2 * enthalpyDensity P g * P 4 := by
      have : 0 < P 4 * (enthalpyDensity P g - g * P 4) := mul_pos h4 (by linarith)
      exact (mul_pos_iff_of_pos_left (by linarith : 0 < g)).1 (this.trans f2)
    have h2 : 0 < lorentzFactor P ^ 2 * (enthalpyDensity P g ^ 2 - P 0 ^ 2 - 2 * enthalpyDensity P g * P 4) + P 4 ^ 2 := by
      positivity
    linarith

/-- The speeds of the outer waves solve the equation of sound waves. -/
theorem wave_equation (P : Vec) (h : Physical P) (n : UnitVec ℝ) (hn : UnitLength n) {g : ℝ} (hg : 1 < g) (hg2 : g ≤ 2) :
    (enthalpyDensity P g - g * P 4) * (lorentzFactor P ^ 2 * ((wavespeeds P n g).2 - betaAlong P n) ^ 2) =
      g * P 4 * (1 - (wavespeeds P n g).2 ^ 2) := by
  obtain ⟨h1, h2⟩ := sound_bounds h hg hg2
  have hv := beta_sq_le P n hn
  have hv2 := vv_bounds P
  have hA := speeds_div h (n := n) hg hg2
  have hH := enthalpy_pos h hg
  have hc : g * P 4 = soundSpeedSquared P g * enthalpyDensity P g := by
    unfold soundSpeedSquared; field_simp
  have hWv : lorentzFactor P ^ 2 * (1 - gammaBetaSquared P / (1 + gammaBetaSquared P)) = 1 := by
    rw [lorentz_sq]
    have : 1 + gammaBetaSquared P ≠ 0 := by linarith [gammaBeta_nonneg P]
    field_simp
    ring
  have hk := Real.sq_sqrt (x := soundSpeedSquared P g * (1 - gammaBetaSquared P / (1 + gammaBetaSquared P)) *
      (1 - gammaBetaSquared P / (1 + gammaBetaSquared P) * soundSpeedSquared P g -
        betaAlong P n * betaAlong P n * (1 - soundSpeedSquared P g))) (Real.sqrt_pos.1 (speeds_core h1 h2 hv2.2 hv).1).le
  rw [hc]
  unfold wavespeeds
  dsimp only
  generalize Real.sqrt _ = k at *
  generalize soundSpeedSquared P g = c at *
  generalize betaAlong P n = v at *
  generalize gammaBetaSquared P / (1 + gammaBetaSquared P) = w at *
  generalize enthalpyDensity P g = H at *
  generalize lorentzFactor P ^ 2 = W2 at *
  obtain ⟨l, hl⟩ : ∃ l, l = (v * (1 - c) + k) / (1 - w * c) := ⟨_, rfl⟩
  rw [← hl]
  have hl' : l * (1 - w * c) = v * (1 - c) + k := by rw [hl, div_mul_cancel₀ _ hA.ne']
  have hq : (l * (1 - w * c) - v * (1 - c)) ^ 2 = c * (1 - w) * (1 - w * c - v * v * (1 - c)) := by
    rw [hl', ← hk]; ring
  have hq2 : (1 - w * c) * ((1 - c) * (l - v) ^ 2 - c * (1 - w) * (1 - l ^ 2)) = 0 := by
    linear_combination hq
  have hq3 := (mul_eq_zero.1 hq2).resolve_left hA.ne'
  have : H * (W2 * ((1 - c) * (l - v) ^ 2)) = H * (c * (1 - l ^ 2)) * (W2 * (1 - w)) := by
    linear_combination H * W2 * hq3
  rw [hWv] at this
  linear_combination this

/-- What a gas carries past an observer that moves in front of all of its waves is admissible. -/
theorem admissible_ahead {P : Vec} (h : Physical P) {g : ℝ} (hg : 1 < g) (hg2 : g ≤ 2) (n : UnitVec ℝ) (hn : UnitLength n)
    (w : ℝ) (hw : (wavespeeds P n g).2 ≤ w) : Admissible (fun i => w * toConserved P g i - flux P n g i) := by
  have key : Admissible (fun i => (wavespeeds P n g).2 * toConserved P g i - flux P n g i) := by
    have hwe := wave_equation P h n hn hg hg2
    have hv := (waves_around P h n hn g hg hg2).2
    obtain ⟨c0, c1, c2, c3, c4⟩ := conserved_eq P h g
    obtain ⟨f1, f2⟩ := enthalpy_facts h hg hg2
    have hW := lorentz_pos P
    have hW2 := lorentz_sq P
    have hG := gammaBeta_nonneg P
    obtain ⟨h0, h4⟩ := h
    have hgp : g * P 4 < enthalpyDensity P g := by nlinarith
    have hgp0 : 0 < g * P 4 := mul_pos (by linarith) h4
    obtain ⟨l, hl⟩ : ∃ l, l = (wavespeeds P n g).2 := ⟨_, rfl⟩
    have hvn : n.n1 * P 1 + n.n2 * P 2 + n.n3 * P 3 = lorentzFactor P * betaAlong P n := by
      unfold betaAlong UnitVec.project
      field_simp
    have hss : P 1 ^ 2 + P 2 ^ 2 + P 3 ^ 2 = lorentzFactor P ^ 2 - 1 := by
      rw [hW2]; unfold gammaBetaSquared; ring
    rw [← hl] at hwe hv ⊢
    unfold UnitLength at hn
    have e0 : l * toConserved P g 0 - flux P n g 0 = (l - betaAlong P n) * (P 0 * lorentzFactor P) := by
      rw [← c0]; simp only [flux, fluxWith, at0]; ring
    have e1 : l * toConserved P g 1 - flux P n g 1 =
        (l - betaAlong P n) * (lorentzFactor P * enthalpyDensity P g * P 1) - P 4 * n.n1 := by
      rw [← c1]; simp only [flux, fluxWith, at1]; ring
    have e2 : l * toConserved P g 2 - flux P n g 2 =
        (l - betaAlong P n) * (lorentzFactor P * enthalpyDensity P g * P 2) - P 4 * n.n2 := by
      rw [← c2]; simp only [flux, fluxWith, at2]; ring
    have e3 : l * toConserved P g 3 - flux P n g 3 =
        (l - betaAlong P n) * (lorentzFactor P * enthalpyDensity P g * P 3) - P 4 * n.n3 := by
      rw [← c3]; simp only [flux, fluxWith, at3]; ring
    have e4 : l * toConserved P g 4 - flux P n g 4 + (l * toConserved P g 0 - flux P n g 0) =
        (l - betaAlong P n) * (enthalpyDensity P g * lorentzFactor P ^ 2) - P 4 * l := by
      have : (l - betaAlong P n) * (toConserved P g 4 + toConserved P g 0) =
          (l - betaAlong P n) * (enthalpyDensity P g * lorentzFactor P ^ 2 - P 4) := by rw [c4]
      simp only [flux, fluxWith, at0, at4]
      linear_combination this
    simp only [Admissible]
    rw [e0, e1, e2, e3, ← e0, e4, e0]
    clear e0 e1 e2 e3 e4 c0 c1 c2 c3 c4 hl
    generalize betaAlong P n = v at *
    generalize lorentzFactor P = W at *
    generalize enthalpyDensity P g = H at *
    generalize P 0 = d at *
    generalize P 4 = p at *
    have hs : 0 < l - v := by linarith
    obtain ⟨Q, hQ⟩ : ∃ Q, Q = H ^ 2 - d ^ 2 - 2 * H * p := ⟨_, rfl⟩
    -- the mass-shell condition, for any speed of the observer
    have shell : ∀ w, ((w - v) * (H * W ^ 2) - p * w) ^ 2 - (((w - v) * (d * W)) ^ 2 + (((w - v) * (W * H * P 1) - p * n.n1) ^ 2 +
        ((w - v) * (W * H * P 2) - p * n.n2) ^ 2 + ((w - v) * (W * H * P 3) - p * n.n3) ^ 2)) =
        (w - v) ^ 2 * W ^ 2 * Q - p ^ 2 * (1 - w ^ 2) := by
      intro w
      rw [hQ]
      linear_combination -((w - v) * (W * H)) ^ 2 * hss + 2 * (w - v) * W * H * p * hvn - p ^ 2 * hn
    have hM : p ^ 2 * (1 - l ^ 2) < (l - v) ^ 2 * W ^ 2 * Q := by
      rw [← hQ] at f2
      have hpos : 0 < W ^ 2 * (l - v) ^ 2 := by positivity
      have h1 := mul_lt_mul_of_pos_right f2 hpos
      have h2 : p * (g * p * (1 - l ^ 2)) < g * Q * (W ^ 2 * (l - v) ^ 2) := by
        rw [← hwe]; linarith
      refine lt_of_mul_lt_mul_left (a := g) ?_ (by linarith)
      linarith
    refine ⟨by positivity, ?_, by linarith [shell l]⟩
    by_contra hneg
    rw [not_lt] at hneg
    have hH : 0 < H := by linarith
    have hA : p < H * W ^ 2 := by
      rw [hW2]
      nlinarith
    have hv0 : 0 < v := by
      by_contra hv0
      have : 0 ≤ p * -v := mul_nonneg h4.le (by linarith)
      have : 0 < (l - v) * (H * W ^ 2 - p) := mul_pos hs (by linarith)
      linarith
    -- the speed at which no energy is carried
    obtain ⟨w, hw⟩ : ∃ w, w = H * W ^ 2 * v / (H * W ^ 2 - p) := ⟨_, rfl⟩
    have hw' : (w - v) * (H * W ^ 2) - p * w = 0 := by
      have : H * W ^ 2 - p ≠ 0 := by linarith
      rw [hw]
      field_simp
      ring
    have hlw : l ≤ w := by
      rw [hw, le_div_iff₀ (by linarith)]
      linarith
    have hsh := shell w
    rw [hw'] at hsh
    have hQ0 : 0 < Q := by
      rw [← hQ] at f2
      have : 0 < p * (H - g * p) := mul_pos h4 (by linarith)
      exact (mul_pos_iff_of_pos_left (by linarith : 0 < g)).1 (this.trans f2)
    have hneg2 : (w - v) ^ 2 * W ^ 2 * Q ≤ p ^ 2 * (1 - w ^ 2) := by
      have : 0 ≤ ((w - v) * (d * W)) ^ 2 + (((w - v) * (W * H * P 1) - p * n.n1) ^ 2 +
        ((w - v) * (W * H * P 2) - p * n.n2) ^ 2 + ((w - v) * (W * H * P 3) - p * n.n3) ^ 2) := by positivity
      linarith
    have m1 : (l - v) ^ 2 * W ^ 2 * Q ≤ (w - v) ^ 2 * W ^ 2 * Q := by
      gcongr
    have m2 : p ^ 2 * (1 - w ^ 2) ≤ p ^ 2 * (1 - l ^ 2) := by
      have : l ^ 2 ≤ w ^ 2 := pow_le_pow_left₀ (by linarith) hlw 2
      exact mul_le_mul_of_nonneg_left (by linarith) (by positivity)
    linarith
  rcases eq_or_lt_of_le hw with rfl | hw
  · exact key
  · refine Eq.mp (congrArg Admissible (funext fun i => ?_))
      (admissible_add key (admissible_smul (admissible_toConserved h hg hg2) (sub_pos.2 hw)))
    ring

/-- The same for an observer that the gas and all of its waves move away from. -/
theorem admissible_behind {P : Vec} (h : Physical P) {g : ℝ} (hg : 1 < g) (hg2 : g ≤ 2) (n : UnitVec ℝ) (hn : UnitLength n)
    (w : ℝ) (hw : w ≤ (wavespeeds P n g).1) : Admissible (fun i => flux P n g i - w * toConserved P g i) := by
  have := admissible_ahead h hg hg2 (opposite n) (by unfold UnitLength opposite at *; dsimp only; linarith) (-w)
    (by rw [wavespeeds_opposite]; dsimp only; linarith)
  refine Eq.mp (congrArg Admissible (funext fun i => ?_)) this
  rw [flux_opposite]
  ring

/-- The state between the outer waves is that of a gas. -/
theorem admissible_star {Pl Pr : Vec} (hl : Physical Pl) (hr : Physical Pr) {g : ℝ} (hg : 1 < g) (hg2 : g ≤ 2) (n : UnitVec ℝ)
    (hn : UnitLength n) (ap am : ℝ) (hp : (wavespeeds Pr n g).2 ≤ ap) (hm : am ≤ (wavespeeds Pl n g).1) (h : am < ap) :
    Admissible (fun i => Hlle.star (flux Pl n g i) (flux Pr n g i) (toConserved Pl g i) (toConserved Pr g i) ap am) := by
  have h1 := admissible_ahead hr hg hg2 n hn ap hp
  have h2 := admissible_behind hl hg hg2 n hn am hm
  have h3 := admissible_smul (admissible_add h1 h2) (s := 1 / (ap - am)) (one_div_pos.2 (by linarith))
  refine Eq.mp (congrArg Admissible (funext fun i => ?_)) h3
  simp only [Hlle.star]
  ring

/-- What is left of a share `a` of a cell after a flux through the face on its right, compared with the flux in the cell:
admissible if no wave crosses more than this share. -/
theorem admissible_right {P Pr : Vec} (h : Physical P) (hr : Physical Pr) {g : ℝ} (hg : 1 < g) (hg2 : g ≤ 2) (n : UnitVec ℝ)
    (hn : UnitLength n) {a c : ℝ} (hc : 0 < c) (hca : c ≤ a) :
    Admissible (fun i => a * toConserved P g i - c * (hlle P Pr n g i - flux P n g i)) := by
  obtain ⟨ap, hap⟩ : ∃ ap, ap = max 0 (max (wavespeeds P n g).2 (wavespeeds Pr n g).2) := ⟨_, rfl⟩
  obtain ⟨am, ham⟩ : ∃ am, am = min 0 (min (wavespeeds P n g).1 (wavespeeds Pr n g).1) := ⟨_, rfl⟩
  have hlt : am < ap := by rw [hap, ham]; exact speeds_lt Pr n hn h hg hg2
  have hstar := admissible_star h hr hg hg2 n hn ap am (by rw [hap]; exact (le_max_right _ _).trans (le_max_right _ _))
    (by rw [ham]; exact (min_le_right _ _).trans (min_le_left _ _)) hlt
  have ham1 : -1 < am := by
    rw [ham]
    exact lt_min (by norm_num) (lt_min (causal_partial P h n hn g hg hg2).1 (causal_partial Pr hr n hn g hg hg2).1)
  have ham0 : am ≤ 0 := by rw [ham]; exact min_le_left _ _
  have e : ∀ i, a * toConserved P g i - c * (hlle P Pr n g i - flux P n g i) =
      (a + c * am) * toConserved P g i + -(c * am) *
        Hlle.star (flux P n g i) (flux Pr n g i) (toConserved P g i) (toConserved Pr g i) ap am := by
    intro i
    rw [hlle_eq, ← hap, ← ham, Hlle.core_star_left _ _ _ _ hlt]
    ring
  rw [funext e]
  have hA := admissible_smul (admissible_toConserved h hg hg2) (s := a + c * am) (by nlinarith)
  rcases eq_or_lt_of_le ham0 with h0 | h0
  · rw [h0] at hA ⊢
    simpa using hA
  · exact admissible_add hA (admissible_smul hstar (by nlinarith))

/-- The same for the face on its left. -/
theorem admissible_left {Pl P : Vec} (hl : Physical Pl) (h : Physical P) {g : ℝ} (hg : 1 < g) (hg2 : g ≤ 2) (n : UnitVec ℝ)
    (hn : UnitLength n) {a c : ℝ} (hc : 0 < c) (hca : c ≤ a) :
    Admissible (fun i => a * toConserved P g i + c * (hlle Pl P n g i - flux P n g i)) := by
  have hn' : UnitLength (opposite n) := by unfold UnitLength opposite at *; dsimp only; linarith
  refine Eq.mp (congrArg Admissible (funext fun i => ?_)) (admissible_right h hl hg hg2 (opposite n) hn' hc hca)
  rw [hlle_opposite, flux_opposite, Pi.neg_apply]
  ring

/-- Two guesses of the pressure that both fit the conserved densities are equal. -/
theorem pressure_unique {D E S k p q y z : ℝ} (hD : 0 < D) (hk : 2 ≤ k) (hp : 0 < E + p) (hpq : p < q) (hS : S < (E + p) ^ 2)
    (hS0 : 0 ≤ S) (hy : 0 < y) (hz : 0 < z) (hy2 : y ^ 2 = (E + p) ^ 2 - S) (hz2 : z ^ 2 = (E + q) ^ 2 - S)
    (h1 : k * p * (E + p) = y * (y - D)) (h2 : k * q * (E + q) = z * (z - D)) : False := by
  obtain ⟨x, hx⟩ : ∃ x, x = E + p := ⟨_, rfl⟩
  obtain ⟨t, ht⟩ : ∃ t, t = E + q := ⟨_, rfl⟩
  rw [← hx] at hp hS hy2 h1
  rw [← ht] at hz2 h2
  have hxt : x < t := by linarith
  have ht0 : 0 < t := by linarith
  -- the guessed density grows with the pressure
  have hyz : y * t ≤ z * x := by
    have : (y * t) ^ 2 ≤ (z * x) ^ 2 := by
      rw [mul_pow, mul_pow, hy2, hz2]
      have : 0 ≤ S * (t ^ 2 - x ^ 2) := mul_nonneg hS0 (by nlinarith)
      linarith
    exact (sq_le_sq₀ (by positivity) (by positivity)).1 this
  have hD2 : D * y * t ≤ D * z * x := by
    have := mul_le_mul_of_nonneg_left hyz hD.le
    linarith
  -- times x t, the difference of the two equations
  have e1 : k * p * x * t = (x ^ 2 - S) * t - D * y * t := by rw [h1, ← hy2]; ring
  have e2 : k * q * t * x = (t ^ 2 - S) * x - D * z * x := by rw [h2, ← hz2]; ring
  have e3 : k * (q - p) * (x * t) ≤ (t - x) * (x * t + S) := by
    have : k * (q - p) * (x * t) = (t ^ 2 - S) * x - D * z * x - ((x ^ 2 - S) * t - D * y * t) := by
      rw [← e1, ← e2]; ring
    rw [this]
    linarith
  have hqp : q - p = t - x := by rw [hx, ht]; ring
  rw [hqp] at e3
  have hSx : S < x * t := by nlinarith
  have : (t - x) * (x * t + S) < (t - x) * (2 * (x * t)) := mul_lt_mul_of_pos_left (by linarith) (by linarith)
  have : (t - x) * (2 * (x * t)) ≤ k * (t - x) * (x * t) := by
    have : 0 ≤ (k - 2) * ((t - x) * (x * t)) :=
      mul_nonneg (by linarith) (mul_nonneg (by linarith) (mul_pos hp ht0).le)
    linarith
  linarith

/-- **C117**: five numbers are the conserved densities of a gas exactly if they are admissible, and then of one gas only. -/
theorem conserved_iff (U : Vec) (g : ℝ) (hg : 1 < g) (hg2 : g ≤ 2) :
    Admissible U ↔ ∃! P, Physical P ∧ toConserved P g = U := by
  constructor
  swap
  · rintro ⟨P, ⟨h, rfl⟩, -⟩
    exact admissible_toConserved h hg hg2
  intro hU
  have hm : 0 < g - 1 := by linarith
  obtain ⟨u0, u1, u2⟩ := hU
  obtain ⟨S, hS⟩ : ∃ S, S = U 1 ^ 2 + U 2 ^ 2 + U 3 ^ 2 := ⟨_, rfl⟩
  obtain ⟨E, hE⟩ : ∃ E, E = U 4 + U 0 := ⟨_, rfl⟩
  obtain ⟨D, hD⟩ : ∃ D, D = U 0 := ⟨_, rfl⟩
  have hS0 : 0 ≤ S := by rw [hS]; positivity
  rw [← hS, ← hE, ← hD] at u2
  rw [← hE] at u1
  rw [← hD] at u0
  have hpos : ∀ p, 0 ≤ p → D ^ 2 < (E + p) ^ 2 - S := by
    intro p hp
    have : E ^ 2 ≤ (E + p) ^ 2 := pow_le_pow_left₀ u1.le (by linarith) 2
    linarith
  obtain ⟨y, hy⟩ : ∃ y : ℝ → ℝ, y = fun p => Real.sqrt ((E + p) ^ 2 - S) := ⟨_, rfl⟩
  have hyc : Continuous y := by rw [hy]; fun_prop
  have hy2 : ∀ p, 0 ≤ p → y p ^ 2 = (E + p) ^ 2 - S := by
    intro p hp
    rw [hy]
    exact Real.sq_sqrt (by linarith [hpos p hp, sq_nonneg D])
  have hyD : ∀ p, 0 ≤ p → D < y p := by
    intro p hp
    rw [hy]
    exact Real.lt_sqrt_of_sq_lt (hpos p hp)
  -- the pressure
  obtain ⟨p, hp, hpe⟩ : ∃ p, 0 < p ∧ g * p * (E + p) = (g - 1) * (y p * (y p - D)) := by
    have hc : ContinuousOn (fun p => g * p * (E + p) - (g - 1) * (y p * (y p - D))) (Set.Icc 0 ((g - 1) * E)) := by
      fun_prop
    have hn : 0 ≤ (g - 1) * E := by positivity
    have h0 : (fun p => g * p * (E + p) - (g - 1) * (y p * (y p - D))) 0 < 0 := by
      have := hyD 0 le_rfl
      have : 0 < (g - 1) * (y 0 * (y 0 - D)) := mul_pos hm (mul_pos (by linarith) (by linarith))
      dsimp only
      linarith
    have h1 : 0 ≤ (fun p => g * p * (E + p) - (g - 1) * (y p * (y p - D))) ((g - 1) * E) := by
      dsimp only
      have a1 := hyD _ hn
      have a2 := hy2 _ hn
      have a3 : y ((g - 1) * E) * (y ((g - 1) * E) - D) ≤ (E + (g - 1) * E) ^ 2 := by nlinarith
      have a4 := mul_le_mul_of_nonneg_left a3 hm.le
      have a5 : g * ((g - 1) * E) * (E + (g - 1) * E) = (g - 1) * (E + (g - 1) * E) ^ 2 := by ring
      linarith
    obtain ⟨p, ⟨hp1, hp2⟩, hp3⟩ := intermediate_value_Icc hn hc ⟨h0.le, h1⟩
    dsimp only at hp3
    refine ⟨p, lt_of_le_of_ne hp1 ?_, by linarith⟩
    rintro rfl
    exact h0.ne hp3
  have hx : 0 < E + p := by linarith
  have hyp := hyD p hp.le
  have hy0 : 0 < y p := by linarith
  have hy2p := hy2 p hp.le
  generalize y p = z at *
  refine ⟨![D * z / (E + p), U 1 / z, U 2 / z, U 3 / z, p], ⟨⟨?_, ?_⟩, ?_⟩, ?_⟩
  · rw [at0]; positivity
  · rw [at4]; exact hp
  · have hG : 1 + gammaBetaSquared ![D * z / (E + p), U 1 / z, U 2 / z, U 3 / z, p] = ((E + p) / z) ^ 2 := by
      unfold gammaBetaSquared
      rw [at1, at2, at3, div_pow, show (E + p) ^ 2 = z ^ 2 + (U 1 ^ 2 + U 2 ^ 2 + U 3 ^ 2) by rw [← hS]; linarith]
      field_simp
    have hL : lorentzFactor ![D * z / (E + p), U 1 / z, U 2 / z, U 3 / z, p] = (E + p) / z := by
      unfold lorentzFactor
      rw [hG, Real.sqrt_sq (by positivity)]
    have hH : enthalpyDensity ![D * z / (E + p), U 1 / z, U 2 / z, U 3 / z, p] g = z ^ 2 / (E + p) := by
      unfold enthalpyDensity
      rw [at0, at4]
      have : p * (1 + 1 / (g - 1)) = z * (z - D) / (E + p) := by
        rw [eq_div_iff hx.ne']
        have : (1 + 1 / (g - 1)) = g / (g - 1) := by field_simp; ring
        rw [this]
        field_simp
        linarith
      rw [this]
      ring
    obtain ⟨c0, c1, c2, c3, c4⟩ := conserved_eq ![D * z / (E + p), U 1 / z, U 2 / z, U 3 / z, p]
      ⟨by rw [at0]; positivity, by rw [at4]; exact hp⟩ g
    rw [hL, hH] at c1 c2 c3 c4
    rw [hL] at c0
    rw [at0] at c0
    rw [at1] at c1
    rw [at2] at c2
    rw [at3] at c3
    rw [at4] at c4
    have d0 : D * z / (E + p) * ((E + p) / z) = U 0 := by rw [← hD]; field_simp
    rw [d0] at c0
    have dd : ∀ u, (E + p) / z * (z ^ 2 / (E + p)) * (u / z) = u := by intro u; field_simp
    rw [dd] at c1 c2 c3
    have d4 : z ^ 2 / (E + p) * ((E + p) / z) ^ 2 - p = E := by field_simp; ring
    rw [d4, c0] at c4
    funext i
    revert i
    exact forall5 c0 c1 c2 c3 (by linarith only [c4, hE])
  · rintro Q ⟨hQ, rfl⟩
    obtain ⟨t0, t1, t2, t3, t4, t5⟩ := true_eq Q hQ g hg
    rw [← hE] at t1
    rw [← hD] at t0
    have hL := lorentz_pos Q
    have hmom : momentumSquared (toConserved Q g) = S := by rw [hS]; unfold momentumSquared; ring
    rw [hmom] at t4
    rw [← t0] at t1 t2 t4 t5
    have hk : 2 ≤ g / (g - 1) := by rw [le_div_iff₀ hm]; linarith
    have e1 : g / (g - 1) * p * (E + p) = z * (z - D) := by
      rw [div_mul_eq_mul_div, div_mul_eq_mul_div, div_eq_iff hm.ne', hpe]; ring
    have e2 : g / (g - 1) * Q 4 * (E + Q 4) = D * specificEnthalpy Q g * (D * specificEnthalpy Q g - D) := by
      rw [div_mul_eq_mul_div, div_mul_eq_mul_div, div_eq_iff hm.ne', t1, t5]; ring
    have hw0 : 0 < D * specificEnthalpy Q g := mul_pos t2 t3
    have hw2 : (D * specificEnthalpy Q g) ^ 2 = (E + Q 4) ^ 2 - S := by rw [t4, t1]; ring
    have hQp : Q 4 = p := by
      have hQ4 := hQ.2
      rcases lt_trichotomy (Q 4) p with h | h | h
      · exact (pressure_unique u0 hk (by linarith) h (by linarith [pow_pos hw0 2]) hS0 hw0 hy0 hw2 hy2p e2 e1).elim
      · exact h
      · exact (pressure_unique u0 hk hx h (by linarith [pow_pos hy0 2]) hS0 hy0 hw0 hy2p hw2 e1 e2).elim
    have hwz : D * specificEnthalpy Q g = z := by
      have : (D * specificEnthalpy Q g) ^ 2 = z ^ 2 := by rw [hw2, hy2p, hQp]
      exact (pow_left_inj₀ hw0.le hy0.le two_ne_zero).1 this
    rw [hwz, hQp] at t1
    have hWz : lorentzFactor Q = (E + p) / z := by rw [t1]; field_simp
    have hQ0 : Q 0 = D * z / (E + p) := by rw [t0, hWz]; field_simp
    have hu : ∀ u, Q 0 * lorentzFactor Q * u * specificEnthalpy Q g / z = u := by
      intro u
      rw [← t0, ← hwz]
      field_simp
    funext i
    revert i
    refine forall5 ?_ ?_ ?_ ?_ ?_
    · rw [at0]; exact hQ0
    · rw [at1]; exact (hu _).symm
    · rw [at2]; exact (hu _).symm
    · rw [at3]; exact (hu _).symm
    · rw [at4]; exact hQp

/-- Conserved quantities with a state, and some without: the momentum must not exceed the energy. -/
example : (∃! P, Physical P ∧ toConserved P (4 / 3) = ![1, 3, 4, 0, 10]) ∧
    ¬ ∃! P, Physical P ∧ toConserved P (4 / 3) = ![1, 3, 4, 0, 2] := by
  rw [← conserved_iff _ _ (by norm_num) (by norm_num), ← conserved_iff _ _ (by norm_num) (by norm_num)]
  unfold Admissible
  norm_num [at0, at1, at2, at3, at4]

/-- **C117**: a step of the first-order scheme keeps relativistic gas a gas: the conserved densities of a cell between two
others, changed by the fluxes through its two faces, are again those of exactly one gas, if light does not cross more than
half of the cell. -/
theorem hlle_positive (Pl P Pr : Vec) (hl : Physical Pl) (h : Physical P) (hr : Physical Pr) (g : ℝ) (hg : 1 < g) (hg2 : g ≤ 2)
    (n : UnitVec ℝ) (hn : UnitLength n) (c : ℝ) (hc : 0 < c) (hcfl : c ≤ 1 / 2) :
    ∃! Q, Physical Q ∧ toConserved Q g = fun i => toConserved P g i - c * (hlle P Pr n g i - hlle Pl P n g i) := by
  rw [← conserved_iff _ g hg hg2]
  refine Eq.mp (congrArg Admissible (funext fun i => ?_))
    (admissible_add (admissible_right h hr hg hg2 n hn hc hcfl) (admissible_left hl h hg hg2 n hn hc hcfl))
  ring

/-- Cells that run apart at almost the speed of light. -/
example : ∃! Q, Physical Q ∧ toConserved Q (4 / 3) = fun i => toConserved ![1, 0, 0, 0, 1] (4 / 3) i -
    1 / 2 * (hlle ![1, 0, 0, 0, 1] ![2, 100, 3, 0, 1 / 1000] ⟨1, 0, 0⟩ (4 / 3) i -
      hlle ![5, -100, 0, 7, 1000] ![1, 0, 0, 0, 1] ⟨1, 0, 0⟩ (4 / 3) i) := by
  refine hlle_positive _ _ _ ⟨?_, ?_⟩ ⟨?_, ?_⟩ ⟨?_, ?_⟩ _ (by norm_num) (by norm_num) _ (by unfold UnitLength; norm_num) _ (by norm_num)
    le_rfl <;> first | rw [at0] | rw [at4]
  all_goals norm_num

end Verif.Srhd
