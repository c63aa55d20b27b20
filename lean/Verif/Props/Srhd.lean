import Verif.Model.Srhd
import Verif.Lemmas.Hlle
import Mathlib.Tactic.FieldSimp
import Mathlib.Tactic.Positivity
import Mathlib.Tactic.Linarith
import Mathlib.Tactic.FinCases
import Mathlib.Tactic.NormNum
import Mathlib.Tactic.Push
import Mathlib.Tactic.ByContra

/-!
# Relativistic gas dynamics (C55, C59, C83)
-/

namespace Verif.Srhd

open Geometry

/-- A gas: positive density and pressure. -/
def Physical (P : Vec) : Prop := 0 < P 0 ∧ 0 < P 4

/-- A direction: of length one. -/
def UnitLength (n : UnitVec ℝ) : Prop := n.n1 ^ 2 + n.n2 ^ 2 + n.n3 ^ 2 = 1

theorem at0 (a b c d e : ℝ) : (![a, b, c, d, e] : Vec) 0 = a := rfl
theorem at1 (a b c d e : ℝ) : (![a, b, c, d, e] : Vec) 1 = b := rfl
theorem at2 (a b c d e : ℝ) : (![a, b, c, d, e] : Vec) 2 = c := rfl
theorem at3 (a b c d e : ℝ) : (![a, b, c, d, e] : Vec) 3 = d := rfl
theorem at4 (a b c d e : ℝ) : (![a, b, c, d, e] : Vec) 4 = e := rfl

theorem forall5 {p : Fin 5 → Prop} (h0 : p 0) (h1 : p 1) (h2 : p 2) (h3 : p 3) (h4 : p 4) : ∀ i, p i := by
  intro i; fin_cases i <;> assumption

theorem gammaBeta_nonneg (P : Vec) : 0 ≤ gammaBetaSquared P :=
  add_nonneg (add_nonneg (mul_self_nonneg _) (mul_self_nonneg _)) (mul_self_nonneg _)

theorem lorentz_pos (P : Vec) : 0 < lorentzFactor P := Real.sqrt_pos.2 (by linarith [gammaBeta_nonneg P])

theorem lorentz_sq (P : Vec) : lorentzFactor P ^ 2 = 1 + gammaBetaSquared P :=
  Real.sq_sqrt (by linarith [gammaBeta_nonneg P])

theorem enthalpy_pos {P : Vec} (h : Physical P) {g : ℝ} (hg : 1 < g) : 0 < enthalpyDensity P g := by
  have : 0 < 1 / (g - 1) := one_div_pos.2 (by linarith)
  exact add_pos h.1 (mul_pos h.2 (by linarith))

/-- The speed of sound lies between zero and that of light. -/
theorem sound_bounds {P : Vec} (h : Physical P) {g : ℝ} (hg : 1 < g) (hg2 : g ≤ 2) :
    0 < soundSpeedSquared P g ∧ soundSpeedSquared P g < 1 := by
  have hH := enthalpy_pos h hg
  refine ⟨div_pos (mul_pos (by linarith) h.2) hH, ?_⟩
  unfold soundSpeedSquared
  rw [div_lt_one hH]
  unfold enthalpyDensity
  have : 1 ≤ 1 / (g - 1) := by
    rw [le_div_iff₀ (by linarith)]; linarith
  nlinarith [h.1, h.2]

/-- The square of the speed along a direction is at most that of the whole velocity, which is less than one. -/
theorem beta_sq_le (P : Vec) (n : UnitVec ℝ) (hn : UnitLength n) :
    betaAlong P n * betaAlong P n ≤ gammaBetaSquared P / (1 + gammaBetaSquared P) := by
  have h1 := lorentz_pos P
  have h2 := lorentz_sq P
  have h0 := gammaBeta_nonneg P
  unfold betaAlong
  rw [div_mul_div_comm, ← pow_two (lorentzFactor P), h2]
  refine div_le_div_of_nonneg_right ?_ (by linarith)
  unfold UnitVec.project gammaBetaSquared
  unfold UnitLength at hn
  have e : P 1 * P 1 + P 2 * P 2 + P 3 * P 3 = (P 1 * P 1 + P 2 * P 2 + P 3 * P 3) * (n.n1 ^ 2 + n.n2 ^ 2 + n.n3 ^ 2) := by
    rw [hn, mul_one]
  rw [e]
  nlinarith [sq_nonneg (P 1 * n.n2 - P 2 * n.n1), sq_nonneg (P 1 * n.n3 - P 3 * n.n1), sq_nonneg (P 2 * n.n3 - P 3 * n.n2)]

theorem vv_bounds (P : Vec) : 0 ≤ gammaBetaSquared P / (1 + gammaBetaSquared P) ∧
    gammaBetaSquared P / (1 + gammaBetaSquared P) < 1 := by
  have h0 := gammaBeta_nonneg P
  exact ⟨div_nonneg h0 (by linarith), by rw [div_lt_one (by linarith)]; linarith⟩

/-- **C59**: the gas moves slower than light in every direction. -/
theorem beta_causal (P : Vec) (n : UnitVec ℝ) (hn : UnitLength n) : |betaAlong P n| < 1 := by
  have h1 := beta_sq_le P n hn
  have h2 := vv_bounds P
  rw [abs_lt]
  constructor <;> nlinarith

example : |betaAlong ![1, 30, 40, 0, 10] ⟨3 / 5, 4 / 5, 0⟩| < 1 := beta_causal _ _ (by unfold UnitLength; norm_num)

theorem speeds_core {c2 vv vn : ℝ} (h1 : 0 < c2) (h2 : c2 < 1) (h3 : vv < 1) (h4 : vn * vn ≤ vv) :
    0 < Real.sqrt (c2 * (1 - vv) * (1 - vv * c2 - vn * vn * (1 - c2))) ∧
    -(1 - vv * c2) < vn * (1 - c2) - Real.sqrt (c2 * (1 - vv) * (1 - vv * c2 - vn * vn * (1 - c2))) ∧
    vn * (1 - c2) + Real.sqrt (c2 * (1 - vv) * (1 - vv * c2 - vn * vn * (1 - c2))) < 1 - vv * c2 := by
  have hv : 0 ≤ vv := (mul_self_nonneg vn).trans h4
  have hvn : vn < 1 := by nlinarith
  have hvn' : -1 < vn := by nlinarith
  have hA : 0 < 1 - vv * c2 := by nlinarith
  have hk : 0 < 1 - vv * c2 - vn * vn * (1 - c2) := by nlinarith
  have hpos : 0 < c2 * (1 - vv) * (1 - vv * c2 - vn * vn * (1 - c2)) := mul_pos (mul_pos h1 (by linarith)) hk
  have hAq : 0 < c2 * (1 - vv) := mul_pos h1 (by linarith)
  refine ⟨Real.sqrt_pos.2 hpos, ?_, ?_⟩
  · have : Real.sqrt (c2 * (1 - vv) * (1 - vv * c2 - vn * vn * (1 - c2))) < 1 - vv * c2 + vn * (1 - c2) := by
      rw [Real.sqrt_lt' (by nlinarith)]
      have : 0 < (1 - vv * c2) * (1 - c2) * (1 + vn) ^ 2 := by
        have : 0 < 1 + vn := by linarith
        have : 0 < 1 - c2 := by linarith
        positivity
      linarith
    linarith
  · have : Real.sqrt (c2 * (1 - vv) * (1 - vv * c2 - vn * vn * (1 - c2))) < 1 - vv * c2 - vn * (1 - c2) := by
      rw [Real.sqrt_lt' (by nlinarith)]
      have : 0 < (1 - vv * c2) * (1 - c2) * (1 - vn) ^ 2 := by
        have : 0 < 1 - vn := by linarith
        have : 0 < 1 - c2 := by linarith
        positivity
      linarith
    linarith

theorem speeds_div {P : Vec} (h : Physical P) {n : UnitVec ℝ} {g : ℝ} (hg : 1 < g) (hg2 : g ≤ 2) :
    0 < 1 - gammaBetaSquared P / (1 + gammaBetaSquared P) * soundSpeedSquared P g := by
  have h1 := sound_bounds h hg hg2
  have h2 := vv_bounds P
  nlinarith

/-- **C59**: both wave speeds are below the speed of light, for adiabatic indices up to two.  What is missing: larger
indices, see `causal_violated`. -/
theorem causal_partial (P : Vec) (h : Physical P) (n : UnitVec ℝ) (hn : UnitLength n) (g : ℝ) (hg : 1 < g) (hg2 : g ≤ 2) :
    -1 < (wavespeeds P n g).1 ∧ (wavespeeds P n g).1 < (wavespeeds P n g).2 ∧ (wavespeeds P n g).2 < 1 := by
  obtain ⟨h1, h2⟩ := sound_bounds h hg hg2
  obtain ⟨k1, k2, k3⟩ := speeds_core h1 h2 (vv_bounds P).2 (beta_sq_le P n hn)
  have hA := speeds_div h (n := n) hg hg2
  unfold wavespeeds
  dsimp only
  refine ⟨?_, ?_, ?_⟩
  · rw [lt_div_iff₀ hA]; linarith
  · rw [div_lt_div_iff_of_pos_right hA]; linarith
  · rw [div_lt_one hA]; linarith

/-- **C59**: the waves run to both sides of the gas. -/
theorem waves_around (P : Vec) (h : Physical P) (n : UnitVec ℝ) (hn : UnitLength n) (g : ℝ) (hg : 1 < g) (hg2 : g ≤ 2) :
    (wavespeeds P n g).1 < betaAlong P n ∧ betaAlong P n < (wavespeeds P n g).2 := by
  obtain ⟨h1, h2⟩ := sound_bounds h hg hg2
  have hv := beta_sq_le P n hn
  have hv2 := (vv_bounds P).2
  have hA := speeds_div h (n := n) hg hg2
  have hb := beta_causal P n hn
  unfold wavespeeds
  dsimp only
  generalize soundSpeedSquared P g = c at *
  generalize betaAlong P n = v at *
  generalize gammaBetaSquared P / (1 + gammaBetaSquared P) = w at *
  have hvv : v * v < 1 := by linarith
  have key : |v * c * (1 - w)| < Real.sqrt (c * (1 - w) * (1 - w * c - v * v * (1 - c))) := by
    rw [Real.lt_sqrt (abs_nonneg _), sq_abs]
    have e : c * (1 - w) * (1 - w * c - v * v * (1 - c)) - (v * c * (1 - w)) ^ 2 =
      c * (1 - w) * ((1 - w * c) * (1 - v * v)) := by ring
    have : 0 < c * (1 - w) * ((1 - w * c) * (1 - v * v)) :=
      mul_pos (mul_pos h1 (by linarith)) (mul_pos hA (by linarith))
    linarith
  rw [abs_lt] at key
  constructor
  · rw [div_lt_iff₀ hA]; linarith [key.1]
  · rw [lt_div_iff₀ hA]; linarith [key.2]

example : (wavespeeds ![1, 3, 4, 0, 10] ⟨3 / 5, 4 / 5, 0⟩ (4 / 3)).1 < betaAlong ![1, 3, 4, 0, 10] ⟨3 / 5, 4 / 5, 0⟩ :=
  (waves_around _ ⟨by rw [at0]; norm_num, by rw [at4]; norm_num⟩ _ (by unfold UnitLength; norm_num) _ (by norm_num)
    (by norm_num)).1

/-- **C59, a violation** for an adiabatic index of three: in hot gas at rest sound would be faster than light. -/
theorem causal_violated : ∃ P : Vec, Physical P ∧ 1 < (wavespeeds P ⟨1, 0, 0⟩ 3).2 := by
  refine ⟨![1, 0, 0, 0, 2], ⟨?_, ?_⟩, ?_⟩
  · rw [at0]; norm_num
  · rw [at4]; norm_num
  · have hs : soundSpeedSquared ![1, 0, 0, 0, 2] 3 = 3 / 2 := by
      simp only [soundSpeedSquared, enthalpyDensity, at0, at4]; norm_num
    have hv : betaAlong ![1, 0, 0, 0, 2] ⟨1, 0, 0⟩ = 0 := by
      simp only [betaAlong, UnitVec.project, at1, at2, at3]; norm_num
    have hu : gammaBetaSquared ![1, 0, 0, 0, 2] = 0 := by
      simp only [gammaBetaSquared, at1, at2, at3]; norm_num
    simp only [wavespeeds, hs, hv, hu]
    norm_num
    rw [one_lt_div (Real.sqrt_pos.2 (by norm_num))]
    exact Real.sqrt_lt_sqrt (by norm_num) (by norm_num)

/-! ## The Riemann solver -/

theorem hlle_eq (Pl Pr : Vec) (n : UnitVec ℝ) (g : ℝ) (i : Fin 5) :
    hlle Pl Pr n g i = Hlle.core (flux Pl n g i) (flux Pr n g i) (toConserved Pl g i) (toConserved Pr g i)
      (max 0 (max (wavespeeds Pl n g).2 (wavespeeds Pr n g).2))
      (min 0 (min (wavespeeds Pl n g).1 (wavespeeds Pr n g).1)) := rfl

theorem speeds_lt {Pl : Vec} (Pr : Vec) (n : UnitVec ℝ) (hn : UnitLength n) {g : ℝ} (hl : Physical Pl) (hg : 1 < g)
    (hg2 : g ≤ 2) :
    min 0 (min (wavespeeds Pl n g).1 (wavespeeds Pr n g).1) < max 0 (max (wavespeeds Pl n g).2 (wavespeeds Pr n g).2) :=
  lt_of_le_of_lt ((min_le_right _ _).trans (min_le_left _ _))
    ((causal_partial Pl hl n hn g hg hg2).2.1.trans_le ((le_max_left _ _).trans (le_max_right _ _)))

/-- **C55**: with equal states on both sides the HLLE flux is the flux of the gas. -/
theorem hlle_consistent (P : Vec) (h : Physical P) (n : UnitVec ℝ) (hn : UnitLength n) (g : ℝ) (hg : 1 < g) (hg2 : g ≤ 2) :
    hlle P P n g = flux P n g := by
  funext i
  rw [hlle_eq]
  exact Hlle.core_consistent _ _ (speeds_lt P n hn h hg hg2)

/-- **C55**: if all waves move forward the flux is that on the left, if all move backward it is that on the right. -/
theorem hlle_upwind (Pl Pr : Vec) (hl : Physical Pl) (n : UnitVec ℝ) (hn : UnitLength n) (g : ℝ) (hg : 1 < g) (hg2 : g ≤ 2) :
    (0 ≤ (wavespeeds Pl n g).1 → 0 ≤ (wavespeeds Pr n g).1 → hlle Pl Pr n g = flux Pl n g) ∧
      ((wavespeeds Pl n g).2 ≤ 0 → (wavespeeds Pr n g).2 ≤ 0 → hlle Pl Pr n g = flux Pr n g) := by
  have := speeds_lt Pr n hn hl hg hg2
  constructor
  · intro h1 h2
    funext i
    rw [hlle_eq]
    rw [min_eq_left (le_min h1 h2)] at this ⊢
    exact Hlle.core_left _ _ _ _ this
  · intro h1 h2
    funext i
    rw [hlle_eq]
    rw [max_eq_left (max_le h1 h2)] at this ⊢
    exact Hlle.core_right _ _ _ _ this

/-- Two streams at three fifths of the speed of light, with a sound speed of one third of it. -/
example : hlle ![1, 3 / 4, 0, 0, 1 / 8] ![8, 3 / 4, 0, 0, 1] ⟨1, 0, 0⟩ (4 / 3) = flux ![1, 3 / 4, 0, 0, 1 / 8] ⟨1, 0, 0⟩ (4 / 3) := by
  have hL : ∀ P : Vec, P 1 = 3 / 4 → P 2 = 0 → P 3 = 0 → lorentzFactor P = 5 / 4 := by
    intro P h1 h2 h3
    rw [lorentzFactor, gammaBetaSquared, h1, h2, h3, show (1 + (3 / 4 * (3 / 4) + 0 * 0 + 0 * 0) : ℝ) = (5 / 4) ^ 2 by norm_num]
    exact Real.sqrt_sq (by norm_num)
  have hw : ∀ P : Vec, P 1 = 3 / 4 → P 2 = 0 → P 3 = 0 → soundSpeedSquared P (4 / 3) = 1 / 9 →
      0 ≤ (wavespeeds P ⟨1, 0, 0⟩ (4 / 3)).1 := by
    intro P h1 h2 h3 hc
    simp only [wavespeeds, hc, betaAlong, UnitVec.project, gammaBetaSquared, hL P h1 h2 h3, h1, h2, h3]
    rw [show (1 / 9 * (1 - (3 / 4 * (3 / 4) + 0 * 0 + 0 * 0) / (1 + (3 / 4 * (3 / 4) + 0 * 0 + 0 * 0))) *
      (1 - (3 / 4 * (3 / 4) + 0 * 0 + 0 * 0) / (1 + (3 / 4 * (3 / 4) + 0 * 0 + 0 * 0)) * (1 / 9) -
        (3 / 4 * 1 + 0 * 0 + 0 * 0) / (5 / 4) * ((3 / 4 * 1 + 0 * 0 + 0 * 0) / (5 / 4)) * (1 - 1 / 9)) : ℝ) = (16 / 75) ^ 2 by norm_num,
      Real.sqrt_sq (by norm_num)]
    norm_num
  refine (hlle_upwind _ _ ⟨by rw [at0]; norm_num, by rw [at4]; norm_num⟩ _ (by unfold UnitLength; norm_num) _ (by norm_num)
    (by norm_num)).1 (hw _ rfl rfl rfl ?_) (hw _ rfl rfl rfl ?_) <;>
    (simp only [soundSpeedSquared, enthalpyDensity, at0, at4]; norm_num)

/-- The opposite direction. -/
def opposite (n : UnitVec ℝ) : UnitVec ℝ := ⟨-n.n1, -n.n2, -n.n3⟩

theorem betaAlong_opposite (P : Vec) (n : UnitVec ℝ) : betaAlong P (opposite n) = -betaAlong P n := by
  simp only [betaAlong, UnitVec.project, opposite]; ring

theorem wavespeeds_opposite (P : Vec) (n : UnitVec ℝ) (g : ℝ) :
    wavespeeds P (opposite n) g = (-(wavespeeds P n g).2, -(wavespeeds P n g).1) := by
  simp only [wavespeeds, betaAlong_opposite, Prod.mk.injEq, neg_mul_neg]; constructor <;> ring

theorem flux_opposite (P : Vec) (n : UnitVec ℝ) (g : ℝ) (i : Fin 5) : flux P (opposite n) g i = -flux P n g i := by
  revert i
  refine forall5 ?_ ?_ ?_ ?_ ?_ <;>
    simp only [flux, fluxWith, betaAlong_opposite, at0, at1, at2, at3, at4] <;> (try simp only [opposite]) <;> ring

theorem max_neg_neg3 (a b : ℝ) : max 0 (max (-a) (-b)) = -min 0 (min a b) := by
  rw [max_neg_neg, ← max_neg_neg 0, neg_zero]

theorem min_neg_neg3 (a b : ℝ) : min 0 (min (-a) (-b)) = -max 0 (max a b) := by
  rw [min_neg_neg, ← min_neg_neg 0, neg_zero]

/-- **C55**: seen from the other side, the flux is the opposite, in all components. -/
theorem hlle_opposite (Pl Pr : Vec) (n : UnitVec ℝ) (g : ℝ) :
    hlle Pr Pl (opposite n) g = -hlle Pl Pr n g := by
  funext i
  rw [Pi.neg_apply, hlle_eq, hlle_eq, flux_opposite, flux_opposite, wavespeeds_opposite, wavespeeds_opposite]
  dsimp only
  rw [max_neg_neg3, min_neg_neg3, Hlle.core_mirror, min_comm (wavespeeds Pr n g).1, max_comm (wavespeeds Pr n g).2]

/-- Gas with Lorentz factor about five, along a diagonal. -/
example : (wavespeeds ![1, 3, 4, 0, 10] ⟨3 / 5, 4 / 5, 0⟩ (4 / 3)).2 < 1 :=
  (causal_partial _ ⟨by rw [at0]; norm_num, by rw [at4]; norm_num⟩ _ (by unfold UnitLength; norm_num) _ (by norm_num)
    (by norm_num)).2.2

end Verif.Srhd
