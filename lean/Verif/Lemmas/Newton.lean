import Mathlib.Data.Real.Basic
import Mathlib.Tactic.FieldSimp
import Mathlib.Tactic.Positivity
import Mathlib.Tactic.Ring
import Mathlib.Tactic.Linarith
import Mathlib.Tactic.LinearCombination
import Mathlib.Tactic.Push
import Mathlib.Tactic.ByContra

/-!
# The iteration for the pressure of a relativistic gas: it approaches the true pressure from below

`x`, `y` stand for total energy plus pressure and for the root of its square less that of the momentum `S2`; `D` is
the mass, `g` the adiabatic index, and the subscript `t` marks the true values.
-/

namespace Verif.Newton

variable {D S2 g p pt x y xt yt : ℝ}

/-- The average slope between the guess and the true pressure. -/
noncomputable def slope (D S2 g x y xt yt : ℝ) : ℝ :=
  (g - 1) * (S2 / (x * xt)) * (1 - D * (x + xt) / (y * xt + x * yt))

theorem f_eq (hx : 0 < x) (hy : 0 < y) (hxt : 0 < xt) (hyt : 0 < yt) (e1 : y ^ 2 = x ^ 2 - S2)
    (e2 : yt ^ 2 = xt ^ 2 - S2) (e3 : xt - x = pt - p) (ht : g * pt * xt = (g - 1) * (yt * (yt - D))) :
    (g - 1) * (x - p - S2 / x - D * (y / x)) - p = (pt - p) * (1 - slope D S2 g x y xt yt) := by
  have h1 : (g - 1) * (x - p - S2 / xt - D * (yt / xt)) = pt := by
    have : x - p = xt - pt := by linarith
    rw [this]
    field_simp
    linear_combination -ht - (g - 1) * e2
  have h2 : yt / xt - y / x = S2 * ((x + xt) * (xt - x)) / ((y * xt + x * yt) * (x * xt)) := by
    have : 0 < y * xt + x * yt := by positivity
    rw [div_sub_div _ _ hxt.ne' hx.ne', div_eq_div_iff (by positivity) (by positivity)]
    have e : (yt * x - xt * y) * (y * xt + x * yt) = S2 * ((x + xt) * (xt - x)) := by
      linear_combination x ^ 2 * e2 - xt ^ 2 * e1
    calc (yt * x - xt * y) * ((y * xt + x * yt) * (x * xt)) = ((yt * x - xt * y) * (y * xt + x * yt)) * (x * xt) := by ring
      _ = S2 * ((x + xt) * (xt - x)) * (xt * x) := by rw [e]; ring
  have h3 : S2 / x - S2 / xt = S2 * (xt - x) / (x * xt) := by field_simp
  have hs : (pt - p) * slope D S2 g x y xt yt = (g - 1) * (S2 / x - S2 / xt - D * (yt / xt - y / x)) := by
    rw [h2, h3, slope, ← e3]
    have : 0 < y * xt + x * yt := by positivity
    field_simp
  linear_combination h1 + hs

theorem slope_lt (hx : 0 < x) (hy : 0 < y) (hxt : 0 < xt) (hyt : 0 < yt) (e1 : y ^ 2 = x ^ 2 - S2) (hle : x ≤ xt)
    (hS : 0 ≤ S2) (hD : 0 ≤ D) (hg : 1 < g) : slope D S2 g x y xt yt ≤ g - 1 := by
  have h1 : S2 / (x * xt) ≤ 1 := by
    rw [div_le_one (by positivity)]
    nlinarith [sq_nonneg y]
  have h0 : 0 ≤ S2 / (x * xt) := by positivity
  have h2 : 0 ≤ D * (x + xt) / (y * xt + x * yt) := by positivity
  have h3 : (g - 1) * (S2 / (x * xt)) ≤ g - 1 := by nlinarith
  have h4 : 0 ≤ (g - 1) * (S2 / (x * xt)) := mul_nonneg (by linarith) h0
  unfold slope
  nlinarith

theorem q_le_slope (hx : 0 < x) (hy : 0 < y) (hxt : 0 < xt) (hyt : 0 < yt) (e1 : y ^ 2 = x ^ 2 - S2)
    (e2 : yt ^ 2 = xt ^ 2 - S2) (e3 : xt - x = pt - p) (ht : g * pt * xt = (g - 1) * (yt * (yt - D))) (hle : x ≤ xt)
    (hS : 0 ≤ S2) (hD : 0 ≤ D) (hg : 1 < g) (hg2 : g ≤ 2) :
    S2 / x ^ 2 * (g * p / (y ^ 2 / x)) ≤ slope D S2 g x y xt yt := by
  have hden : 0 < y * xt + x * yt := by positivity
  have hyle : y ≤ yt := by
    by_contra h
    push Not at h
    nlinarith
  have G : g * p * xt ≤ (g - 1) * (y ^ 2 * (1 - D * (x + xt) / (y * xt + x * yt))) := by
    have a1 : 0 ≤ (xt - x) * (g * xt - (g - 1) * (xt + x)) := mul_nonneg (by linarith) (by nlinarith)
    have a2 : 0 ≤ yt - y ^ 2 * (x + xt) / (y * xt + x * yt) := by
      rw [sub_nonneg, div_le_iff₀ hden]
      have : 0 ≤ xt * y * (yt - y) + x * (yt - y) * (yt + y) := by
        have := sub_nonneg.2 hyle
        positivity
      linarith
    have a3 : 0 ≤ (g - 1) * D * (yt - y ^ 2 * (x + xt) / (y * xt + x * yt)) :=
      mul_nonneg (mul_nonneg (by linarith) hD) a2
    have e : (g - 1) * (y ^ 2 * (1 - D * (x + xt) / (y * xt + x * yt))) - g * p * xt =
        (xt - x) * (g * xt - (g - 1) * (xt + x)) + (g - 1) * D * (yt - y ^ 2 * (x + xt) / (y * xt + x * yt)) := by
      have hp : p = pt - (xt - x) := by linarith
      subst hp
      have : D * (x + xt) / (y * xt + x * yt) * y ^ 2 = D * (y ^ 2 * (x + xt) / (y * xt + x * yt)) := by field_simp
      linear_combination (g - 1) * e1 - (g - 1) * e2 - ht - (g - 1) * this
    linarith
  have e : S2 / x ^ 2 * (g * p / (y ^ 2 / x)) = S2 / (x * xt) * (g * p * xt / y ^ 2) := by field_simp
  rw [e]
  unfold slope
  have : g * p * xt / y ^ 2 ≤ (g - 1) * (1 - D * (x + xt) / (y * xt + x * yt)) := by
    rw [div_le_iff₀ (by positivity)]
    linarith
  calc _ ≤ S2 / (x * xt) * ((g - 1) * (1 - D * (x + xt) / (y * xt + x * yt))) :=
        mul_le_mul_of_nonneg_left this (by positivity)
    _ = _ := by ring

/-- One step: with the difference `f` and the estimated derivative `G`, the next guess lies between this one and the
true pressure, and the error shrinks by the factor `g - 1` at least. -/
theorem step (hp : 0 ≤ p) (hx : 0 < x) (hy : 0 < y) (hxt : 0 < xt) (hyt : 0 < yt) (e1 : y ^ 2 = x ^ 2 - S2)
    (e2 : yt ^ 2 = xt ^ 2 - S2) (e3 : xt - x = pt - p) (ht : g * pt * xt = (g - 1) * (yt * (yt - D))) (hle : p ≤ pt)
    (hS : 0 ≤ S2) (hD : 0 ≤ D) (hg : 1 < g) (hg2 : g < 2) (f G : ℝ)
    (hf : f = (g - 1) * (x - p - S2 / x - D * (y / x)) - p) (hG : G = S2 / x ^ 2 * (g * p / (y ^ 2 / x)) - 1) :
    G < 0 ∧ (2 - g) * (pt - p) ≤ f ∧ f ≤ pt - p ∧ p + f ≤ p - f / G ∧ p - f / G ≤ pt ∧
      pt - (p - f / G) ≤ (g - 1) * (pt - p) := by
  have hlex : x ≤ xt := by linarith
  have h1 := f_eq (D := D) hx hy hxt hyt e1 e2 e3 ht
  have h2 := slope_lt (D := D) (g := g) hx hy hxt hyt e1 hlex hS hD hg
  have h3 := q_le_slope hx hy hxt hyt e1 e2 e3 ht hlex hS hD hg hg2.le
  have h0 : 0 ≤ S2 / x ^ 2 * (g * p / (y ^ 2 / x)) := by positivity
  rw [← hf] at h1
  generalize slope D S2 g x y xt yt = s at *
  generalize S2 / x ^ 2 * (g * p / (y ^ 2 / x)) = q at *
  subst hG
  have hq : 0 < 1 - q := by linarith
  have hd : 0 ≤ pt - p := by linarith
  have hG : q - 1 < 0 := by linarith
  have e : p - f / (q - 1) = p + f / (1 - q) := by
    rw [show q - 1 = -(1 - q) by ring, div_neg]; ring
  rw [e]
  have f1 : (2 - g) * (pt - p) ≤ f := by rw [h1]; nlinarith
  have f0 : 0 ≤ f := by nlinarith
  have f2 : f ≤ f / (1 - q) := by
    rw [le_div_iff₀ hq]; nlinarith
  have f3 : f / (1 - q) ≤ pt - p := by
    rw [div_le_iff₀ hq, h1]; nlinarith
  refine ⟨hG, f1, by rw [h1]; nlinarith, by linarith, by linarith, by linarith⟩

end Verif.Newton
