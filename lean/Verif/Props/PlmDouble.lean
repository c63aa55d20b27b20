import Verif.Model.PlmDouble
import Verif.Lemmas.QuadtreeDouble

/-!
# Limited gradients in double precision (C124)
-/

namespace Verif.Plm
open Verif.Double Verif.Tree

variable {R : Rounding}

theorem isDouble_neg {x : ℝ} (h : IsDouble x) : IsDouble (-x) := by
  obtain ⟨m, e, hm, he, hx⟩ := h
  exact ⟨-m, e, by rwa [abs_neg], he, by rw [hx]; push_cast; ring⟩

theorem isDouble_one : IsDouble 1 := by exact_mod_cast isDouble_nat (n := 1) (by norm_num)
theorem isDouble_half : IsDouble (1 / 2) := ⟨1, -1, by norm_num, by norm_num, by norm_num⟩
theorem isDouble_pow (e : ℤ) (he : -1074 ≤ e) : IsDouble (2 ^ e) := ⟨1, e, by norm_num, he, by norm_num⟩

theorem mul_val (x y : Dbl R) : (x * y).val = R.rnd (x.val * y.val) := rfl
theorem add_val (x y : Dbl R) : (x + y).val = R.rnd (x.val + y.val) := rfl
theorem sub_val (x y : Dbl R) : (x - y).val = R.rnd (x.val - y.val) := rfl
theorem div_val (x y : Dbl R) : (x / y).val = R.rnd (x.val / y.val) := rfl
theorem half_val : (Dbl.half : Dbl R).val = 1 / 2 := rfl
theorem one_val : (Dbl.one : Dbl R).val = 1 := rfl
theorem minusOne_val : (Dbl.minusOne : Dbl R).val = -1 := rfl
theorem zero_val : (0 : Dbl R).val = 0 := rfl

theorem minabs_val (a b c : Dbl R) : (minabsDouble a b c).val = min (min |a.val| |b.val|) |c.val| := by
  have hmin : ∀ x y : Dbl R, (min x y).val = min x.val y.val := by
    intro x y
    rcases le_total x y with h | h
    · rw [min_eq_left h, min_eq_left (le_def.1 h)]
    · rw [min_eq_right h, min_eq_right (le_def.1 h)]
  rw [minabsDouble, hmin, hmin]; rfl

theorem sgnDouble_pos {z : Bool} {x : Dbl R} (h : 0 < x.val) : sgnDouble z x = Dbl.one := by
  rw [sgnDouble, if_neg (fun h' => lt_asymm h (lt_def.1 h')), if_pos (lt_def.2 h)]

theorem sgnDouble_neg {z : Bool} {x : Dbl R} (h : x.val < 0) : sgnDouble z x = Dbl.minusOne := by
  rw [sgnDouble, if_pos (lt_def.2 h)]

/-- What the formula comes to: zero, or a number with the sign of the one-sided differences and not larger. -/
theorem plmDouble_cases (za zb zc : Bool) (theta yl y0 yr : Dbl R) :
    (plmGradientDouble za zb zc theta yl y0 yr).val = 0 ∨
    (0 < ((y0 - yl) * theta).val ∧ 0 < ((yr - y0) * theta).val ∧
      0 < (plmGradientDouble za zb zc theta yl y0 yr).val ∧
      (plmGradientDouble za zb zc theta yl y0 yr).val ≤ ((y0 - yl) * theta).val ∧
      (plmGradientDouble za zb zc theta yl y0 yr).val ≤ ((yr - y0) * theta).val) ∨
    (((y0 - yl) * theta).val < 0 ∧ ((yr - y0) * theta).val < 0 ∧
      (plmGradientDouble za zb zc theta yl y0 yr).val < 0 ∧
      ((y0 - yl) * theta).val ≤ (plmGradientDouble za zb zc theta yl y0 yr).val ∧
      ((yr - y0) * theta).val ≤ (plmGradientDouble za zb zc theta yl y0 yr).val) := by
  unfold plmGradientDouble
  simp only
  generalize (y0 - yl) * theta = a
  generalize (yr - yl) * Dbl.half = b
  generalize (yr - y0) * theta = c
  have hm : IsDouble (minabsDouble a b c).val := (minabsDouble a b c).isDouble
  by_cases h0 : a.val = 0 ∨ b.val = 0 ∨ c.val = 0
  · left
    have : (minabsDouble a b c).val = 0 := by
      rw [minabs_val]
      rcases h0 with h | h | h <;> simp [h]
    rw [mul_val, this, mul_zero, R.rnd_double isDouble_zero]
  · push Not at h0
    obtain ⟨ha, hb, hc⟩ := h0
    have hmp : 0 < (minabsDouble a b c).val := by
      rw [minabs_val]
      exact lt_min (lt_min (abs_pos.2 ha) (abs_pos.2 hb)) (abs_pos.2 hc)
    have hma : (minabsDouble a b c).val ≤ |a.val| := by
      rw [minabs_val]; exact (min_le_left _ _).trans (min_le_left _ _)
    have hmc : (minabsDouble a b c).val ≤ |c.val| := by rw [minabs_val]; exact min_le_right _ _
    generalize minabsDouble a b c = m at *
    have r2 : R.rnd (1 + 1) = 2 := by rw [show (1 : ℝ) + 1 = 2 by norm_num]; exact R.rnd_double isDouble_two
    have r2' : R.rnd (-1 + -1) = -2 := by
      rw [show (-1 : ℝ) + -1 = -2 by norm_num]; exact R.rnd_double (isDouble_neg isDouble_two)
    have r0 : R.rnd (1 + -1) = 0 := by rw [show (1 : ℝ) + -1 = 0 by norm_num]; exact R.rnd_double isDouble_zero
    have r0' : R.rnd (-1 + 1) = 0 := by rw [show (-1 : ℝ) + 1 = 0 by norm_num]; exact R.rnd_double isDouble_zero
    have rz : R.rnd 0 = 0 := R.rnd_double isDouble_zero
    have rh : R.rnd (1 / 4 * 2) = 1 / 2 := by
      rw [show (1 : ℝ) / 4 * 2 = 1 / 2 by norm_num]; exact R.rnd_double isDouble_half
    have r1 : R.rnd (1 / 2 * 2) = 1 := by
      rw [show (1 : ℝ) / 2 * 2 = 1 by norm_num]; exact R.rnd_double isDouble_one
    have r1' : R.rnd (1 / 2 * -2) = -1 := by
      rw [show (1 : ℝ) / 2 * -2 = -1 by norm_num]; exact R.rnd_double (isDouble_neg isDouble_one)
    have rm : R.rnd m.val = m.val := R.rnd_double hm
    have rm' : R.rnd (-m.val) = -m.val := R.rnd_double (isDouble_neg hm)
    have e2 : |(2 : ℝ)| = 2 := abs_of_pos two_pos
    have q : (quarterDouble : Dbl R).val = 1 / 4 := rfl
    have ab : ∀ x : Dbl R, (absDouble x).val = |x.val| := fun _ => rfl
    rcases lt_or_gt_of_ne ha with ha | ha <;> rcases lt_or_gt_of_ne hb with hb | hb <;>
      rcases lt_or_gt_of_ne hc with hc | hc
    · right; right
      rw [sgnDouble_neg ha, sgnDouble_neg hb, sgnDouble_neg hc]
      simp only [mul_val, add_val, ab, q, minusOne_val, r2', abs_neg, e2, rh, r1', neg_one_mul, rm']
      rw [abs_of_neg ha] at hma
      rw [abs_of_neg hc] at hmc
      exact ⟨ha, hc, by linarith, by linarith, by linarith⟩
    · left; rw [sgnDouble_neg ha, sgnDouble_neg hb, sgnDouble_pos hc]
      simp only [mul_val, add_val, minusOne_val, one_val, r0', mul_zero, zero_mul, rz]
    · left; rw [sgnDouble_neg ha, sgnDouble_pos hb, sgnDouble_neg hc]
      simp only [mul_val, add_val, ab, minusOne_val, one_val, r0', abs_zero, mul_zero, zero_mul, rz]
    · left; rw [sgnDouble_neg ha, sgnDouble_pos hb, sgnDouble_pos hc]
      simp only [mul_val, add_val, minusOne_val, one_val, r0', mul_zero, zero_mul, rz]
    · left; rw [sgnDouble_pos ha, sgnDouble_neg hb, sgnDouble_neg hc]
      simp only [mul_val, add_val, minusOne_val, one_val, r0, mul_zero, zero_mul, rz]
    · left; rw [sgnDouble_pos ha, sgnDouble_neg hb, sgnDouble_pos hc]
      simp only [mul_val, add_val, ab, minusOne_val, one_val, r0, abs_zero, mul_zero, zero_mul, rz]
    · left; rw [sgnDouble_pos ha, sgnDouble_pos hb, sgnDouble_neg hc]
      simp only [mul_val, add_val, minusOne_val, one_val, r0, mul_zero, zero_mul, rz]
    · right; left
      rw [sgnDouble_pos ha, sgnDouble_pos hb, sgnDouble_pos hc]
      simp only [mul_val, add_val, ab, q, one_val, r2, e2, rh, r1, one_mul, rm]
      rw [abs_of_pos ha] at hma
      rw [abs_of_pos hc] at hmc
      exact ⟨ha, hc, by linarith, by linarith, by linarith⟩

/-- Rounding up by less than the last digit, except close to zero. -/
theorem rnd_up {x y : ℝ} (hx : 0 ≤ x) (hy : x * (1 + 1 / 2 ^ 53) ≤ y) (h : 2 ^ (-1022 : ℤ) ≤ y) : R.rnd x ≤ y := by
  rcases R.error x with e | ⟨e, _⟩
  · have := (abs_le.1 e).2
    rw [abs_of_nonneg hx] at this
    linarith
  · rw [abs_of_nonneg hx] at e
    calc R.rnd x ≤ R.rnd (2 ^ (-1022 : ℤ)) := R.mono e.le
      _ = 2 ^ (-1022 : ℤ) := R.rnd_double (isDouble_pow _ (by norm_num))
      _ ≤ y := h

theorem isDouble_small_sub {a b : ℝ} (ha : IsDouble a) (hb : IsDouble b) (h : |a - b| < 2 ^ (-1022 : ℤ)) : IsDouble (a - b) := by
  obtain ⟨m, hm⟩ := ha.multiple
  obtain ⟨n, hn⟩ := hb.multiple
  have hx : a - b = ((m - n : ℤ) : ℝ) * 2 ^ (-1074 : ℤ) := by rw [hm, hn]; push_cast; ring
  rw [hx]
  refine isDouble_of_le ?_ le_rfl
  rw [hx, abs_mul, abs_of_pos (zpow_pos two_pos _ : (0 : ℝ) < 2 ^ (-1074 : ℤ))] at h
  have h' : |((m - n : ℤ) : ℝ)| < 2 ^ 52 := by
    have e : (2 : ℝ) ^ (-1022 : ℤ) = 2 ^ 52 * 2 ^ (-1074 : ℤ) := by
      rw [← zpow_natCast, ← zpow_add₀ two_ne_zero]; norm_num
    rw [e] at h
    exact lt_of_mul_lt_mul_right h (zpow_pos two_pos _).le
  have h'' : |m - n| < 2 ^ 52 := by exact_mod_cast h'
  omega

/-- Half of the limited difference is not more than the difference. -/
theorem half_le {u v theta : ℝ} (hu : IsDouble u) (hv : IsDouble v) (huv : v < u) (ht0 : 0 ≤ theta)
    (ht : theta ≤ 2 * (1 - 1 / 2 ^ 51)) {g : ℝ} (hg0 : 0 ≤ g) (hg : g ≤ R.rnd (R.rnd (u - v) * theta)) :
    R.rnd (g * (1 / 2)) ≤ u - v := by
  have hd : 0 < u - v := sub_pos.2 huv
  have hD0 : 0 ≤ R.rnd (u - v) := by
    rw [← R.rnd_double isDouble_zero]; exact R.mono hd.le
  by_cases hle : R.rnd (u - v) ≤ u - v
  · have hDD : IsDouble (R.rnd (u - v)) := R.isDouble _
    have h1 : R.rnd (R.rnd (u - v) * theta) ≤ 2 * R.rnd (u - v) := by
      rw [← R.rnd_double (isDouble_twice hDD)]
      exact R.mono (by nlinarith)
    calc R.rnd (g * (1 / 2)) ≤ R.rnd (R.rnd (u - v)) := R.mono (by linarith)
      _ = R.rnd (u - v) := R.rnd_double hDD
      _ ≤ u - v := hle
  · have hbig : 2 ^ (-1022 : ℤ) ≤ u - v := by
      by_contra hlt
      push Not at hlt
      apply hle
      rw [R.rnd_double (isDouble_small_sub hu hv (by rwa [abs_of_pos hd]))]
    have hD : R.rnd (u - v) ≤ (u - v) * (1 + 1 / 2 ^ 53) := by
      have := (abs_le.1 (R.error_sub hu hv)).2
      rw [abs_of_pos hd] at this
      linarith
    generalize R.rnd (u - v) = D at *
    generalize u - v = d at *
    have h1 : R.rnd (D * theta) ≤ 2 * (d * (1 - 1 / 2 ^ 53)) := by
      have hDt : D * theta ≤ d * (1 + 1 / 2 ^ 53) * (2 * (1 - 1 / 2 ^ 51)) :=
        mul_le_mul hD ht ht0 (by positivity)
      refine rnd_up (mul_nonneg hD0 ht0) ?_ (by linarith)
      calc D * theta * (1 + 1 / 2 ^ 53) ≤ d * (1 + 1 / 2 ^ 53) * (2 * (1 - 1 / 2 ^ 51)) * (1 + 1 / 2 ^ 53) := by gcongr
        _ = 2 * (d * ((1 + 1 / 2 ^ 53) * (1 - 1 / 2 ^ 51) * (1 + 1 / 2 ^ 53))) := by ring
        _ ≤ 2 * (d * (1 - 1 / 2 ^ 53)) := by gcongr; norm_num
    refine rnd_up (by linarith) ?_ hbig
    have hg2 : g * (1 / 2) ≤ d * (1 - 1 / 2 ^ 53) := by linarith
    calc g * (1 / 2) * (1 + 1 / 2 ^ 53) ≤ d * (1 - 1 / 2 ^ 53) * (1 + 1 / 2 ^ 53) :=
          mul_le_mul_of_nonneg_right hg2 (by norm_num)
      _ = d * ((1 - 1 / 2 ^ 53) * (1 + 1 / 2 ^ 53)) := by ring
      _ ≤ d * 1 := by gcongr; norm_num
      _ = d := mul_one d

/-- The same for the binary program, which divides by the spacing and multiplies with it. -/
theorem half_spacing_le {u v theta h : ℝ} (hu : IsDouble u) (hv : IsDouble v) (huv : 2 ^ (-700 : ℤ) ≤ u - v) (ht0 : 0 ≤ theta)
    (ht : theta ≤ 2 * (1 - 1 / 2 ^ 49)) (h0 : 0 < h) (h1 : h ≤ 2 ^ 300) {g : ℝ} (hg0 : 0 ≤ g)
    (hg : g ≤ R.rnd (R.rnd (u - v) * theta)) : R.rnd (R.rnd (R.rnd (g / h) * (1 / 2)) * h) ≤ u - v := by
  have hd : 0 < u - v := lt_of_lt_of_le (zpow_pos two_pos _) huv
  have hD0 : 0 ≤ R.rnd (u - v) := by
    rw [← R.rnd_double isDouble_zero]; exact R.mono hd.le
  have hD : R.rnd (u - v) ≤ (u - v) * (1 + 1 / 2 ^ 53) := by
    have := (abs_le.1 (R.error_sub hu hv)).2
    rw [abs_of_pos hd] at this
    linarith
  generalize R.rnd (u - v) = D at *
  generalize u - v = d at *
  have hsmall : (2 : ℝ) ^ (-1022 : ℤ) * 2 ^ 301 ≤ d := by
    refine le_trans ?_ huv
    rw [← zpow_natCast (2 : ℝ) 301, ← zpow_add₀ two_ne_zero]
    exact zpow_le_zpow_right₀ (by norm_num) (by norm_num)
  have hS : (0 : ℝ) < 2 ^ (-1022 : ℤ) := zpow_pos two_pos _
  have up : ∀ x y : ℝ, 0 ≤ x → x * (1 + 1 / 2 ^ 53) ≤ y → 2 ^ (-1022 : ℤ) ≤ y → R.rnd x ≤ y := fun x y a b c => rnd_up a b c
  generalize (2 : ℝ) ^ (-1022 : ℤ) = S at *
  have hSd : S * 2 ^ 301 ≤ d := hsmall
  have hSd1 : S ≤ d := le_trans (le_mul_of_one_le_right hS.le (one_le_pow₀ one_le_two)) hSd
  have hdh : 2 * S ≤ d / h := by
    rw [le_div_iff₀ h0]
    calc 2 * S * h ≤ 2 * S * 2 ^ 300 := mul_le_mul_of_nonneg_left h1 (by linarith)
      _ = S * 2 ^ 301 := by rw [pow_succ (2 : ℝ) 300, mul_comm 2 S, mul_assoc, mul_comm 2]
      _ ≤ d := hSd
  have hg2 : g ≤ 2 * (d * (1 - 8 / 2 ^ 53)) := by
    refine hg.trans (up _ _ (mul_nonneg hD0 ht0) ?_ (by linarith only [hSd1, hd]))
    have hDt : D * theta ≤ d * (1 + 1 / 2 ^ 53) * (2 * (1 - 1 / 2 ^ 49)) := mul_le_mul hD ht ht0 (by positivity)
    calc D * theta * (1 + 1 / 2 ^ 53) ≤ d * (1 + 1 / 2 ^ 53) * (2 * (1 - 1 / 2 ^ 49)) * (1 + 1 / 2 ^ 53) :=
          mul_le_mul_of_nonneg_right hDt (by norm_num)
      _ = 2 * (d * ((1 + 1 / 2 ^ 53) * (1 - 1 / 2 ^ 49) * (1 + 1 / 2 ^ 53))) := by ring
      _ ≤ 2 * (d * (1 - 8 / 2 ^ 53)) := by gcongr; norm_num
  have q0 : 0 ≤ d / h := by linarith only [hdh, hS]
  have q1 : R.rnd (g / h) ≤ 2 * (d / h * (1 - 6 / 2 ^ 53)) := by
    refine up _ _ (by positivity) ?_ (by linarith only [hdh, hS])
    calc g / h * (1 + 1 / 2 ^ 53) ≤ 2 * (d * (1 - 8 / 2 ^ 53)) / h * (1 + 1 / 2 ^ 53) := by gcongr
      _ = 2 * (d / h * ((1 - 8 / 2 ^ 53) * (1 + 1 / 2 ^ 53))) := by ring
      _ ≤ 2 * (d / h * (1 - 6 / 2 ^ 53)) := by gcongr; norm_num
  have p1 : 0 ≤ R.rnd (g / h) := by
    rw [← R.rnd_double isDouble_zero]; exact R.mono (by positivity)
  have q2 : R.rnd (R.rnd (g / h) * (1 / 2)) ≤ d / h * (1 - 4 / 2 ^ 53) := by
    refine up _ _ (by positivity) ?_ (by linarith only [hdh, hS])
    calc R.rnd (g / h) * (1 / 2) * (1 + 1 / 2 ^ 53) ≤ 2 * (d / h * (1 - 6 / 2 ^ 53)) * (1 / 2) * (1 + 1 / 2 ^ 53) := by gcongr
      _ = d / h * ((1 - 6 / 2 ^ 53) * (1 + 1 / 2 ^ 53)) := by ring
      _ ≤ d / h * (1 - 4 / 2 ^ 53) := by gcongr; norm_num
  have p2 : 0 ≤ R.rnd (R.rnd (g / h) * (1 / 2)) := by
    rw [← R.rnd_double isDouble_zero]; exact R.mono (by positivity)
  refine up _ _ (by positivity) ?_ hSd1
  calc R.rnd (R.rnd (g / h) * (1 / 2)) * h * (1 + 1 / 2 ^ 53) ≤ d / h * (1 - 4 / 2 ^ 53) * h * (1 + 1 / 2 ^ 53) := by gcongr
    _ = d * ((1 - 4 / 2 ^ 53) * (1 + 1 / 2 ^ 53)) := by field_simp
    _ ≤ d * 1 := by gcongr; norm_num
    _ = d := mul_one d

/-- The differences of a limited gradient that is not zero. -/
theorem plmDouble_signs (za zb zc : Bool) {theta yl y0 yr : Dbl R} (ht : 0 ≤ theta.val) :
    (plmGradientDouble za zb zc theta yl y0 yr).val = 0 ∨
    (yl.val < y0.val ∧ y0.val < yr.val ∧ 0 ≤ (plmGradientDouble za zb zc theta yl y0 yr).val ∧
      (plmGradientDouble za zb zc theta yl y0 yr).val ≤ R.rnd (R.rnd (y0.val - yl.val) * theta.val) ∧
      (plmGradientDouble za zb zc theta yl y0 yr).val ≤ R.rnd (R.rnd (yr.val - y0.val) * theta.val)) ∨
    (y0.val < yl.val ∧ yr.val < y0.val ∧ (plmGradientDouble za zb zc theta yl y0 yr).val ≤ 0 ∧
      R.rnd (R.rnd (y0.val - yl.val) * theta.val) ≤ (plmGradientDouble za zb zc theta yl y0 yr).val ∧
      R.rnd (R.rnd (yr.val - y0.val) * theta.val) ≤ (plmGradientDouble za zb zc theta yl y0 yr).val) := by
  have rz : R.rnd 0 = 0 := R.rnd_double isDouble_zero
  have pos : ∀ x y : Dbl R, 0 < ((x - y) * theta).val → y.val < x.val := by
    intro x y h
    by_contra hn
    push Not at hn
    have h1 : R.rnd (x.val - y.val) ≤ 0 := by rw [← rz]; exact R.mono (by linarith)
    have h2 : R.rnd (R.rnd (x.val - y.val) * theta.val) ≤ 0 := by
      rw [← rz]; exact R.mono (mul_nonpos_of_nonpos_of_nonneg h1 ht)
    exact absurd h (not_lt.2 h2)
  have neg : ∀ x y : Dbl R, ((x - y) * theta).val < 0 → x.val < y.val := by
    intro x y h
    by_contra hn
    push Not at hn
    have h1 : 0 ≤ R.rnd (x.val - y.val) := by rw [← rz]; exact R.mono (by linarith)
    have h2 : 0 ≤ R.rnd (R.rnd (x.val - y.val) * theta.val) := by
      rw [← rz]; exact R.mono (mul_nonneg h1 ht)
    exact absurd h (not_lt.2 h2)
  rcases plmDouble_cases za zb zc theta yl y0 yr with h | ⟨h1, h2, h3, h4, h5⟩ | ⟨h1, h2, h3, h4, h5⟩
  · exact .inl h
  · exact .inr (.inl ⟨pos _ _ h1, pos _ _ h2, h3.le, h4, h5⟩)
  · exact .inr (.inr ⟨neg _ _ h1, neg _ _ h2, h3.le, h4, h5⟩)

/-- The rule of rounding with the signs exchanged. -/
def mirror (R : Rounding) : Rounding where
  rnd x := -R.rnd (-x)
  isDouble x := isDouble_neg (R.isDouble _)
  nearest x y hy := by
    have := R.nearest (-x) (-y) (isDouble_neg hy)
    rw [show -R.rnd (-x) - x = -(R.rnd (-x) - -x) by ring, abs_neg, show y - x = -(-y - -x) by ring, abs_neg]
    exact this

/-- What the faces need: the step from the centre to a face is bounded by the difference to the neighbour. -/
theorem faces_aux {s : ℝ → ℝ} {theta yl y0 yr : Dbl R} (za zb zc : Bool) (ht : 0 ≤ theta.val) (hs0 : s 0 = 0) (hs : Monotone s)
    (h : ∀ u v : Dbl R, v.val < u.val → (u = y0 ∧ v = yl ∨ u = yr ∧ v = y0) → ∀ g, 0 ≤ g → g ≤ R.rnd (R.rnd (u.val - v.val) * theta.val) →
      s g ≤ u.val - v.val)
    (h' : ∀ u v : Dbl R, u.val < v.val → (u = y0 ∧ v = yl ∨ u = yr ∧ v = y0) → ∀ g, g ≤ 0 → R.rnd (R.rnd (u.val - v.val) * theta.val) ≤ g →
      u.val - v.val ≤ s g) :
    let f := R.rnd (y0.val - s (plmGradientDouble za zb zc theta yl y0 yr).val)
    let f' := R.rnd (y0.val + s (plmGradientDouble za zb zc theta yl y0 yr).val)
    min yl.val y0.val ≤ f ∧ f ≤ max yl.val y0.val ∧ min y0.val yr.val ≤ f' ∧ f' ≤ max y0.val yr.val ∧
      (0 ≤ (y0.val - yl.val) * (y0.val - yr.val) → f = y0.val ∧ f' = y0.val) := by
  have r0 : R.rnd y0.val = y0.val := R.rnd_double y0.isDouble
  have rl : R.rnd yl.val = yl.val := R.rnd_double yl.isDouble
  have rr : R.rnd yr.val = yr.val := R.rnd_double yr.isDouble
  intro f f'
  rcases plmDouble_signs za zb zc (yl := yl) (y0 := y0) (yr := yr) ht with e | ⟨a, b, c, d, e⟩ | ⟨a, b, c, d, e⟩
  · have e1 : f = y0.val := by simp only [f, e, hs0, sub_zero, r0]
    have e2 : f' = y0.val := by simp only [f', e, hs0, add_zero, r0]
    rw [e1, e2]
    exact ⟨min_le_right _ _, le_max_right _ _, min_le_left _ _, le_max_left _ _, fun _ => ⟨rfl, rfl⟩⟩
  · have k1 := h y0 yl a (.inl ⟨rfl, rfl⟩) _ c d
    have k2 := h yr y0 b (.inr ⟨rfl, rfl⟩) _ c e
    have k0 : 0 ≤ s (plmGradientDouble za zb zc theta yl y0 yr).val := by rw [← hs0]; exact hs c
    rw [min_eq_left a.le, max_eq_right a.le, min_eq_left b.le, max_eq_right b.le]
    refine ⟨?_, ?_, ?_, ?_, fun hn => ?_⟩
    · rw [← rl]; exact R.mono (by linarith)
    · rw [← r0]; exact R.mono (by linarith)
    · rw [← r0]; exact R.mono (by linarith)
    · rw [← rr]; exact R.mono (by linarith)
    · nlinarith [mul_pos (sub_pos.2 a) (sub_pos.2 b)]
  · have k1 := h' y0 yl a (.inl ⟨rfl, rfl⟩) _ c d
    have k2 := h' yr y0 b (.inr ⟨rfl, rfl⟩) _ c e
    have k0 : s (plmGradientDouble za zb zc theta yl y0 yr).val ≤ 0 := by rw [← hs0]; exact hs c
    rw [min_eq_right a.le, max_eq_left a.le, min_eq_right b.le, max_eq_left b.le]
    refine ⟨?_, ?_, ?_, ?_, fun hn => ?_⟩
    · rw [← r0]; exact R.mono (by linarith)
    · rw [← rl]; exact R.mono (by linarith)
    · rw [← rr]; exact R.mono (by linarith)
    · rw [← r0]; exact R.mono (by linarith)
    · nlinarith [mul_pos (sub_pos.2 a) (sub_pos.2 b)]

theorem min_val (x y : Dbl R) : (min x y).val = min x.val y.val := by
  rcases le_total x y with h | h
  · rw [min_eq_left h, min_eq_left (le_def.1 h)]
  · rw [min_eq_right h, min_eq_right (le_def.1 h)]

theorem max_val (x y : Dbl R) : (max x y).val = max x.val y.val := by
  rcases le_total x y with h | h
  · rw [max_eq_right h, max_eq_right (le_def.1 h)]
  · rw [max_eq_left h, max_eq_left (le_def.1 h)]

theorem faces_of_aux {yl y0 yr : Dbl R} {f : Dbl R × Dbl R}
    (h : min yl.val y0.val ≤ f.1.val ∧ f.1.val ≤ max yl.val y0.val ∧ min y0.val yr.val ≤ f.2.val ∧ f.2.val ≤ max y0.val yr.val ∧
      (0 ≤ (y0.val - yl.val) * (y0.val - yr.val) → f.1.val = y0.val ∧ f.2.val = y0.val)) :
    min yl y0 ≤ f.1 ∧ f.1 ≤ max yl y0 ∧ min y0 yr ≤ f.2 ∧ f.2 ≤ max y0 yr ∧
      ((yl ≤ y0 ∧ yr ≤ y0) ∨ (y0 ≤ yl ∧ y0 ≤ yr) → f = (y0, y0)) := by
  obtain ⟨h1, h2, h3, h4, h5⟩ := h
  refine ⟨?_, ?_, ?_, ?_, ?_⟩
  · rw [le_def, min_val]; exact h1
  · rw [le_def, max_val]; exact h2
  · rw [le_def, min_val]; exact h3
  · rw [le_def, max_val]; exact h4
  · intro h
    obtain ⟨e1, e2⟩ := h5 (by
      rcases h with ⟨a, b⟩ | ⟨a, b⟩
      · exact mul_nonneg (sub_nonneg.2 a) (sub_nonneg.2 b)
      · exact mul_nonneg_of_nonpos_of_nonpos (sub_nonpos.2 a) (sub_nonpos.2 b))
    exact Prod.ext (Dbl.ext e1) (Dbl.ext e2)

theorem mirror_sub (R : Rounding) (u v t : ℝ) :
    (mirror R).rnd ((mirror R).rnd (v - u) * t) = -R.rnd (R.rnd (u - v) * t) := by
  show -R.rnd (-(-R.rnd (-(v - u)) * t)) = _
  rw [neg_sub, neg_mul, neg_neg]

/-- **C124**, for the cloud program: with a parameter that is less than two by at least `2 ^ -50`, the values at the faces of a cell are
between those of the cell and of its neighbours, without any error, and at an extremum they are that of the cell. -/
theorem cloud_faces_partial (za zb zc : Bool) {theta yl y0 yr : Dbl R} (ht0 : 0 ≤ theta.val) (ht : theta.val ≤ 2 - 1 / 2 ^ 50) :
    let f := cloudFacesDouble (plmGradientDouble za zb zc theta yl y0 yr) y0
    min yl y0 ≤ f.1 ∧ f.1 ≤ max yl y0 ∧ min y0 yr ≤ f.2 ∧ f.2 ≤ max y0 yr ∧
      ((yl ≤ y0 ∧ yr ≤ y0) ∨ (y0 ≤ yl ∧ y0 ≤ yr) → f = (y0, y0)) := by
  intro f
  have ht' : theta.val ≤ 2 * (1 - 1 / 2 ^ 51) := by refine ht.trans (le_of_eq ?_); norm_num
  refine faces_of_aux (faces_aux (s := fun g => R.rnd (g * (1 / 2))) za zb zc ht0 ?_ ?_ ?_ ?_)
  · simp only [zero_mul, R.rnd_double isDouble_zero]
  · intro a b h; exact R.mono (by linarith)
  · intro u v huv _ g hg0 hg
    exact half_le u.isDouble v.isDouble huv ht0 ht' hg0 hg
  · intro u v huv _ g hg0 hg
    have := half_le (R := mirror R) v.isDouble u.isDouble huv ht0 ht' (g := -g) (by linarith) (by rw [mirror_sub]; linarith)
    have e : (mirror R).rnd (-g * (1 / 2)) = -R.rnd (g * (1 / 2)) := by
      show -R.rnd (-(-g * (1 / 2))) = _
      rw [neg_mul, neg_neg]
    rw [e] at this
    linarith

/-- **C124**, for the binary program, with a grid spacing of at most `2 ^ 300`, where values that differ do so by at least `2 ^ -700`. -/
theorem binary_faces_partial (za zb zc : Bool) {theta yl y0 yr h : Dbl R} (ht0 : 0 ≤ theta.val) (ht : theta.val ≤ 2 - 1 / 2 ^ 48)
    (h0 : 0 < h.val) (h1 : h.val ≤ 2 ^ 300) (hl : yl.val = y0.val ∨ 2 ^ (-700 : ℤ) ≤ |y0.val - yl.val|)
    (hr : yr.val = y0.val ∨ 2 ^ (-700 : ℤ) ≤ |yr.val - y0.val|) :
    let f := binaryFacesDouble h (plmGradientDouble za zb zc theta yl y0 yr) y0
    min yl y0 ≤ f.1 ∧ f.1 ≤ max yl y0 ∧ min y0 yr ≤ f.2 ∧ f.2 ≤ max y0 yr ∧
      ((yl ≤ y0 ∧ yr ≤ y0) ∨ (y0 ≤ yl ∧ y0 ≤ yr) → f = (y0, y0)) := by
  intro f
  have ht' : theta.val ≤ 2 * (1 - 1 / 2 ^ 49) := by refine ht.trans (le_of_eq ?_); norm_num
  have gap : ∀ u v : Dbl R, u.val ≠ v.val → (u = y0 ∧ v = yl ∨ u = yr ∧ v = y0) → 2 ^ (-700 : ℤ) ≤ |u.val - v.val| := by
    rintro u v huv (⟨rfl, rfl⟩ | ⟨rfl, rfl⟩)
    · exact hl.resolve_left fun h => huv h.symm
    · exact hr.resolve_left huv
  refine faces_of_aux (faces_aux (s := fun g => R.rnd (R.rnd (R.rnd (g / h.val) * (1 / 2)) * h.val)) za zb zc ht0 ?_ ?_ ?_ ?_)
  · simp only [zero_mul, zero_div, R.rnd_double isDouble_zero]
  · intro a b hab
    refine R.mono (mul_le_mul_of_nonneg_right (R.mono (mul_le_mul_of_nonneg_right (R.mono ?_) (by norm_num))) h0.le)
    exact div_le_div_of_nonneg_right hab h0.le
  · intro u v huv huv' g hg0 hg
    have k := gap u v huv.ne' huv'
    rw [abs_of_pos (sub_pos.2 huv)] at k
    exact half_spacing_le u.isDouble v.isDouble k ht0 ht' h0 h1 hg0 hg
  · intro u v huv huv' g hg0 hg
    have k := gap u v huv.ne huv'
    rw [abs_of_neg (sub_neg.2 huv), neg_sub] at k
    have := half_spacing_le (R := mirror R) v.isDouble u.isDouble k ht0 ht' h0 h1 (g := -g) (by linarith only [hg0])
      (by rw [mirror_sub]; linarith only [hg])
    have e : (mirror R).rnd ((mirror R).rnd ((mirror R).rnd (-g / h.val) * (1 / 2)) * h.val) =
        -R.rnd (R.rnd (R.rnd (g / h.val) * (1 / 2)) * h.val) := by
      show -R.rnd (-(-R.rnd (-(-R.rnd (-(-g / h.val)) * (1 / 2))) * h.val)) = _
      rw [neg_div, neg_neg, neg_mul, neg_neg, neg_mul, neg_neg]
    rw [e] at this
    linarith only [this]

/-- C124: a quantity that is positive in a cell and its neighbours is positive at the faces. -/
theorem cloud_faces_positive (za zb zc : Bool) {theta yl y0 yr : Dbl R} (ht0 : 0 ≤ theta.val) (ht : theta.val ≤ 2 - 1 / 2 ^ 50)
    (hl : 0 < yl) (h0 : 0 < y0) (hr : 0 < yr) :
    0 < (cloudFacesDouble (plmGradientDouble za zb zc theta yl y0 yr) y0).1 ∧
    0 < (cloudFacesDouble (plmGradientDouble za zb zc theta yl y0 yr) y0).2 := by
  obtain ⟨h1, _, h2, _, _⟩ := cloud_faces_partial za zb zc (yl := yl) (y0 := y0) (yr := yr) ht0 ht
  exact ⟨lt_of_lt_of_le (lt_min hl h0) h1, lt_of_lt_of_le (lt_min h0 hr) h2⟩

/-- The limited gradient of values that increase. -/
theorem plmDouble_pos (za zb zc : Bool) {theta yl y0 yr : Dbl R} (ha : 0 < ((y0 - yl) * theta).val)
    (hb : 0 < ((yr - yl) * Dbl.half).val) (hc : 0 < ((yr - y0) * theta).val) :
    (plmGradientDouble za zb zc theta yl y0 yr).val =
      min (min ((y0 - yl) * theta).val ((yr - yl) * Dbl.half).val) ((yr - y0) * theta).val := by
  unfold plmGradientDouble
  simp only
  generalize (y0 - yl) * theta = a at *
  generalize (yr - yl) * Dbl.half = b at *
  generalize (yr - y0) * theta = c at *
  have hm := (minabsDouble a b c).isDouble
  have e := minabs_val a b c
  rw [abs_of_pos ha, abs_of_pos hb, abs_of_pos hc] at e
  rw [sgnDouble_pos ha, sgnDouble_pos hb, sgnDouble_pos hc]
  simp only [mul_val, add_val, one_val]
  rw [← e]
  rw [show (1 : ℝ) + 1 = 2 by norm_num, R.rnd_double isDouble_two]
  have q : (quarterDouble : Dbl R).val = 1 / 4 := rfl
  have ab : ∀ x : Dbl R, (absDouble x).val = |x.val| := fun _ => rfl
  rw [q, ab, add_val, one_val, show (1 : ℝ) + 1 = 2 by norm_num, R.rnd_double isDouble_two, abs_of_pos two_pos,
    show (1 : ℝ) / 4 * 2 = 1 / 2 by norm_num, R.rnd_double isDouble_half, show (1 : ℝ) / 2 * 2 = 1 by norm_num,
    R.rnd_double isDouble_one, one_mul, R.rnd_double hm]

/-- The limited gradient of values that decrease. -/
theorem plmDouble_neg (za zb zc : Bool) {theta yl y0 yr : Dbl R} (ha : ((y0 - yl) * theta).val < 0)
    (hb : ((yr - yl) * Dbl.half).val < 0) (hc : ((yr - y0) * theta).val < 0) :
    (plmGradientDouble za zb zc theta yl y0 yr).val =
      -min (min |((y0 - yl) * theta).val| |((yr - yl) * Dbl.half).val|) |((yr - y0) * theta).val| := by
  unfold plmGradientDouble
  simp only
  generalize (y0 - yl) * theta = a at *
  generalize (yr - yl) * Dbl.half = b at *
  generalize (yr - y0) * theta = c at *
  have hm := (minabsDouble a b c).isDouble
  rw [sgnDouble_neg ha, sgnDouble_neg hb, sgnDouble_neg hc, ← minabs_val a b c]
  simp only [mul_val, add_val, minusOne_val]
  have i2 : IsDouble (-2) := isDouble_neg isDouble_two
  have q : (quarterDouble : Dbl R).val = 1 / 4 := rfl
  have ab : ∀ x : Dbl R, (absDouble x).val = |x.val| := fun _ => rfl
  rw [q, ab, add_val, minusOne_val, show (-1 : ℝ) + -1 = -2 by norm_num, R.rnd_double i2, abs_neg, abs_of_pos two_pos,
    show (1 : ℝ) / 4 * 2 = 1 / 2 by norm_num, R.rnd_double isDouble_half, show (1 : ℝ) / 2 * -2 = -1 by norm_num,
    R.rnd_double (isDouble_neg isDouble_one), neg_one_mul, R.rnd_double (isDouble_neg hm)]

/-- The gradient is zero if one of the differences is rounded to zero. -/
theorem plmDouble_zero (za zb zc : Bool) {theta yl y0 yr : Dbl R}
    (h : min (min |((y0 - yl) * theta).val| |((yr - yl) * Dbl.half).val|) |((yr - y0) * theta).val| = 0) :
    (plmGradientDouble za zb zc theta yl y0 yr).val = 0 := by
  rw [← minabs_val] at h
  unfold plmGradientDouble
  simp only
  rw [mul_val, h, mul_zero, R.rnd_double isDouble_zero]

/-- Two roundings of a difference times a number. -/
theorem twice_error {u v : ℝ} (hu : IsDouble u) (hv : IsDouble v) (t : ℝ) :
    |R.rnd (R.rnd (u - v) * t) - (u - v) * t| ≤ |(u - v) * t| / 2 ^ 51 + 2 ^ (-1075 : ℤ) := by
  have e1 := R.error_sub hu hv
  have e2 : |R.rnd (u - v) * t - (u - v) * t| ≤ |(u - v) * t| / 2 ^ 53 := by
    rw [← sub_mul, abs_mul, abs_mul, mul_div_right_comm]
    gcongr
  have e3 : |R.rnd (u - v) * t| ≤ |(u - v) * t| + |(u - v) * t| / 2 ^ 53 := by
    have := abs_sub_abs_le_abs_sub (R.rnd (u - v) * t) ((u - v) * t)
    linarith
  have e4 : |R.rnd (R.rnd (u - v) * t) - R.rnd (u - v) * t| ≤ |R.rnd (u - v) * t| / 2 ^ 53 + 2 ^ (-1075 : ℤ) := by
    have : (0 : ℝ) < 2 ^ (-1075 : ℤ) := zpow_pos two_pos _
    have : 0 ≤ |R.rnd (u - v) * t| / 2 ^ 53 := by positivity
    rcases R.error (R.rnd (u - v) * t) with h | h
    · linarith
    · linarith [h.2]
  have := abs_sub_le (R.rnd (R.rnd (u - v) * t)) (R.rnd (u - v) * t) ((u - v) * t)
  have h0 : 0 ≤ |(u - v) * t| := abs_nonneg _
  generalize (2 : ℝ) ^ (-1075 : ℤ) = δ at *
  norm_num at *
  linarith

/-- The smallest of three numbers changes no more than they do. -/
theorem min_near {a b c A B C ε δ : ℝ} (hε : 0 ≤ ε) (hε1 : ε ≤ 1) (ha : |a - A| ≤ A * ε + δ) (hb : |b - B| ≤ B * ε + δ) (hc : |c - C| ≤ C * ε + δ) :
    |min (min a b) c - min (min A B) C| ≤ min (min A B) C * ε + δ := by
  rw [abs_le] at *
  have l1 : min (min A B) C ≤ A := (min_le_left _ _).trans (min_le_left _ _)
  have l2 : min (min A B) C ≤ B := (min_le_left _ _).trans (min_le_right _ _)
  have l3 : min (min A B) C ≤ C := min_le_right _ _
  constructor
  · have : min (min A B) C * (1 - ε) - δ ≤ min (min a b) c := by
      refine le_min (le_min ?_ ?_) ?_
      · nlinarith [ha.1, mul_le_mul_of_nonneg_right l1 (sub_nonneg.2 hε1)]
      · nlinarith [hb.1, mul_le_mul_of_nonneg_right l2 (sub_nonneg.2 hε1)]
      · nlinarith [hc.1, mul_le_mul_of_nonneg_right l3 (sub_nonneg.2 hε1)]
    linarith
  · have m1 : min (min a b) c ≤ a := (min_le_left _ _).trans (min_le_left _ _)
    have m2 : min (min a b) c ≤ b := (min_le_left _ _).trans (min_le_right _ _)
    have m3 : min (min a b) c ≤ c := min_le_right _ _
    rcases min_choice (min A B) C with h | h
    · rcases min_choice A B with h' | h' <;> rw [h, h']
      · linarith [ha.2]
      · linarith [hb.2]
    · rw [h]; linarith [hc.2]

/-- **C124**, the size of the gradient: that of the smallest of the three differences but for a few roundings, with their sign, and zero at an extremum. -/
theorem gradient_near (za zb zc : Bool) {theta yl y0 yr : Dbl R} (ht : 0 ≤ theta.val) :
    let g := (plmGradientDouble za zb zc theta yl y0 yr).val
    let m := min (min (|y0.val - yl.val| * theta.val) (|yr.val - yl.val| * (1 / 2))) (|yr.val - y0.val| * theta.val)
    (yl < y0 → y0 < yr → |g - m| ≤ m * (1 / 2 ^ 51) + 2 ^ (-1075 : ℤ)) ∧
    (y0 < yl → yr < y0 → |g + m| ≤ m * (1 / 2 ^ 51) + 2 ^ (-1075 : ℤ)) ∧
    ((yl ≤ y0 ∧ yr ≤ y0) ∨ (y0 ≤ yl ∧ y0 ≤ yr) → g = 0) := by
  intro g m
  have err : ∀ (u v : Dbl R) (t : ℝ), 0 ≤ t → |(|R.rnd (R.rnd (u.val - v.val) * t)|) - |u.val - v.val| * t| ≤
      |u.val - v.val| * t * (1 / 2 ^ 51) + 2 ^ (-1075 : ℤ) := by
    intro u v t h0
    have := twice_error (R := R) u.isDouble v.isDouble t
    rw [abs_mul, abs_of_nonneg h0] at this
    have e := abs_abs_sub_abs_le_abs_sub (R.rnd (R.rnd (u.val - v.val) * t)) ((u.val - v.val) * t)
    rw [abs_mul (u.val - v.val), abs_of_nonneg h0] at e
    rw [mul_one_div]
    exact e.trans this
  have near := min_near (by positivity) (by norm_num) (err y0 yl _ ht) (err yr yl (1 / 2) (by norm_num)) (err yr y0 _ ht)
  have sgn0 : ∀ {u v : Dbl R} {t : ℝ}, 0 ≤ t → v < u → 0 ≤ R.rnd (R.rnd (u.val - v.val) * t) := by
    intro u v t h0 h
    rw [← R.rnd_double isDouble_zero]
    refine R.mono (mul_nonneg ?_ h0)
    rw [← R.rnd_double isDouble_zero]
    exact R.mono (sub_nonneg.2 (lt_def.1 h).le)
  have sgn1 : ∀ {u v : Dbl R} {t : ℝ}, 0 ≤ t → u < v → R.rnd (R.rnd (u.val - v.val) * t) ≤ 0 := by
    intro u v t h0 h
    rw [← R.rnd_double isDouble_zero]
    refine R.mono (mul_nonpos_of_nonpos_of_nonneg ?_ h0)
    rw [← R.rnd_double isDouble_zero]
    exact R.mono (sub_nonpos.2 (lt_def.1 h).le)
  have va : ((y0 - yl) * theta).val = R.rnd (R.rnd (y0.val - yl.val) * theta.val) := rfl
  have vb : ((yr - yl) * Dbl.half).val = R.rnd (R.rnd (yr.val - yl.val) * (1 / 2)) := rfl
  have vc : ((yr - y0) * theta).val = R.rnd (R.rnd (yr.val - y0.val) * theta.val) := rfl
  rw [← va, ← vb, ← vc] at near
  refine ⟨fun h1 h2 => ?_, fun h1 h2 => ?_, fun h => ?_⟩
  · have a0 : 0 ≤ ((y0 - yl) * theta).val := by rw [va]; exact sgn0 ht h1
    have b0 : 0 ≤ ((yr - yl) * Dbl.half).val := by rw [vb]; exact sgn0 (by norm_num) (h1.trans h2)
    have c0 : 0 ≤ ((yr - y0) * theta).val := by rw [vc]; exact sgn0 ht h2
    have e : g = min (min |((y0 - yl) * theta).val| |((yr - yl) * Dbl.half).val|) |((yr - y0) * theta).val| := by
      rcases a0.eq_or_lt with ha | ha
      · have hz : min (min |((y0 - yl) * theta).val| |((yr - yl) * Dbl.half).val|) |((yr - y0) * theta).val| = 0 := by
          rw [← ha]; simp
        rw [hz]; exact plmDouble_zero za zb zc hz
      rcases b0.eq_or_lt with hb | hb
      · have hz : min (min |((y0 - yl) * theta).val| |((yr - yl) * Dbl.half).val|) |((yr - y0) * theta).val| = 0 := by
          rw [← hb]; simp
        rw [hz]; exact plmDouble_zero za zb zc hz
      rcases c0.eq_or_lt with hc | hc
      · have hz : min (min |((y0 - yl) * theta).val| |((yr - yl) * Dbl.half).val|) |((yr - y0) * theta).val| = 0 := by
          rw [← hc]; simp
        rw [hz]; exact plmDouble_zero za zb zc hz
      rw [abs_of_pos ha, abs_of_pos hb, abs_of_pos hc]
      exact plmDouble_pos za zb zc ha hb hc
    rw [e]
    exact near
  · have a0 : ((y0 - yl) * theta).val ≤ 0 := by rw [va]; exact sgn1 ht h1
    have b0 : ((yr - yl) * Dbl.half).val ≤ 0 := by rw [vb]; exact sgn1 (by norm_num) (h2.trans h1)
    have c0 : ((yr - y0) * theta).val ≤ 0 := by rw [vc]; exact sgn1 ht h2
    have e : g = -min (min |((y0 - yl) * theta).val| |((yr - yl) * Dbl.half).val|) |((yr - y0) * theta).val| := by
      rcases a0.eq_or_lt with ha | ha
      · have hz : min (min |((y0 - yl) * theta).val| |((yr - yl) * Dbl.half).val|) |((yr - y0) * theta).val| = 0 := by
          rw [ha]; simp
        rw [hz, neg_zero]; exact plmDouble_zero za zb zc hz
      rcases b0.eq_or_lt with hb | hb
      · have hz : min (min |((y0 - yl) * theta).val| |((yr - yl) * Dbl.half).val|) |((yr - y0) * theta).val| = 0 := by
          rw [hb]; simp
        rw [hz, neg_zero]; exact plmDouble_zero za zb zc hz
      rcases c0.eq_or_lt with hc | hc
      · have hz : min (min |((y0 - yl) * theta).val| |((yr - yl) * Dbl.half).val|) |((yr - y0) * theta).val| = 0 := by
          rw [hc]; simp
        rw [hz, neg_zero]; exact plmDouble_zero za zb zc hz
      exact plmDouble_neg za zb zc ha hb hc
    rw [e, neg_add_eq_sub, abs_sub_comm]
    exact near
  · rcases plmDouble_signs za zb zc (yl := yl) (y0 := y0) (yr := yr) ht with h' | ⟨h1, h2, _⟩ | ⟨h1, h2, _⟩
    · exact h'
    · rcases h with ⟨_, h⟩ | ⟨h, _⟩
      · exact absurd (le_def.1 h) (not_le.2 h2)
      · exact absurd (le_def.1 h) (not_le.2 h1)
    · rcases h with ⟨h, _⟩ | ⟨_, h⟩
      · exact absurd (le_def.1 h) (not_le.2 h1)
      · exact absurd (le_def.1 h) (not_le.2 h2)

/-- A whole number that is a double. -/
noncomputable def natDouble (R : Rounding) (n : Nat) : Dbl R := ((n : Nat) : Dbl R)

theorem natDouble_val {n : Nat} (h : n ≤ 2 ^ 53) : (natDouble R n).val = n := R.rnd_double (isDouble_nat h)

/-- `2 ^ -60` -/
noncomputable def tiny (R : Rounding) : Dbl R := ⟨2 ^ (-60 : ℤ), isDouble_pow _ (by norm_num)⟩

theorem rnd_one_sub_tiny : R.rnd (1 - 2 ^ (-60 : ℤ)) = 1 := by
  have h1 : R.rnd (1 - 2 ^ (-60 : ℤ)) ≤ 1 := by
    rw [← R.rnd_double isDouble_one]; exact R.mono (by rw [R.rnd_double isDouble_one]; norm_num)
  have h2 : 1 - 2 ^ (-59 : ℤ) ≤ R.rnd (1 - 2 ^ (-60 : ℤ)) := by
    have := (abs_le.1 (R.nearest (1 - 2 ^ (-60 : ℤ)) 1 isDouble_one)).1
    rw [abs_of_pos (by norm_num)] at this
    norm_num at this ⊢
    linarith
  rcases h1.lt_or_eq with h | h
  · have := gap (R.isDouble _) isDouble_one h
    norm_num at this h2
    linarith
  · exact h

/-- C124 is violated with a parameter of two, the largest value that the binary program documents: of the values `2 ^ -60`, `1` and `8`, all
of them positive, the lower face of the second gets the value zero. -/
theorem faces_violated (R : Rounding) (za zb zc : Bool) :
    ∃ theta yl y0 yr : Dbl R, theta.val = 2 ∧ 0 < yl ∧ yl < y0 ∧ y0 < yr ∧
      (cloudFacesDouble (plmGradientDouble za zb zc theta yl y0 yr) y0).1 = 0 ∧
      (binaryFacesDouble Dbl.one (plmGradientDouble za zb zc theta yl y0 yr) y0).1 = 0 := by
  have v2 : (natDouble R 2).val = 2 := by rw [natDouble_val (by norm_num)]; norm_num
  have v1 : (natDouble R 1).val = 1 := by rw [natDouble_val (by norm_num)]; norm_num
  have v8 : (natDouble R 8).val = 8 := by rw [natDouble_val (by norm_num)]; norm_num
  have vt : (tiny R).val = 2 ^ (-60 : ℤ) := rfl
  have ea : ((natDouble R 1 - tiny R) * natDouble R 2).val = 2 := by
    rw [mul_val, sub_val, v1, v2, vt, rnd_one_sub_tiny, one_mul, R.rnd_double isDouble_two]
  have ec : ((natDouble R 8 - natDouble R 1) * natDouble R 2).val = 14 := by
    rw [mul_val, sub_val, v1, v2, v8, show (8 : ℝ) - 1 = (7 : ℕ) by norm_num, R.rnd_double (isDouble_nat (by norm_num)),
      show ((7 : ℕ) : ℝ) * 2 = (14 : ℕ) by norm_num, R.rnd_double (isDouble_nat (by norm_num))]
    norm_num
  have eb : 2 ≤ ((natDouble R 8 - tiny R) * Dbl.half).val := by
    rw [mul_val, sub_val, v8, vt, half_val, ← R.rnd_double isDouble_two]
    refine R.mono ?_
    rw [R.rnd_double isDouble_two]
    have : (4 : ℕ) ≤ R.rnd (8 - 2 ^ (-60 : ℤ)) := by
      rw [← R.rnd_double (isDouble_nat (n := 4) (by norm_num))]
      exact R.mono (by norm_num)
    norm_num at this ⊢
    linarith
  have eg : (plmGradientDouble za zb zc (natDouble R 2) (tiny R) (natDouble R 1) (natDouble R 8)).val = 2 := by
    rw [plmDouble_pos za zb zc (by rw [ea]; norm_num) (by linarith) (by rw [ec]; norm_num), ea, ec, min_eq_left eb,
      min_eq_left (by norm_num)]
  refine ⟨natDouble R 2, tiny R, natDouble R 1, natDouble R 8, v2, ?_, ?_, ?_, ?_, ?_⟩
  · rw [lt_def, zero_val, vt]; exact zpow_pos two_pos _
  · rw [lt_def, v1, vt]; norm_num
  · rw [lt_def, v1, v8]; norm_num
  · apply Dbl.ext
    show (_ - _ * _ : Dbl R).val = _
    rw [sub_val, mul_val, eg, half_val, v1, show (2 : ℝ) * (1 / 2) = 1 by norm_num, R.rnd_double isDouble_one, sub_self,
      R.rnd_double isDouble_zero, zero_val]
  · apply Dbl.ext
    show (_ - _ / _ * _ * _ : Dbl R).val = _
    rw [sub_val, mul_val, mul_val, div_val, eg, half_val, v1, one_val, div_one, R.rnd_double isDouble_two,
      show (2 : ℝ) * (1 / 2) = 1 by norm_num, R.rnd_double isDouble_one, mul_one, R.rnd_double isDouble_one, sub_self,
      R.rnd_double isDouble_zero, zero_val]

/-! ### Examples -/

/-- The parameter `3 / 2` with the values `2 ^ -60`, `1` and `8` of `faces_violated`. -/
example : ∃ theta yl y0 yr h : Dbl Rounding.up, 0 ≤ theta.val ∧ theta.val ≤ 2 - 1 / 2 ^ 50 ∧ theta.val ≤ 2 - 1 / 2 ^ 48 ∧ 0 < yl ∧ 0 < y0 ∧ 0 < yr ∧
    0 < h.val ∧ h.val ≤ 2 ^ 300 ∧ (yl.val = y0.val ∨ 2 ^ (-700 : ℤ) ≤ |y0.val - yl.val|) ∧ (yr.val = y0.val ∨ 2 ^ (-700 : ℤ) ≤ |yr.val - y0.val|) := by
  have v1 : (natDouble Rounding.up 1).val = 1 := by rw [natDouble_val (by norm_num)]; norm_num
  have v8 : (natDouble Rounding.up 8).val = 8 := by rw [natDouble_val (by norm_num)]; norm_num
  have vt : (tiny Rounding.up).val = 2 ^ (-60 : ℤ) := rfl
  have hs : (2 : ℝ) ^ (-700 : ℤ) ≤ 1 / 2 :=
    calc (2 : ℝ) ^ (-700 : ℤ) ≤ 2 ^ (-1 : ℤ) := zpow_le_zpow_right₀ (by norm_num) (by norm_num)
      _ = 1 / 2 := by norm_num
  refine ⟨⟨3 / 2, 3, -1, by norm_num, by norm_num, by norm_num⟩, tiny _, natDouble _ 1, natDouble _ 8, natDouble _ 1, by norm_num, by norm_num,
    by norm_num, ?_, ?_, ?_, ?_, ?_, .inr ?_, .inr ?_⟩
  · rw [lt_def, zero_val, vt]; exact zpow_pos two_pos _
  · rw [lt_def, zero_val, v1]; norm_num
  · rw [lt_def, zero_val, v8]; norm_num
  · rw [v1]; norm_num
  · rw [v1]; exact one_le_pow₀ one_le_two
  · rw [v1, vt]; refine hs.trans ?_; rw [abs_of_pos (by norm_num)]; norm_num
  · rw [v1, v8]; refine hs.trans ?_; rw [abs_of_pos (by norm_num)]; norm_num

end Verif.Plm
