import Verif.Model.Polynomial
import Mathlib.Tactic.FieldSimp
import Mathlib.Tactic.Positivity
import Mathlib.Tactic.Linarith
import Mathlib.Tactic.LinearCombination
import Mathlib.Tactic.NormNum
import Mathlib.Tactic.Push
import Mathlib.Tactic.ByContra

/-!
# Roots of polynomials (C52)
-/

namespace Verif.Polynomial

theorem cubeRoot_pow (s : ℝ) : cubeRoot s ^ 3 = s := by
  have h : ∀ t : ℝ, 0 ≤ t → (t ^ (1 / 3 : ℝ)) ^ 3 = t := by
    intro t ht
    have := Real.rpow_inv_natCast_pow (n := 3) ht (by norm_num)
    rw [one_div]
    exact_mod_cast this
  unfold cubeRoot
  split_ifs with hs
  · exact h s hs
  · have := h (-s) (by linarith)
    linear_combination -this

theorem cube_inj {a b : ℝ} (h : a ^ 3 = b ^ 3) : a = b :=
  (Odd.pow_inj (R := ℝ) (by decide : Odd 3)).1 h

theorem cubeRoot_unique {a s : ℝ} (h : a ^ 3 = s) : cubeRoot s = a := cube_inj (by rw [cubeRoot_pow, h])

/-- What the cubic solver promises, for the monic polynomial: three roots are all, with multiplicity; and one root is
the only one.  In both cases the one the quartic solver uses is a root, and is the largest. -/
theorem monicCubic_spec (a2 a1 a0 : ℝ) :
    let c := monicCubic a2 a1 a0
    let f := fun x : ℝ => x ^ 3 + a2 * x ^ 2 + a1 * x + a0
    ((c.numRoots = 3 ∧ (∀ x, f x = (x - c.x1) * (x - c.x2) * (x - c.x3))) ∨
      (c.numRoots = 1 ∧ ∀ x, f x = 0 ↔ x = c.x1)) ∧
    f (resolventRoot c) = 0 ∧ ∀ x, resolventRoot c < x → 0 < f x := by
  obtain ⟨q, hq⟩ : ∃ q, q = a1 / 3 - a2 * a2 / 9 := ⟨_, rfl⟩
  obtain ⟨r, hr⟩ : ∃ r, r = (a1 * a2 - 3 * a0) / 6 - a2 * a2 * a2 / 27 := ⟨_, rfl⟩
  have hf : ∀ x : ℝ, x ^ 3 + a2 * x ^ 2 + a1 * x + a0 = (x + a2 / 3) ^ 3 + 3 * q * (x + a2 / 3) - 2 * r := by
    intro x; rw [hq, hr]; ring
  dsimp only
  rcases lt_trichotomy (q * q * q + r * r) 0 with hd | hd | hd
  · -- three different roots
    obtain ⟨m, hm⟩ : ∃ m, m = Real.sqrt (-q) := ⟨_, rfl⟩
    have hqneg : q < 0 := by
      by_contra h
      push Not at h
      have : 0 ≤ q * q * q := by positivity
      nlinarith [mul_self_nonneg r]
    have hm2 : m ^ 2 = -q := by rw [hm]; exact Real.sq_sqrt (by linarith)
    have hm0 : 0 < m := by rw [hm]; exact Real.sqrt_pos.2 (by linarith)
    have hm3 : Real.sqrt (-q * q * q) = m ^ 3 := by
      rw [show -q * q * q = (m ^ 3) ^ 2 by
        rw [show (m ^ 3) ^ 2 = (m ^ 2) ^ 3 by ring, hm2]; ring]
      exact Real.sqrt_sq (by positivity)
    obtain ⟨t, ht⟩ : ∃ t, t = Real.arccos (r / m ^ 3) / 3 := ⟨_, rfl⟩
    have hr1 : r ^ 2 < (m ^ 3) ^ 2 := by
      rw [show (m ^ 3) ^ 2 = (m ^ 2) ^ 3 by ring, hm2]; nlinarith
    have hr2 := abs_lt_of_sq_lt_sq hr1 (by positivity)
    rw [abs_lt] at hr2
    have hm30 : 0 < m ^ 3 := by positivity
    have hcos : 4 * Real.cos t ^ 3 - 3 * Real.cos t = r / m ^ 3 := by
      rw [← Real.cos_three_mul, ht, mul_div_cancel₀ _ (by norm_num : (3 : ℝ) ≠ 0)]
      refine Real.cos_arccos ?_ ?_
      · rw [le_div_iff₀ hm30]; linarith [hr2.1]
      · rw [div_le_iff₀ hm30]; linarith [hr2.2]
    have hcos' : m ^ 3 * (4 * Real.cos t ^ 3 - 3 * Real.cos t) = r := by rw [hcos]; field_simp
    have hsin : 0 ≤ Real.sin t := by
      refine Real.sin_nonneg_of_nonneg_of_le_pi ?_ ?_
      · rw [ht]; exact div_nonneg (Real.arccos_nonneg _) (by norm_num)
      · rw [ht]; linarith [Real.arccos_le_pi (r / m ^ 3), Real.pi_pos]
    have hc : monicCubic a2 a1 a0 = ⟨2 * m * Real.cos t - a2 / 3, -m * Real.cos t - a2 / 3 - Real.sqrt 3 * m * Real.sin t,
        -m * Real.cos t - a2 / 3 + Real.sqrt 3 * m * Real.sin t, 3⟩ := by
      unfold monicCubic
      dsimp only
      rw [← hq, ← hr, if_neg (not_lt.2 hd.le), if_pos hd, hm3, ← ht, ← hm]
    have h3 : Real.sqrt 3 ^ 2 = 3 := Real.sq_sqrt (by norm_num)
    have hsc := Real.sin_sq_add_cos_sq t
    have hfac : ∀ x : ℝ, x ^ 3 + a2 * x ^ 2 + a1 * x + a0 =
        (x - (2 * m * Real.cos t - a2 / 3)) * (x - (-m * Real.cos t - a2 / 3 - Real.sqrt 3 * m * Real.sin t)) *
          (x - (-m * Real.cos t - a2 / 3 + Real.sqrt 3 * m * Real.sin t)) := by
      intro x
      rw [hf]
      linear_combination (m ^ 2 * Real.sin t ^ 2 * (x + a2 / 3) - 2 * m ^ 3 * Real.cos t * Real.sin t ^ 2) * h3 +
        (3 * m ^ 2 * (x + a2 / 3) - 6 * m ^ 3 * Real.cos t) * hsc + 3 * (x + a2 / 3) * hm2 + 2 * hcos'
    have hx23 : -m * Real.cos t - a2 / 3 - Real.sqrt 3 * m * Real.sin t ≤
        -m * Real.cos t - a2 / 3 + Real.sqrt 3 * m * Real.sin t := by
      have : 0 ≤ Real.sqrt 3 * m * Real.sin t := mul_nonneg (mul_nonneg (Real.sqrt_nonneg _) hm0.le) hsin
      linarith
    rw [hc]
    refine ⟨Or.inl ⟨rfl, hfac⟩, ?_, ?_⟩
    · unfold resolventRoot
      rw [if_neg (show ¬3 = 1 by decide), hfac]
      rcases max_choice (2 * m * Real.cos t - a2 / 3) (-m * Real.cos t - a2 / 3 + Real.sqrt 3 * m * Real.sin t) with e | e <;>
        rw [e] <;> ring
    · intro x hx
      unfold resolventRoot at hx
      rw [if_neg (show ¬3 = 1 by decide)] at hx
      rw [hfac]
      obtain ⟨y1, y2⟩ := max_lt_iff.1 hx
      dsimp only at y1 y2
      exact mul_pos (mul_pos (by linarith) (by linarith)) (by linarith)
  · -- a multiple root
    obtain ⟨s, hs⟩ : ∃ s, s = cubeRoot r := ⟨_, rfl⟩
    have hs3 : s ^ 3 = r := by rw [hs]; exact cubeRoot_pow r
    have hsq : s ^ 2 = -q := cube_inj (by rw [← pow_mul, show 2 * 3 = 3 * 2 by rfl, pow_mul, hs3]; linarith)
    have hc : monicCubic a2 a1 a0 = ⟨2 * s - a2 / 3, -s - a2 / 3, -s - a2 / 3, 3⟩ := by
      unfold monicCubic
      dsimp only
      rw [← hq, ← hr, if_neg (not_lt.2 hd.le), if_neg (not_lt.2 hd.ge), ← hs]
    have hfac : ∀ x : ℝ, x ^ 3 + a2 * x ^ 2 + a1 * x + a0 =
        (x - (2 * s - a2 / 3)) * (x - (-s - a2 / 3)) * (x - (-s - a2 / 3)) := by
      intro x
      rw [hf, ← hs3, show q = -s ^ 2 by linarith]
      ring
    rw [hc]
    refine ⟨Or.inl ⟨rfl, hfac⟩, ?_, ?_⟩
    · unfold resolventRoot
      rw [if_neg (show ¬3 = 1 by decide), hfac]
      rcases max_choice (2 * s - a2 / 3) (-s - a2 / 3) with e | e <;> rw [e] <;> ring
    · intro x hx
      unfold resolventRoot at hx
      rw [if_neg (show ¬3 = 1 by decide)] at hx
      rw [hfac]
      obtain ⟨y1, y2⟩ := max_lt_iff.1 hx
      dsimp only at y1 y2
      exact mul_pos (mul_pos (by linarith) (by linarith)) (by linarith)
  · -- one root
    obtain ⟨w, hw⟩ : ∃ w, w = Real.sqrt (q * q * q + r * r) := ⟨_, rfl⟩
    have hw2 : w ^ 2 = q * q * q + r * r := by rw [hw]; exact Real.sq_sqrt hd.le
    have hw0 : 0 < w := by rw [hw]; exact Real.sqrt_pos.2 hd
    obtain ⟨s1, hs1⟩ : ∃ s, s = cubeRoot (r + w) := ⟨_, rfl⟩
    obtain ⟨s2, hs2⟩ : ∃ s, s = cubeRoot (r - w) := ⟨_, rfl⟩
    have h1 : s1 ^ 3 = r + w := by rw [hs1]; exact cubeRoot_pow _
    have h2 : s2 ^ 3 = r - w := by rw [hs2]; exact cubeRoot_pow _
    have h12 : s1 * s2 = -q := cube_inj (by rw [mul_pow, h1, h2]; linear_combination -hw2)
    have hne : s1 - s2 ≠ 0 := by
      intro e
      have : s1 = s2 := by linarith
      rw [this] at h1
      linarith
    have hc : monicCubic a2 a1 a0 = ⟨(s1 + s2) - a2 / 3, -(1 / 2) * (s1 + s2) - a2 / 3, -(1 / 2) * (s1 + s2) - a2 / 3, 1⟩ := by
      unfold monicCubic
      dsimp only
      rw [← hq, ← hr, if_pos hd, ← hw, ← hs1, ← hs2]
    have hfac : ∀ x : ℝ, x ^ 3 + a2 * x ^ 2 + a1 * x + a0 =
        (x - (s1 + s2 - a2 / 3)) * ((x + a2 / 3 + (s1 + s2) / 2) ^ 2 + 3 / 4 * (s1 - s2) ^ 2) := by
      intro x
      rw [hf, show q = -(s1 * s2) by linarith, show 2 * r = s1 ^ 3 + s2 ^ 3 by linarith]
      ring
    have hiff : ∀ x : ℝ, x ^ 3 + a2 * x ^ 2 + a1 * x + a0 = 0 ↔ x = s1 + s2 - a2 / 3 := by
      intro x
      rw [hfac]
      have : 0 < (x + a2 / 3 + (s1 + s2) / 2) ^ 2 + 3 / 4 * (s1 - s2) ^ 2 := by positivity
      rw [mul_eq_zero, sub_eq_zero]
      exact ⟨fun h => h.resolve_right this.ne', Or.inl⟩
    rw [hc]
    refine ⟨Or.inr ⟨rfl, hiff⟩, ?_, ?_⟩
    · unfold resolventRoot
      rw [if_pos rfl]
      exact (hiff _).2 rfl
    · intro x hx
      unfold resolventRoot at hx
      rw [if_pos rfl] at hx
      dsimp only at hx
      rw [hfac]
      exact mul_pos (by linarith) (by positivity)

/-- **C52**: the cubic solver.  If it reports three roots they are all the roots, with their multiplicities; if it
reports one, `x1` is the only root. -/
theorem cubic_roots (c3 c2 c1 c0 : ℝ) (h : c3 ≠ 0) :
    ∃ c, cubicRoots c3 c2 c1 c0 = .ok c ∧
      ((c.numRoots = 3 ∧
          ∀ x, c3 * x ^ 3 + c2 * x ^ 2 + c1 * x + c0 = c3 * ((x - c.x1) * (x - c.x2) * (x - c.x3))) ∨
        (c.numRoots = 1 ∧ ∀ x, c3 * x ^ 3 + c2 * x ^ 2 + c1 * x + c0 = 0 ↔ x = c.x1)) := by
  refine ⟨_, if_neg h, ?_⟩
  have e : ∀ x : ℝ, c3 * x ^ 3 + c2 * x ^ 2 + c1 * x + c0 =
      c3 * (x ^ 3 + c2 / c3 * x ^ 2 + c1 / c3 * x + c0 / c3) := by
    intro x; field_simp
  rcases (monicCubic_spec (c2 / c3) (c1 / c3) (c0 / c3)).1 with ⟨h1, h2⟩ | ⟨h1, h2⟩
  · exact Or.inl ⟨h1, fun x => (e x).trans (congrArg (c3 * ·) (h2 x))⟩
  · refine Or.inr ⟨h1, fun x => ?_⟩
    rw [e, mul_eq_zero, ← h2 x]
    exact ⟨fun h' => h'.resolve_left h, Or.inr⟩

/-- The two pairs solve two quadratic equations. -/
theorem pairs_spec (a3 R D2 E2 x : ℝ) :
    ((2 * x + a3 / 2 - R) ^ 2 = D2 ∨ (2 * x + a3 / 2 + R) ^ 2 = E2) ↔
      (((pairs a3 R D2 E2).pair1 = true ∧ (x = (pairs a3 R D2 E2).x1 ∨ x = (pairs a3 R D2 E2).x2)) ∨
        ((pairs a3 R D2 E2).pair2 = true ∧ (x = (pairs a3 R D2 E2).x3 ∨ x = (pairs a3 R D2 E2).x4))) := by
  have key : ∀ z A : ℝ, 0 ≤ A → (z ^ 2 = A ↔ (z = -Real.sqrt A ∨ z = Real.sqrt A)) := by
    intro z A hA
    have := Real.sq_sqrt hA
    constructor
    · intro h
      have : (z + Real.sqrt A) * (z - Real.sqrt A) = 0 := by linear_combination h - this
      rcases mul_eq_zero.1 this with h | h
      · left; linarith
      · right; linarith
    · rintro (h | h) <;> rw [h] <;> linear_combination this
  have neg : ∀ z A : ℝ, ¬0 ≤ A → ¬z ^ 2 = A := by
    intro z A hA h
    exact hA (h ▸ sq_nonneg z)
  unfold pairs
  dsimp only
  refine or_congr ?_ ?_
  · by_cases hD : D2 ≥ 0
    · rw [if_pos hD, key _ _ hD]
      dsimp only
      constructor
      · rintro (h | h)
        · exact ⟨rfl, Or.inl (by linarith)⟩
        · exact ⟨rfl, Or.inr (by linarith)⟩
      · rintro ⟨-, h | h⟩
        · left; linarith
        · right; linarith
    · rw [if_neg hD]
      exact ⟨fun h => absurd h (neg _ _ hD), fun h => by simp at h⟩
  · by_cases hE : E2 ≥ 0
    · rw [if_pos hE, key _ _ hE]
      dsimp only
      constructor
      · rintro (h | h)
        · exact ⟨rfl, Or.inl (by linarith)⟩
        · exact ⟨rfl, Or.inr (by linarith)⟩
      · rintro ⟨-, h | h⟩
        · left; linarith
        · right; linarith
    · rw [if_neg hE]
      exact ⟨fun h => absurd h (neg _ _ hE), fun h => by simp at h⟩

theorem monicQuartic_spec (a3 a2 a1 a0 : ℝ) :
    ∃ c, monicQuartic a3 a2 a1 a0 = .ok c ∧ ∀ x, x ^ 4 + a3 * x ^ 3 + a2 * x ^ 2 + a1 * x + a0 = 0 ↔
      ((c.pair1 = true ∧ (x = c.x1 ∨ x = c.x2)) ∨ (c.pair2 = true ∧ (x = c.x3 ∨ x = c.x4))) := by
  obtain ⟨-, hroot, hmax⟩ := monicCubic_spec (-a2 / 1) ((a1 * a3 - 4 * a0) / 1) ((4 * a0 * a2 - a1 * a1 - a0 * a3 * a3) / 1)
  obtain ⟨u, hu⟩ : ∃ u, u = resolventRoot (monicCubic (-a2 / 1) ((a1 * a3 - 4 * a0) / 1)
    ((4 * a0 * a2 - a1 * a1 - a0 * a3 * a3) / 1)) := ⟨_, rfl⟩
  rw [← hu] at hroot hmax
  have hid : ∀ x : ℝ, x ^ 3 + -a2 / 1 * x ^ 2 + (a1 * a3 - 4 * a0) / 1 * x + (4 * a0 * a2 - a1 * a1 - a0 * a3 * a3) / 1 =
      (x ^ 2 - 4 * a0) * (1 / 4 * a3 * a3 + x - a2) - (a3 * x / 2 - a1) ^ 2 := by intro x; ring
  simp only [hid] at hroot hmax
  have hR2 : 0 ≤ 1 / 4 * a3 * a3 + u - a2 := by
    by_contra h
    push Not at h
    have := hmax (a2 - 1 / 4 * a3 * a3) (by linarith)
    nlinarith [sq_nonneg (a3 * (a2 - 1 / 4 * a3 * a3) / 2 - a1)]
  unfold monicQuartic
  dsimp only
  rw [← hu]
  rcases hR2.lt_or_eq with hpos | hzero
  · obtain ⟨R, hR⟩ : ∃ R, R = Real.sqrt (1 / 4 * a3 * a3 + u - a2) := ⟨_, rfl⟩
    have hR0 : 0 < R := by rw [hR]; exact Real.sqrt_pos.2 hpos
    have hRR : R ^ 2 = 1 / 4 * a3 * a3 + u - a2 := by rw [hR]; exact Real.sq_sqrt hR2
    rw [if_pos hpos, ← hR, if_pos hR0.ne']
    refine ⟨_, rfl, fun x => ?_⟩
    rw [← pairs_spec]
    obtain ⟨g, hg⟩ : ∃ g, g = 1 / 4 * (4 * a3 * a2 - 8 * a1 - a3 * a3 * a3) / R := ⟨_, rfl⟩
    rw [← hg]
    have hRg : R * g = 1 / 4 * (4 * a3 * a2 - 8 * a1 - a3 * a3 * a3) := by rw [hg]; field_simp
    have hg2 : g ^ 2 = 4 * (u ^ 2 - 4 * a0) - 4 * a3 * (a3 * u / 2 - a1) + a3 ^ 2 * (1 / 4 * a3 * a3 + u - a2) := by
      have : R ^ 2 * g ^ 2 = R ^ 2 * (4 * (u ^ 2 - 4 * a0) - 4 * a3 * (a3 * u / 2 - a1) + a3 ^ 2 * (1 / 4 * a3 * a3 + u - a2)) := by
        rw [← mul_pow, hRg, hRR]
        linear_combination -4 * hroot
      exact mul_left_cancel₀ (by positivity) this
    have hprod : 16 * (x ^ 4 + a3 * x ^ 3 + a2 * x ^ 2 + a1 * x + a0) =
        ((2 * x + a3 / 2 - R) ^ 2 - (3 / 4 * a3 * a3 - (1 / 4 * a3 * a3 + u - a2) - 2 * a2 + g)) *
          ((2 * x + a3 / 2 + R) ^ 2 - (3 / 4 * a3 * a3 - (1 / 4 * a3 * a3 + u - a2) - 2 * a2 - g)) := by
      linear_combination -(R ^ 2 + (1 / 4 * a3 * a3 + u - a2) - 2 * (3 / 4 * a3 * a3 - (1 / 4 * a3 * a3 + u - a2) - 2 * a2) -
        2 * (2 * x + a3 / 2) ^ 2) * hRR + 4 * (2 * x + a3 / 2) * hRg + hg2
    constructor
    · intro h
      rw [h, mul_zero] at hprod
      rcases mul_eq_zero.1 hprod.symm with h | h
      · left; linarith
      · right; linarith
    · intro h
      have : 16 * (x ^ 4 + a3 * x ^ 3 + a2 * x ^ 2 + a1 * x + a0) = 0 := by
        rw [hprod]
        rcases h with h | h <;> rw [h] <;> ring
      linarith
  · have ha1 : a3 * u / 2 - a1 = 0 := by
      rw [← hzero] at hroot
      have : (a3 * u / 2 - a1) ^ 2 = 0 := by linarith
      exact pow_eq_zero_iff (two_ne_zero) |>.1 this
    have hua : a2 = 1 / 4 * a3 * a3 + u := by linarith
    have hdisc : ¬u * u - 4 * a0 < 0 := by
      intro h
      obtain ⟨t, ht0, ht1, ht2⟩ : ∃ t : ℝ, 0 < t ∧ t ≤ 1 ∧ t * (2 * |u| + 1) ≤ 4 * a0 - u * u := by
        refine ⟨min 1 ((4 * a0 - u * u) / (2 * |u| + 1)), ?_, min_le_left _ _, ?_⟩
        · exact lt_min one_pos (div_pos (by linarith) (by positivity))
        · calc _ ≤ (4 * a0 - u * u) / (2 * |u| + 1) * (2 * |u| + 1) :=
              mul_le_mul_of_nonneg_right (min_le_right _ _) (by positivity)
            _ = _ := by field_simp
      have := hmax (u + t) (by linarith)
      rw [hua] at this
      have e : ((u + t) ^ 2 - 4 * a0) * (1 / 4 * a3 * a3 + (u + t) - (1 / 4 * a3 * a3 + u)) - (a3 * (u + t) / 2 - a1) ^ 2 =
          t * ((u + t) ^ 2 - 4 * a0) - (a3 * t / 2) ^ 2 := by
        rw [show a1 = a3 * u / 2 by linarith]; ring
      rw [e] at this
      have h1 : (u + t) ^ 2 - 4 * a0 ≤ 0 := by nlinarith [le_abs_self u]
      nlinarith [sq_nonneg (a3 * t / 2)]
    rw [if_neg (show ¬1 / 4 * a3 * a3 + u - a2 > 0 by rw [← hzero]; exact lt_irrefl _), if_neg (by simp), if_neg hdisc]
    refine ⟨_, rfl, fun x => ?_⟩
    rw [← pairs_spec]
    obtain ⟨g, hg⟩ : ∃ g, g = 2 * Real.sqrt (u * u - 4 * a0) := ⟨_, rfl⟩
    rw [← hg]
    have hg2 : g ^ 2 = 4 * (u * u - 4 * a0) := by
      rw [hg, mul_pow, Real.sq_sqrt (not_lt.1 hdisc)]; ring
    have hprod : 16 * (x ^ 4 + a3 * x ^ 3 + a2 * x ^ 2 + a1 * x + a0) =
        ((2 * x + a3 / 2 - 0) ^ 2 - (3 / 4 * a3 * a3 - 2 * a2 + g)) *
          ((2 * x + a3 / 2 + 0) ^ 2 - (3 / 4 * a3 * a3 - 2 * a2 - g)) := by
      rw [hua, show a1 = a3 * u / 2 by linarith]
      linear_combination hg2
    constructor
    · intro h
      rw [h, mul_zero] at hprod
      rcases mul_eq_zero.1 hprod.symm with h | h
      · left; linarith
      · right; linarith
    · intro h
      have : 16 * (x ^ 4 + a3 * x ^ 3 + a2 * x ^ 2 + a1 * x + a0) = 0 := by
        rw [hprod]
        rcases h with h | h <;> rw [h] <;> ring
      linarith

/-- **C52**: the quartic solver.  The real roots are exactly the members of the pairs reported as real. -/
theorem quartic_roots (d4 d3 d2 d1 d0 : ℝ) (h : d4 ≠ 0) :
    ∃ c, quarticRoots d4 d3 d2 d1 d0 = .ok c ∧
      ∀ x, d4 * x ^ 4 + d3 * x ^ 3 + d2 * x ^ 2 + d1 * x + d0 = 0 ↔
        ((c.pair1 = true ∧ (x = c.x1 ∨ x = c.x2)) ∨ (c.pair2 = true ∧ (x = c.x3 ∨ x = c.x4))) := by
  obtain ⟨c, h1, h2⟩ := monicQuartic_spec (d3 / d4) (d2 / d4) (d1 / d4) (d0 / d4)
  refine ⟨c, (if_neg h).trans h1, fun x => ?_⟩
  rw [← h2 x]
  have e : d4 * x ^ 4 + d3 * x ^ 3 + d2 * x ^ 2 + d1 * x + d0 =
      d4 * (x ^ 4 + d3 / d4 * x ^ 3 + d2 / d4 * x ^ 2 + d1 / d4 * x + d0 / d4) := by field_simp
  rw [e, mul_eq_zero]
  exact ⟨fun h' => h'.resolve_left h, Or.inr⟩

/-- **C52**: the vertex.  Through three points not on a line and with different abscissas goes a parabola, and the
result is where it is stationary, with its value there. -/
theorem parabola_vertex (x1 x2 x3 y1 y2 y3 : ℝ) (h12 : x1 ≠ x2) (h13 : x1 ≠ x3) (h23 : x2 ≠ x3)
    (hline : (y2 - y1) * (x3 - x1) ≠ (y3 - y1) * (x2 - x1)) :
    ∃ x y A : ℝ, parabolaVertex x1 x2 x3 y1 y2 y3 = .ok (x, y) ∧ A ≠ 0 ∧
      y1 = y + A * (x1 - x) ^ 2 ∧ y2 = y + A * (x2 - x) ^ 2 ∧ y3 = y + A * (x3 - x) ^ 2 := by
  have e12 : x1 - x2 ≠ 0 := sub_ne_zero.2 h12
  have e13 : x1 - x3 ≠ 0 := sub_ne_zero.2 h13
  have e23 : x2 - x3 ≠ 0 := sub_ne_zero.2 h23
  have hd : (x1 - x2) * (x1 - x3) * (x2 - x3) ≠ 0 := mul_ne_zero (mul_ne_zero e12 e13) e23
  obtain ⟨A, hA⟩ : ∃ A, A = (x3 * (y2 - y1) + x2 * (y1 - y3) + x1 * (y3 - y2)) / ((x1 - x2) * (x1 - x3) * (x2 - x3)) := ⟨_, rfl⟩
  obtain ⟨B, hB⟩ : ∃ B, B = (x3 * x3 * (y1 - y2) + x2 * x2 * (y3 - y1) + x1 * x1 * (y2 - y3)) /
    ((x1 - x2) * (x1 - x3) * (x2 - x3)) := ⟨_, rfl⟩
  obtain ⟨C, hC⟩ : ∃ C, C = (x2 * x3 * (x2 - x3) * y1 + x3 * x1 * (x3 - x1) * y2 + x1 * x2 * (x1 - x2) * y3) /
    ((x1 - x2) * (x1 - x3) * (x2 - x3)) := ⟨_, rfl⟩
  have hA0 : A ≠ 0 := by
    rw [hA]
    refine div_ne_zero ?_ hd
    intro e
    exact hline (by linarith)
  refine ⟨-B / (2 * A), C - B * B / (4 * A), A, ?_, hA0, ?_, ?_, ?_⟩
  · unfold parabolaVertex
    dsimp only
    rw [← hA, ← hB, ← hC, if_neg (by rintro (e | e); exacts [hd e, hA0 e])]
  all_goals
    have key : ∀ t : ℝ, C - B * B / (4 * A) + A * (t - -B / (2 * A)) ^ 2 = A * t ^ 2 + B * t + C := by
      intro t; field_simp; ring
    rw [key, hA, hB, hC]
    field_simp
    ring

/-- `x^3 - 6 x^2 + 11 x - 6` has three roots. -/
example : ∃ c, cubicRoots 1 (-6) 11 (-6) = .ok c ∧ (c.numRoots = 3 ∨ c.numRoots = 1) := by
  obtain ⟨c, h, h1 | h1⟩ := cubic_roots 1 (-6) 11 (-6) one_ne_zero
  · exact ⟨c, h, Or.inl h1.1⟩
  · exact ⟨c, h, Or.inr h1.1⟩

example : ∃ c, quarticRoots 2 0 (-10) 0 8 = .ok c ∧ ((c.pair1 = true ∧ (2 = c.x1 ∨ 2 = c.x2)) ∨ (c.pair2 = true ∧ (2 = c.x3 ∨ 2 = c.x4))) := by
  obtain ⟨c, h, h1⟩ := quartic_roots 2 0 (-10) 0 8 two_ne_zero
  exact ⟨c, h, (h1 2).1 (by norm_num)⟩

example : ∃ x y A : ℝ, parabolaVertex 0 1 2 3 1 3 = .ok (x, y) ∧ A ≠ 0 ∧ 3 = y + A * (0 - x) ^ 2 ∧
    1 = y + A * (1 - x) ^ 2 ∧ 3 = y + A * (2 - x) ^ 2 :=
  parabola_vertex 0 1 2 3 1 3 (by norm_num) (by norm_num) (by norm_num) (by norm_num)

end Verif.Polynomial
