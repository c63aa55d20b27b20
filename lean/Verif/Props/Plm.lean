import Verif.Model.Plm
import Mathlib.Tactic.Linarith
import Mathlib.Tactic.Ring
import Mathlib.Tactic.NormNum
import Mathlib.Algebra.Order.Ring.Abs
import Mathlib.Algebra.Order.Ring.Rat
import Mathlib.Algebra.Field.Rat

/-!
# Limited gradients are bounded and monotone (C51)
-/

namespace Verif.Plm

variable {τ : Type} [Field τ] [LinearOrder τ] [IsStrictOrderedRing τ]

theorem sgn_neg {z : Bool} {x : τ} (h : x < 0) : sgn z x = -1 := by simp [sgn, h]

theorem sgn_pos {z : Bool} {x : τ} (h : 0 < x) : sgn z x = 1 := by simp [sgn, h, not_lt.2 h.le]

theorem sgn_cases (z : Bool) (x : τ) : sgn z x = 1 ∨ sgn z x = -1 := by
  unfold sgn
  split
  · right; rfl
  · split
    · left; rfl
    · cases z
      · left; rfl
      · right; rfl

theorem minabs_nonneg (a b c : τ) : 0 ≤ minabs a b c :=
  le_min (le_min (abs_nonneg _) (abs_nonneg _)) (abs_nonneg _)

/-- What the formula comes to: zero unless the one-sided differences have one sign, else the smallest. -/
theorem plmGradient_eq (za zb zc : Bool) (theta yl y0 yr : τ) (ht : 0 ≤ theta) :
    plmGradient za zb zc theta yl y0 yr =
      if yl < y0 ∧ y0 < yr then minabs ((y0 - yl) * theta) ((yr - yl) * (1 / 2)) ((yr - y0) * theta)
      else if y0 < yl ∧ yr < y0 then
        -minabs ((y0 - yl) * theta) ((yr - yl) * (1 / 2)) ((yr - y0) * theta)
      else 0 := by
  rcases ht.eq_or_lt with rfl | ht
  · have h0 : ∀ b c : τ, minabs (0 : τ) b c = 0 := by
      intro b c
      refine le_antisymm ?_ (minabs_nonneg _ _ _)
      exact (min_le_left _ _).trans ((min_le_left _ _).trans (by rw [abs_zero]))
    simp [plmGradient, h0]
  · unfold plmGradient
    simp only
    rcases lt_trichotomy (y0 - yl) 0 with ha | ha | ha
    · have ha' : (y0 - yl) * theta < 0 := mul_neg_of_neg_of_pos ha ht
      rcases lt_trichotomy (yr - y0) 0 with hc | hc | hc
      · have hc' : (yr - y0) * theta < 0 := mul_neg_of_neg_of_pos hc ht
        have hb' : (yr - yl) * (1 / 2) < 0 := by linarith
        rw [sgn_neg ha', sgn_neg hb', sgn_neg hc', if_neg (by rintro ⟨h1, h2⟩; linarith),
          if_pos ⟨by linarith, by linarith⟩]
        have : |(-1 : τ) + -1| = 2 := by rw [abs_of_neg (by linarith)]; ring
        rw [this]; ring
      · rw [hc, zero_mul, if_neg (by rintro ⟨h1, h2⟩; linarith), if_neg (by rintro ⟨h1, h2⟩; linarith)]
        have : minabs ((y0 - yl) * theta) ((yr - yl) * (1 / 2)) 0 = 0 :=
          le_antisymm ((min_le_right _ _).trans (by rw [abs_zero])) (minabs_nonneg _ _ _)
        rw [this, mul_zero]
      · have hc' : 0 < (yr - y0) * theta := mul_pos hc ht
        rw [sgn_neg ha', sgn_pos hc', if_neg (by rintro ⟨h1, h2⟩; linarith),
          if_neg (by rintro ⟨h1, h2⟩; linarith)]
        ring
    · rw [ha, zero_mul, if_neg (by rintro ⟨h1, h2⟩; linarith), if_neg (by rintro ⟨h1, h2⟩; linarith)]
      have : minabs 0 ((yr - yl) * (1 / 2)) ((yr - y0) * theta) = 0 :=
        le_antisymm ((min_le_left _ _).trans ((min_le_left _ _).trans (by rw [abs_zero])))
          (minabs_nonneg _ _ _)
      rw [this, mul_zero]
    · have ha' : 0 < (y0 - yl) * theta := mul_pos ha ht
      rcases lt_trichotomy (yr - y0) 0 with hc | hc | hc
      · have hc' : (yr - y0) * theta < 0 := mul_neg_of_neg_of_pos hc ht
        rw [sgn_pos ha', sgn_neg hc', if_neg (by rintro ⟨h1, h2⟩; linarith),
          if_neg (by rintro ⟨h1, h2⟩; linarith)]
        ring
      · rw [hc, zero_mul, if_neg (by rintro ⟨h1, h2⟩; linarith), if_neg (by rintro ⟨h1, h2⟩; linarith)]
        have : minabs ((y0 - yl) * theta) ((yr - yl) * (1 / 2)) 0 = 0 :=
          le_antisymm ((min_le_right _ _).trans (by rw [abs_zero])) (minabs_nonneg _ _ _)
        rw [this, mul_zero]
      · have hc' : 0 < (yr - y0) * theta := mul_pos hc ht
        have hb' : 0 < (yr - yl) * (1 / 2) := by linarith
        rw [sgn_pos ha', sgn_pos hb', sgn_pos hc', if_pos ⟨by linarith, by linarith⟩]
        have : |(1 : τ) + 1| = 2 := by rw [abs_of_pos (by linarith)]; ring
        rw [this]; ring

/-- **C51**, bounds: the limited slope is at most `theta` times each one-sided difference, and at most the
central difference, for every `theta`. -/
theorem plm_bounded (za zb zc : Bool) (theta yl y0 yr : τ) :
    |plmGradient za zb zc theta yl y0 yr| ≤ |theta| * |y0 - yl| ∧
      |plmGradient za zb zc theta yl y0 yr| ≤ |yr - yl| / 2 ∧
      |plmGradient za zb zc theta yl y0 yr| ≤ |theta| * |yr - y0| := by
  have key : |plmGradient za zb zc theta yl y0 yr| ≤
      minabs ((y0 - yl) * theta) ((yr - yl) * (1 / 2)) ((yr - y0) * theta) := by
    unfold plmGradient
    simp only
    have hm := minabs_nonneg ((y0 - yl) * theta) ((yr - yl) * (1 / 2)) ((yr - y0) * theta)
    generalize minabs ((y0 - yl) * theta) ((yr - yl) * (1 / 2)) ((yr - y0) * theta) = m at *
    have h2 : |(1 : τ) + 1| = 2 := by rw [abs_of_pos (by linarith)]; ring
    have h3 : |(-1 : τ) + -1| = 2 := by rw [abs_of_neg (by linarith)]; ring
    rcases sgn_cases za ((y0 - yl) * theta) with e1 | e1 <;>
    rcases sgn_cases zb ((yr - yl) * (1 / 2)) with e2 | e2 <;>
    rcases sgn_cases zc ((yr - y0) * theta) with e3 | e3 <;>
    rw [e1, e2, e3] <;> try simp only [h2, h3]
    · rw [show (1 / 4 * 2 * (1 + 1) * m : τ) = m by ring, abs_of_nonneg hm]
    · rw [show (1 / 4 * 2 * (1 + -1) * m : τ) = 0 by ring, abs_zero]; exact hm
    · rw [show (1 / 4 * |(1 : τ) + -1| * (1 + 1) * m : τ) = 0 by
        rw [show (1 : τ) + -1 = 0 by ring, abs_zero]; ring, abs_zero]; exact hm
    · rw [show (1 / 4 * |(1 : τ) + -1| * (1 + -1) * m : τ) = 0 by
        rw [show (1 : τ) + -1 = 0 by ring, abs_zero]; ring, abs_zero]; exact hm
    · rw [show (1 / 4 * |(-1 : τ) + 1| * (-1 + 1) * m : τ) = 0 by
        rw [show (-1 : τ) + 1 = 0 by ring, abs_zero]; ring, abs_zero]; exact hm
    · rw [show (1 / 4 * |(-1 : τ) + 1| * (-1 + -1) * m : τ) = 0 by
        rw [show (-1 : τ) + 1 = 0 by ring, abs_zero]; ring, abs_zero]; exact hm
    · rw [show (1 / 4 * 2 * (-1 + 1) * m : τ) = 0 by ring, abs_zero]; exact hm
    · rw [show (1 / 4 * 2 * (-1 + -1) * m : τ) = -m by ring, abs_neg, abs_of_nonneg hm]
  refine ⟨key.trans ?_, key.trans ?_, key.trans ?_⟩
  · refine (min_le_left _ _).trans ((min_le_left _ _).trans ?_)
    rw [abs_mul, mul_comm]
  · refine (min_le_left _ _).trans ((min_le_right _ _).trans ?_)
    rw [abs_mul, abs_of_pos (by linarith : (0 : τ) < 1 / 2)]
    apply le_of_eq; ring
  · refine (min_le_right _ _).trans ?_
    rw [abs_mul, mul_comm]

example : |plmGradient false true false (3 / 2 : ℚ) 0 1 5| ≤ |(3 / 2 : ℚ)| * |1 - 0| := (plm_bounded _ _ _ _ _ _ _).1

/-- **C51**, extrema: where the one-sided differences do not have one sign, the slope is zero, for every
`theta`. -/
theorem plm_extremum (za zb zc : Bool) (theta yl y0 yr : τ) (h : (y0 - yl) * (yr - y0) ≤ 0) :
    plmGradient za zb zc theta yl y0 yr = 0 := by
  have hb := plm_bounded za zb zc theta yl y0 yr
  rcases mul_nonpos_iff.1 h with ⟨h1, h2⟩ | ⟨h1, h2⟩
  · rcases le_or_gt 0 theta with ht | ht
    · rw [plmGradient_eq _ _ _ _ _ _ _ ht, if_neg (by rintro ⟨g1, g2⟩; linarith),
        if_neg (by rintro ⟨g1, g2⟩; linarith)]
    · rcases h1.eq_or_lt with h1 | h1
      · rw [← h1, abs_zero, mul_zero] at hb
        exact abs_nonpos_iff.1 hb.1
      · rcases h2.eq_or_lt with h2 | h2
        · rw [h2, abs_zero, mul_zero] at hb
          exact abs_nonpos_iff.1 hb.2.2
        · simp only [plmGradient]
          rw [sgn_neg (mul_neg_of_pos_of_neg h1 ht), sgn_pos (x := (yr - y0) * theta)
            (mul_pos_of_neg_of_neg h2 ht)]
          ring
  · rcases le_or_gt 0 theta with ht | ht
    · rw [plmGradient_eq _ _ _ _ _ _ _ ht, if_neg (by rintro ⟨g1, g2⟩; linarith),
        if_neg (by rintro ⟨g1, g2⟩; linarith)]
    · rcases h1.eq_or_lt with h1 | h1
      · rw [h1, abs_zero, mul_zero] at hb
        exact abs_nonpos_iff.1 hb.1
      · rcases h2.eq_or_lt with h2 | h2
        · rw [← h2, abs_zero, mul_zero] at hb
          exact abs_nonpos_iff.1 hb.2.2
        · simp only [plmGradient]
          rw [sgn_pos (mul_pos_of_neg_of_neg h1 ht), sgn_neg (x := (yr - y0) * theta)
            (mul_neg_of_pos_of_neg h2 ht)]
          ring

example : plmGradient false true false (3 / 2 : ℚ) 0 4 1 = 0 := plm_extremum _ _ _ _ _ _ _ (by norm_num)

/-- **C51**, sign: otherwise the slope has the sign of the differences. -/
theorem plm_sign (za zb zc : Bool) (theta yl y0 yr : τ) (ht : 0 < theta) :
    (yl < y0 → y0 < yr → 0 < plmGradient za zb zc theta yl y0 yr) ∧
      (y0 < yl → yr < y0 → plmGradient za zb zc theta yl y0 yr < 0) := by
  constructor
  · intro h1 h2
    rw [plmGradient_eq _ _ _ _ _ _ _ ht.le, if_pos ⟨h1, h2⟩]
    refine lt_min (lt_min (abs_pos.2 ?_) (abs_pos.2 ?_)) (abs_pos.2 ?_)
    · exact (mul_pos (by linarith) ht).ne'
    · exact (by linarith : 0 < (yr - yl) * (1 / 2)).ne'
    · exact (mul_pos (by linarith) ht).ne'
  · intro h1 h2
    rw [plmGradient_eq _ _ _ _ _ _ _ ht.le, if_neg (by rintro ⟨h, _⟩; linarith), if_pos ⟨h1, h2⟩,
      neg_lt_zero]
    refine lt_min (lt_min (abs_pos.2 ?_) (abs_pos.2 ?_)) (abs_pos.2 ?_)
    · exact (mul_neg_of_neg_of_pos (by linarith) ht).ne
    · exact (by linarith : (yr - yl) * (1 / 2) < 0).ne
    · exact (mul_neg_of_neg_of_pos (by linarith) ht).ne

example : 0 < plmGradient false true false (3 / 2 : ℚ) 0 1 5 :=
  (plm_sign _ _ _ _ _ _ _ (by norm_num)).1 (by norm_num) (by norm_num)

theorem minabs_swap (a b c : τ) : minabs c b a = minabs a b c := by
  unfold minabs
  rw [min_comm, min_comm |c|, min_assoc]

theorem minabs_neg (a b c : τ) : minabs (-a) (-b) (-c) = minabs a b c := by simp [minabs]

/-- **C51**, reflection: reading the values from right to left gives the opposite slope. -/
theorem plm_reflect (za zb zc za' zb' zc' : Bool) (theta yl y0 yr : τ) (ht : 0 ≤ theta) :
    plmGradient za zb zc theta yr y0 yl = -plmGradient za' zb' zc' theta yl y0 yr := by
  have e : minabs ((y0 - yr) * theta) ((yl - yr) * (1 / 2)) ((yl - y0) * theta) =
      minabs ((y0 - yl) * theta) ((yr - yl) * (1 / 2)) ((yr - y0) * theta) := by
    rw [← minabs_neg, minabs_swap]
    congr 1 <;> ring
  rw [plmGradient_eq _ _ _ _ _ _ _ ht, plmGradient_eq _ _ _ _ _ _ _ ht, e]
  by_cases h1 : yl < y0 ∧ y0 < yr
  · rw [if_pos h1, if_neg (by rintro ⟨g1, g2⟩; linarith [h1.1]), if_pos ⟨h1.2, h1.1⟩]
  · by_cases h2 : y0 < yl ∧ yr < y0
    · rw [if_neg h1, if_pos h2, if_pos ⟨h2.2, h2.1⟩, neg_neg]
    · rw [if_neg h1, if_neg h2, if_neg (fun h => h2 ⟨h.2, h.1⟩), if_neg (fun h => h1 ⟨h.2, h.1⟩), neg_zero]

example : plmGradient false true false (3 / 2 : ℚ) 5 1 0 = -plmGradient true false true (3 / 2 : ℚ) 0 1 5 :=
  plm_reflect _ _ _ _ _ _ _ _ _ _ (by norm_num)

/-- **C51**, scaling: multiplying the values by a number multiplies the slope; adding one changes nothing. -/
theorem plm_scale (za zb zc za' zb' zc' : Bool) (theta yl y0 yr k s : τ) (ht : 0 ≤ theta) :
    plmGradient za zb zc theta (k * yl + s) (k * y0 + s) (k * yr + s) =
      k * plmGradient za' zb' zc' theta yl y0 yr := by
  have e : minabs ((k * y0 + s - (k * yl + s)) * theta) ((k * yr + s - (k * yl + s)) * (1 / 2))
      ((k * yr + s - (k * y0 + s)) * theta) =
      |k| * minabs ((y0 - yl) * theta) ((yr - yl) * (1 / 2)) ((yr - y0) * theta) := by
    unfold minabs
    rw [mul_min_of_nonneg _ _ (abs_nonneg k), mul_min_of_nonneg _ _ (abs_nonneg k), ← abs_mul, ← abs_mul,
      ← abs_mul]
    congr 1
    · congr 1
      · congr 1; ring
      · congr 1; ring
    · congr 1; ring
  rw [plmGradient_eq _ _ _ _ _ _ _ ht, plmGradient_eq _ _ _ _ _ _ _ ht, e]
  rcases lt_trichotomy k 0 with hk | rfl | hk
  · have i1 : ∀ x y : τ, k * x + s < k * y + s ↔ y < x := by
      intro x y
      rw [add_lt_add_iff_right, mul_lt_mul_left_of_neg hk]
    simp only [i1, abs_of_neg hk]
    by_cases h1 : yl < y0 ∧ y0 < yr
    · rw [if_pos h1, if_neg (by rintro ⟨g1, g2⟩; linarith [h1.1]), if_pos h1]; ring
    · by_cases h2 : y0 < yl ∧ yr < y0
      · rw [if_pos h2, if_neg h1, if_pos h2]; ring
      · rw [if_neg h2, if_neg h1, if_neg h1, if_neg h2, mul_zero]
  · simp
  · have i1 : ∀ x y : τ, k * x + s < k * y + s ↔ x < y := by
      intro x y
      rw [add_lt_add_iff_right, mul_lt_mul_iff_right₀ hk]
    simp only [i1, abs_of_pos hk]
    by_cases h1 : yl < y0 ∧ y0 < yr
    · rw [if_pos h1, if_pos h1]
    · by_cases h2 : y0 < yl ∧ yr < y0
      · rw [if_neg h1, if_neg h1, if_pos h2, if_pos h2]; ring
      · rw [if_neg h1, if_neg h1, if_neg h2, if_neg h2, mul_zero]

example : plmGradient false true false (3 / 2 : ℚ) (-2 * 0 + 7) (-2 * 1 + 7) (-2 * 5 + 7) =
    -2 * plmGradient true false true (3 / 2 : ℚ) 0 1 5 :=
  plm_scale _ _ _ _ _ _ _ _ _ _ _ _ (by norm_num)

/-- **C51**, linear data: with `theta` at least one the slope of equidistant values is their difference. -/
theorem plm_linear (za zb zc : Bool) (theta y d : τ) (ht : 1 ≤ theta) :
    plmGradient za zb zc theta (y - d) y (y + d) = d := by
  have ht0 : 0 ≤ theta := by linarith
  have e : minabs ((y - (y - d)) * theta) ((y + d - (y - d)) * (1 / 2)) ((y + d - y) * theta) = |d| := by
    have e1 : (y - (y - d)) * theta = d * theta := by ring
    have e2 : (y + d - (y - d)) * (1 / 2) = d := by ring
    have e3 : (y + d - y) * theta = d * theta := by ring
    rw [e1, e2, e3, minabs, abs_mul, abs_of_nonneg ht0]
    have : |d| ≤ |d| * theta := le_mul_of_one_le_right (abs_nonneg d) ht
    rw [min_eq_right this, min_eq_left this]
  rw [plmGradient_eq _ _ _ _ _ _ _ ht0, e]
  rcases lt_trichotomy d 0 with h | rfl | h
  · rw [if_neg (by rintro ⟨g1, g2⟩; linarith), if_pos ⟨by linarith, by linarith⟩, abs_of_neg h, neg_neg]
  · simp
  · rw [if_pos ⟨by linarith, by linarith⟩, abs_of_pos h]

example : plmGradient false true false (3 / 2 : ℚ) (7 - 2) 7 (7 + 2) = 2 := plm_linear _ _ _ _ _ _ (by norm_num)

/-- **C51**, face values: for `theta` from zero to two the values extrapolated to the faces of a cell lie
between those of the cell and its neighbour. -/
theorem plm_faces (za zb zc : Bool) (theta yl y0 yr : τ) (ht : 0 ≤ theta) (ht2 : theta ≤ 2) :
    min y0 yr ≤ y0 + plmGradient za zb zc theta yl y0 yr / 2 ∧
      y0 + plmGradient za zb zc theta yl y0 yr / 2 ≤ max y0 yr ∧
      min yl y0 ≤ y0 - plmGradient za zb zc theta yl y0 yr / 2 ∧
      y0 - plmGradient za zb zc theta yl y0 yr / 2 ≤ max yl y0 := by
  have hb := plm_bounded za zb zc theta yl y0 yr
  rw [abs_of_nonneg ht] at hb
  obtain ⟨b1, -, b3⟩ := hb
  have c1 : |plmGradient za zb zc theta yl y0 yr| ≤ 2 * |y0 - yl| :=
    b1.trans (mul_le_mul_of_nonneg_right ht2 (abs_nonneg _))
  have c3 : |plmGradient za zb zc theta yl y0 yr| ≤ 2 * |yr - y0| :=
    b3.trans (mul_le_mul_of_nonneg_right ht2 (abs_nonneg _))
  rcases le_or_gt ((y0 - yl) * (yr - y0)) 0 with h | h
  · rw [plm_extremum za zb zc theta yl y0 yr h]
    simp
  · rcases pos_and_pos_or_neg_and_neg_of_mul_pos h with ⟨h1, h2⟩ | ⟨h1, h2⟩
    · rw [abs_of_pos h1] at c1
      rw [abs_of_pos h2] at c3
      have hs : 0 ≤ plmGradient za zb zc theta yl y0 yr := by
        rcases ht.eq_or_lt with ht | ht
        · rw [← ht] at b1
          rw [zero_mul] at b1
          rw [← ht, abs_nonpos_iff.1 b1]
        · exact ((plm_sign za zb zc theta yl y0 yr ht).1 (by linarith) (by linarith)).le
      rw [abs_of_nonneg hs] at c1 c3
      refine ⟨(min_le_left _ _).trans (by linarith), le_trans ?_ (le_max_right _ _),
        (min_le_left _ _).trans ?_, le_trans ?_ (le_max_right _ _)⟩ <;> linarith
    · rw [abs_of_neg h1] at c1
      rw [abs_of_neg h2] at c3
      have hs : plmGradient za zb zc theta yl y0 yr ≤ 0 := by
        rcases ht.eq_or_lt with ht | ht
        · rw [← ht] at b1
          rw [zero_mul] at b1
          rw [← ht, abs_nonpos_iff.1 b1]
        · exact ((plm_sign za zb zc theta yl y0 yr ht).2 (by linarith) (by linarith)).le
      rw [abs_of_nonpos hs] at c1 c3
      refine ⟨(min_le_right _ _).trans ?_, le_trans ?_ (le_max_left _ _),
        (min_le_right _ _).trans ?_, le_trans ?_ (le_max_left _ _)⟩ <;> linarith

/-- A triple of rising values, with a slope limited by the left difference. -/
example : plmGradient false false false (3 / 2 : ℚ) 0 1 5 = 3 / 2 := by
  rw [plmGradient_eq _ _ _ _ _ _ _ (by norm_num)]
  norm_num [minabs]

/-- The hypotheses of the theorems can be met. -/
example : ((1 : ℚ) - 0) * (0 - 1) ≤ 0 ∧ (0 : ℚ) < 3 / 2 ∧ (1 : ℚ) ≤ 3 / 2 ∧ (3 / 2 : ℚ) ≤ 2 := by norm_num

end Verif.Plm
