import Verif.Model.Double
import Mathlib.Data.Int.Log
import Mathlib.Algebra.Order.Archimedean.Real.Basic
import Mathlib.Algebra.Order.Round
import Mathlib.Algebra.Order.Floor.Ring
import Mathlib.Tactic.Linarith
import Mathlib.Tactic.Ring
import Mathlib.Tactic.NormNum
import Mathlib.Tactic.Positivity

/-!
# Facts on doubles
-/

namespace Verif.Double

theorem IsDouble.multiple {x : ℝ} (h : IsDouble x) : ∃ n : ℤ, x = n * 2 ^ (-1074 : ℤ) := by
  obtain ⟨m, e, _, he, rfl⟩ := h
  obtain ⟨k, hk⟩ := Int.eq_ofNat_of_zero_le (show 0 ≤ e + 1074 by omega)
  refine ⟨m * 2 ^ k, ?_⟩
  have : e = (k : ℤ) + (-1074) := by omega
  rw [this, zpow_add₀ two_ne_zero, zpow_natCast]
  push_cast
  ring

theorem isDouble_zero : IsDouble 0 := ⟨0, 0, by norm_num, by norm_num, by norm_num⟩

/-- A significand of exactly 2^53 is a double as well. -/
theorem isDouble_of_le {m e : ℤ} (hm : |m| ≤ 2 ^ 53) (he : -1074 ≤ e) : IsDouble (m * 2 ^ e) := by
  rcases hm.lt_or_eq with h | h
  · exact ⟨m, e, h, he, rfl⟩
  · obtain h' | h' := abs_eq (by norm_num : (0 : ℤ) ≤ 2 ^ 53) |>.1 h
    · refine ⟨2 ^ 52, e + 1, by norm_num, by omega, ?_⟩
      rw [h', zpow_add₀ two_ne_zero]
      push_cast
      ring
    · refine ⟨-2 ^ 52, e + 1, by norm_num, by omega, ?_⟩
      rw [h', zpow_add₀ two_ne_zero]
      push_cast
      ring

/-- There is a double near every number. -/
theorem exists_near (x : ℝ) : ∃ y, IsDouble y ∧ (|y - x| ≤ |x| / 2 ^ 53 ∨ |x| < 2 ^ (-1022 : ℤ) ∧ |y - x| ≤ 2 ^ (-1075 : ℤ)) := by
  have key : ∀ e : ℤ, -1074 ≤ e → |x| ≤ 2 ^ 53 * 2 ^ e → ∃ y, IsDouble y ∧ |y - x| ≤ 2 ^ e / 2 := by
    intro e he hx
    have hp : (0 : ℝ) < 2 ^ e := by positivity
    refine ⟨round (x / 2 ^ e) * 2 ^ e, isDouble_of_le ?_ he, ?_⟩
    · have h1 : |x / 2 ^ e| ≤ 2 ^ 53 := by rw [abs_div, abs_of_pos hp, div_le_iff₀ hp]; exact hx
      have h2 := abs_sub_round (x / 2 ^ e)
      have h3 : |(round (x / 2 ^ e) : ℝ)| < 2 ^ 53 + 1 := by
        have := abs_sub_abs_le_abs_sub (round (x / 2 ^ e) : ℝ) (x / 2 ^ e)
        rw [abs_sub_comm] at this
        linarith
      have h4 : |round (x / 2 ^ e)| < 2 ^ 53 + 1 := by exact_mod_cast h3
      omega
    · have h2 := abs_sub_round (x / 2 ^ e)
      have : (round (x / 2 ^ e) : ℝ) * 2 ^ e - x = -(x / 2 ^ e - round (x / 2 ^ e)) * 2 ^ e := by
        field_simp
        ring
      rw [this, abs_mul, abs_neg, abs_of_pos hp]
      nlinarith
  by_cases hx : |x| < 2 ^ (-1022 : ℤ)
  · obtain ⟨y, h1, h2⟩ := key (-1074) le_rfl (hx.le.trans (by
      rw [← zpow_natCast, ← zpow_add₀ two_ne_zero]
      exact zpow_le_zpow_right₀ one_le_two (by norm_num)))
    refine ⟨y, h1, .inr ⟨hx, h2.trans (le_of_eq ?_)⟩⟩
    rw [show (-1074 : ℤ) = -1075 + 1 by norm_num, zpow_add₀ two_ne_zero]
    ring
  · have h0 : 0 < |x| := lt_of_lt_of_le (by positivity) (not_lt.1 hx)
    have h1 : (2 : ℝ) ^ Int.log 2 |x| ≤ |x| := by exact_mod_cast Int.zpow_log_le_self (b := 2) one_lt_two h0
    have h2 : |x| < (2 : ℝ) ^ (Int.log 2 |x| + 1) := by exact_mod_cast Int.lt_zpow_succ_log_self (b := 2) one_lt_two |x|
    have h3 : (-1022 : ℤ) ≤ Int.log 2 |x| := by
      have : (2 : ℝ) ^ (-1022 : ℤ) < 2 ^ (Int.log 2 |x| + 1) := lt_of_le_of_lt (not_lt.1 hx) h2
      have := (zpow_lt_zpow_iff_right₀ (one_lt_two (α := ℝ))).1 this
      omega
    obtain ⟨y, h4, h5⟩ := key (Int.log 2 |x| - 52) (by omega) (h2.le.trans (le_of_eq (by
      rw [← zpow_natCast, ← zpow_add₀ two_ne_zero]
      congr 1
      push_cast
      ring)))
    refine ⟨y, h4, .inl (h5.trans ?_)⟩
    rw [zpow_sub₀ two_ne_zero]
    calc (2 : ℝ) ^ Int.log 2 |x| / 2 ^ (52 : ℤ) / 2 = 2 ^ Int.log 2 |x| / 2 ^ 53 := by
          rw [div_div]; norm_num
      _ ≤ _ := by gcongr

/-- Doubles are more than one part in 2^53 apart. -/
theorem gap {x y : ℝ} (hx : IsDouble x) (hy : IsDouble y) (h : x < y) : x / 2 ^ 53 < y - x := by
  have key : ∀ (f a b : ℤ), x = a * 2 ^ f → y = b * 2 ^ f → x < 2 ^ 53 * 2 ^ f → x / 2 ^ 53 < y - x := by
    intro f a b hxa hyb hlt
    have hp : (0 : ℝ) < 2 ^ f := by positivity
    have hab : a < b := by
      rw [hxa, hyb] at h
      exact_mod_cast lt_of_mul_lt_mul_right h hp.le
    have : (1 : ℝ) ≤ b - a := by
      have : a + 1 ≤ b := hab
      have : ((a + 1 : ℤ) : ℝ) ≤ b := by exact_mod_cast this
      push_cast at this
      linarith
    have h1 : 2 ^ f ≤ y - x := by
      rw [hxa, hyb, ← sub_mul]
      nlinarith
    have h2 : x / 2 ^ 53 < 2 ^ f := by
      rw [div_lt_iff₀ (by positivity)]
      linarith
    linarith
  obtain ⟨m, e, hm, -, hxe⟩ := hx
  obtain ⟨m', e', hm', -, hye⟩ := hy
  rcases le_total e e' with he | he
  · obtain ⟨k, hk⟩ := Int.eq_ofNat_of_zero_le (show 0 ≤ e' - e by omega)
    refine key e m (m' * 2 ^ k) hxe ?_ ?_
    · rw [hye, show e' = (k : ℤ) + e by omega, zpow_add₀ (by norm_num)]
      push_cast
      rw [zpow_natCast]
      ring
    · rw [hxe]
      have : (m : ℝ) < 2 ^ 53 := by
        have := (abs_lt.1 hm).2
        exact_mod_cast this
      exact mul_lt_mul_of_pos_right this (by positivity)
  · obtain ⟨k, hk⟩ := Int.eq_ofNat_of_zero_le (show 0 ≤ e - e' by omega)
    refine key e' (m * 2 ^ k) m' ?_ hye ?_
    · rw [hxe, show e = (k : ℤ) + e' by omega, zpow_add₀ (by norm_num)]
      push_cast
      rw [zpow_natCast]
      ring
    · refine h.trans ?_
      rw [hye]
      have : (m' : ℝ) < 2 ^ 53 := by
        have := (abs_lt.1 hm').2
        exact_mod_cast this
      exact mul_lt_mul_of_pos_right this (by positivity)

namespace Rounding

/-- The exponent of the last bit. -/
noncomputable def last (x : ℝ) : ℤ := max (Int.log 2 |x| - 52) (-1074)

/-- There is a rule: halves are rounded up. -/
noncomputable def up : Rounding where
  rnd x := round (x / 2 ^ last x) * 2 ^ last x
  isDouble x := by
    have hp : (0 : ℝ) < 2 ^ last x := by positivity
    refine isDouble_of_le ?_ (le_max_right _ _)
    have h1 : |x / 2 ^ last x| ≤ 2 ^ 53 := by
      rw [abs_div, abs_of_pos hp, div_le_iff₀ hp, ← zpow_natCast, ← zpow_add₀ two_ne_zero]
      have h2 : |x| < (2 : ℝ) ^ (Int.log 2 |x| + 1) := by exact_mod_cast Int.lt_zpow_succ_log_self (b := 2) one_lt_two |x|
      refine h2.le.trans (zpow_le_zpow_right₀ one_le_two ?_)
      have := le_max_left (Int.log 2 |x| - 52) (-1074)
      unfold last
      push_cast
      omega
    have h2 := abs_sub_round (x / 2 ^ last x)
    have h3 : |(round (x / 2 ^ last x) : ℝ)| < 2 ^ 53 + 1 := by
      have := abs_sub_abs_le_abs_sub (round (x / 2 ^ last x) : ℝ) (x / 2 ^ last x)
      rw [abs_sub_comm] at this
      linarith
    have h4 : |round (x / 2 ^ last x)| < 2 ^ 53 + 1 := by exact_mod_cast h3
    omega
  nearest x y hy := by
    have hp : (0 : ℝ) < 2 ^ last x := by positivity
    have key : ∀ n : ℤ, |round (x / 2 ^ last x) * 2 ^ last x - x| ≤ |(n : ℝ) * 2 ^ last x - x| := by
      intro n
      have h1 := round_le (x / 2 ^ last x) n
      have e : ∀ z : ℝ, |z * 2 ^ last x - x| = |x / 2 ^ last x - z| * 2 ^ last x := by
        intro z
        rw [← abs_of_pos hp, ← abs_mul, abs_of_pos hp, abs_sub_comm]
        congr 1
        field_simp
      rw [e, e]
      exact mul_le_mul_of_nonneg_right h1 hp.le
    have mult : ∀ (m f : ℤ), last x ≤ f → ∃ n : ℤ, (m : ℝ) * 2 ^ f = n * 2 ^ last x := by
      intro m f hf
      obtain ⟨k, hk⟩ := Int.eq_ofNat_of_zero_le (sub_nonneg.2 hf)
      refine ⟨m * 2 ^ k, ?_⟩
      rw [show f = k + last x by omega, zpow_add₀ two_ne_zero, zpow_natCast]
      push_cast
      ring
    obtain ⟨m, f, hm, hf, rfl⟩ := hy
    by_cases hl : last x ≤ f
    · obtain ⟨n, hn⟩ := mult m f hl
      rw [hn]
      exact key n
    · have hf' : f < Int.log 2 |x| - 52 := by
        unfold last at hl
        rcases max_choice (Int.log 2 |x| - 52) (-1074) with h | h <;> rw [h] at hl <;> omega
      have hle : last x ≤ Int.log 2 |x| := by
        unfold last
        exact max_le (by omega) (by omega)
      rcases eq_or_ne x 0 with rfl | hx0
      · simp only [zero_div, round_zero, Int.cast_zero, zero_mul, sub_self, abs_zero]
        positivity
      have h1 : (2 : ℝ) ^ Int.log 2 |x| ≤ |x| := by exact_mod_cast Int.zpow_log_le_self (b := 2) one_lt_two (abs_pos.2 hx0)
      have h2 : |(m : ℝ) * 2 ^ f| ≤ 2 ^ Int.log 2 |x| := by
        have hm' : |(m : ℝ)| ≤ 2 ^ 53 := by exact_mod_cast hm.le
        have hpf : (0 : ℝ) < 2 ^ f := by positivity
        rw [abs_mul, abs_of_pos hpf]
        calc |(m : ℝ)| * 2 ^ f ≤ 2 ^ 53 * 2 ^ f := by gcongr
          _ = 2 ^ (53 + f) := by rw [zpow_add₀ two_ne_zero]; norm_num
          _ ≤ _ := zpow_le_zpow_right₀ one_le_two (by omega)
      have h3 : |x| - 2 ^ Int.log 2 |x| ≤ |(m : ℝ) * 2 ^ f - x| := by
        have := abs_sub_abs_le_abs_sub x ((m : ℝ) * 2 ^ f)
        rw [abs_sub_comm] at this
        linarith
      refine le_trans ?_ h3
      rcases le_total 0 x with h0 | h0
      · obtain ⟨n, hn⟩ := mult 1 _ hle
        refine (key n).trans (le_of_eq ?_)
        rw [← hn, Int.cast_one, one_mul]
        rw [abs_of_nonneg h0] at h1 ⊢
        rw [abs_sub_comm, abs_of_nonneg (by linarith)]
      · obtain ⟨n, hn⟩ := mult (-1) _ hle
        refine (key n).trans (le_of_eq ?_)
        rw [← hn]
        rw [abs_of_nonpos h0] at h1 ⊢
        rw [abs_of_nonneg (by push_cast; linarith)]
        push_cast
        ring

variable (R : Rounding)

theorem rnd_double {x : ℝ} (h : IsDouble x) : R.rnd x = x := by
  have := R.nearest x x h
  rw [sub_self, abs_zero] at this
  exact sub_eq_zero.1 (abs_nonpos_iff.1 this)

theorem mono : Monotone R.rnd := by
  intro x y hxy
  by_contra h
  push_neg at h
  rcases hxy.eq_or_lt with rfl | hlt
  · exact lt_irrefl _ h
  have h1 := R.nearest x _ (R.isDouble y)
  have h2 := R.nearest y _ (R.isDouble x)
  have h3 : (R.rnd x - x) ^ 2 ≤ (R.rnd y - x) ^ 2 := sq_le_sq.2 h1
  have h4 : (R.rnd y - y) ^ 2 ≤ (R.rnd x - y) ^ 2 := sq_le_sq.2 h2
  nlinarith

theorem error (x : ℝ) : |R.rnd x - x| ≤ |x| / 2 ^ 53 ∨ |x| < 2 ^ (-1022 : ℤ) ∧ |R.rnd x - x| ≤ 2 ^ (-1075 : ℤ) := by
  obtain ⟨y, hy, h⟩ := exists_near x
  have := R.nearest x y hy
  exact h.imp (fun h => this.trans h) fun h => ⟨h.1, this.trans h.2⟩

/-- A sum or difference of doubles that is small is a double. -/
theorem error_multiple {x : ℝ} (n : ℤ) (hx : x = n * 2 ^ (-1074 : ℤ)) : |R.rnd x - x| ≤ |x| / 2 ^ 53 := by
  rcases R.error x with h | ⟨h, _⟩
  · exact h
  · have : IsDouble x := by
      rw [hx]
      refine isDouble_of_le ?_ le_rfl
      rw [hx, abs_mul, abs_of_pos (by positivity : (0 : ℝ) < 2 ^ (-1074 : ℤ))] at h
      have h' : |(n : ℝ)| < 2 ^ 52 := by
        have e : (2 : ℝ) ^ (-1022 : ℤ) = 2 ^ 52 * 2 ^ (-1074 : ℤ) := by
          rw [← zpow_natCast, ← zpow_add₀ two_ne_zero]; norm_num
        rw [e] at h
        exact lt_of_mul_lt_mul_right h (by positivity)
      have h'' : |n| < 2 ^ 52 := by exact_mod_cast h'
      omega
    rw [R.rnd_double this, sub_self, abs_zero]
    positivity

theorem error_add {a b : ℝ} (ha : IsDouble a) (hb : IsDouble b) : |R.rnd (a + b) - (a + b)| ≤ |a + b| / 2 ^ 53 := by
  obtain ⟨m, hm⟩ := ha.multiple
  obtain ⟨n, hn⟩ := hb.multiple
  exact R.error_multiple (m + n) (by rw [hm, hn]; push_cast; ring)

theorem error_sub {a b : ℝ} (ha : IsDouble a) (hb : IsDouble b) : |R.rnd (a - b) - (a - b)| ≤ |a - b| / 2 ^ 53 := by
  obtain ⟨m, hm⟩ := ha.multiple
  obtain ⟨n, hn⟩ := hb.multiple
  exact R.error_multiple (m - n) (by rw [hm, hn]; push_cast; ring)

end Rounding

end Verif.Double
