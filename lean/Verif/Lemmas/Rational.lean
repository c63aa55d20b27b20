import Verif.Spec.Rational
import Mathlib.Tactic.Ring
import Mathlib.Tactic.FieldSimp
import Mathlib.Tactic.Linarith
import Mathlib.Tactic.NormNum
import Mathlib.Algebra.Order.Field.Rat
import Mathlib.Data.Rat.Cast.Order
import Mathlib.Data.Nat.GCD.Basic

namespace Verif.Rational
open Verif

theorem chk_ok {x y : Int} : chk x = .ok y ↔ (intMin ≤ x ∧ x ≤ intMax) ∧ y = x := by
  unfold chk; split <;> simp_all [eq_comm]

theorem chk_of {x : Int} (h : intMin ≤ x ∧ x ≤ intMax) : chk x = .ok x := by
  unfold chk; simp [h]

theorem chk_cases (x : Int) : chk x = .ok x ∧ (intMin ≤ x ∧ x ≤ intMax) ∨ chk x = .ub := by
  unfold chk; split <;> simp_all

/-- The first loop terminates for operands not both zero. -/
theorem gcdStrip_spec (a b d : Nat) (h : 0 < a ∨ 0 < b) :
    ∃ a' b' k, gcdStrip a b d = .ok (a', b', d + k) ∧ a = a' * 2 ^ k ∧ b = b' * 2 ^ k ∧
      (a' % 2 = 1 ∨ b' % 2 = 1) := by
  induction a, b, d using gcdStrip.induct with
  | case1 a b d h0 => omega
  | case2 a b d h0 he ih =>
    obtain ⟨a', b', k, e, ea, eb, ho⟩ := ih (by omega)
    refine ⟨a', b', k + 1, ?_, ?_, ?_, ho⟩
    · rw [gcdStrip, if_neg h0, if_pos he, e]; congr 3; omega
    · rw [Nat.pow_succ, ← Nat.mul_assoc, ← ea]; omega
    · rw [Nat.pow_succ, ← Nat.mul_assoc, ← eb]; omega
  | case3 a b d h0 he =>
    refine ⟨a, b, 0, ?_, by simp, by simp, by omega⟩
    rw [gcdStrip, if_neg h0, if_neg he]; rfl

theorem odd_coprime_two {b : Nat} (h : b % 2 = 1) : Nat.Coprime 2 b := by
  unfold Nat.Coprime; rw [Nat.gcd_rec, h]; simp

theorem gcd_half_left {a b : Nat} (ha : a % 2 = 0) (hb : b % 2 = 1) :
    Nat.gcd (a / 2) b = Nat.gcd a b := by
  have : a = 2 * (a / 2) := by omega
  conv_rhs => rw [this]
  exact (Nat.Coprime.gcd_mul_left_cancel (a / 2) (odd_coprime_two hb)).symm

theorem gcd_half_right {a b : Nat} (ha : a % 2 = 1) (hb : b % 2 = 0) :
    Nat.gcd a (b / 2) = Nat.gcd a b := by
  rw [Nat.gcd_comm, gcd_half_left hb ha, Nat.gcd_comm]

theorem gcdLoop_spec (a b : Nat) (ha : 0 < a) (hb : 0 < b) (ho : a % 2 = 1 ∨ b % 2 = 1) :
    gcdLoop a b = .ok (Nat.gcd a b) := by
  induction a, b using gcdLoop.induct with
  | case1 b => rw [gcdLoop]; simp
  | case2 a b h h0 => omega
  | case3 a b h h0 he ih =>
    rw [gcdLoop, if_neg h, if_neg h0, if_pos he, ih (by omega) hb (by omega),
      gcd_half_left he (by omega)]
  | case4 a b h h0 he heb ih =>
    rw [gcdLoop, if_neg h, if_neg h0, if_neg he, if_pos heb, ih ha (by omega) (by omega),
      gcd_half_right (by omega) heb]
  | case5 a b h h0 he heb hgt ih =>
    rw [gcdLoop, if_neg h, if_neg h0, if_neg he, if_neg heb, if_pos hgt,
      ih (by omega) hb (by omega), gcd_half_left (by omega) (by omega),
      Nat.gcd_sub_self_left (by omega)]
  | case6 a b h h0 he heb hgt ih =>
    rw [gcdLoop, if_neg h, if_neg h0, if_neg he, if_neg heb, if_neg hgt,
      ih ha (by omega) (by omega), gcd_half_right (by omega) (by omega),
      Nat.gcd_sub_self_right (by omega)]

/-- The code's `gcd` is the greatest common divisor for positive operands in the `int` range. -/
theorem gcd_spec (a b : Nat) (ha : 0 < a) (hb : 0 < b) (ha' : a < 2147483648) :
    gcd a b = .ok (Nat.gcd a b : Int) := by
  obtain ⟨a', b', k, e, ea, eb, ho⟩ := gcdStrip_spec a b 0 (Or.inl ha)
  have pa : 0 < a' := by
    rcases Nat.eq_zero_or_pos a' with h | h
    · subst h; simp at ea; omega
    · exact h
  have pb : 0 < b' := by
    rcases Nat.eq_zero_or_pos b' with h | h
    · subst h; simp at eb; omega
    · exact h
  have hg : Nat.gcd a b = Nat.gcd a' b' * 2 ^ k := by
    rw [ea, eb, Nat.gcd_mul_right]
  have hle : Nat.gcd a b ≤ a := Nat.gcd_le_left b ha
  have hk : k < 31 := by
    by_contra hk
    have h1 : 2 ^ 31 ≤ 2 ^ k := Nat.pow_le_pow_right (by omega) (by omega)
    have h2 : 1 * 2 ^ k ≤ a' * 2 ^ k := Nat.mul_le_mul_right _ pa
    omega
  unfold gcd
  rw [e]
  simp only [Outcome.bind_ok, Nat.zero_add]
  rw [gcdLoop_spec a' b' pa pb ho]
  simp only [Outcome.bind_ok]
  rw [if_neg (by omega), ← hg]
  unfold toInt32
  have : Nat.gcd a b % 4294967296 = Nat.gcd a b := Nat.mod_eq_of_lt (by omega)
  rw [this, if_pos (by omega)]

/-- Normal form of a fraction, independent of the code. -/
theorem mk_spec (n d : Int) (hn : intMin < n ∧ n ≤ intMax) (hd : intMin < d ∧ d ≤ intMax)
    (h0 : d ≠ 0) :
    ∃ r, mk n d = .ok r ∧ WF r ∧ val r = (n : ℚ) / (d : ℚ) := by
  unfold intMin intMax at hn hd
  have hdq : (d : ℚ) ≠ 0 := by exact_mod_cast h0
  unfold mk
  rw [if_neg h0]
  unfold reduce
  by_cases hz : n = 0
  · subst hz
    simp only [ne_eq, not_true_eq_false, if_false, Outcome.bind_ok]
    by_cases hneg : d < 0
    · rw [if_pos hneg, chk_of (by unfold intMin intMax; omega), chk_of (by unfold intMin intMax; omega)]
      refine ⟨_, rfl, ⟨?_, ?_, ?_, ?_, ?_⟩, ?_⟩ <;> simp [intMin, intMax, val] <;> omega
    · rw [if_neg hneg]
      refine ⟨_, rfl, ⟨?_, ?_, ?_, ?_, ?_⟩, ?_⟩ <;> simp [intMin, intMax, val] <;> omega
  · rw [if_pos hz]
    have e1 : absInt n = .ok n.natAbs := by unfold absInt intMin; rw [if_neg (by omega)]
    have e2 : absInt d = .ok d.natAbs := by unfold absInt intMin; rw [if_neg (by omega)]
    rw [e1, e2]
    simp only [Outcome.bind_ok]
    rw [gcd_spec _ _ (by omega) (by omega) (by omega)]
    simp only [Outcome.bind_ok]
    set g := Nat.gcd n.natAbs d.natAbs with hg
    have gpos : 0 < g := Nat.gcd_pos_of_pos_left _ (by omega)
    obtain ⟨n', hn'⟩ : (g : Int) ∣ n := Int.natCast_dvd.mpr (Nat.gcd_dvd_left _ _)
    obtain ⟨d', hd'⟩ : (g : Int) ∣ d := Int.natCast_dvd.mpr (Nat.gcd_dvd_right _ _)
    have gne : (g : Int) ≠ 0 := by omega
    rw [if_neg gne]
    have t1 : n.tdiv g = n' := by rw [hn', Int.mul_tdiv_cancel_left _ gne]
    have t2 : d.tdiv g = d' := by rw [hd', Int.mul_tdiv_cancel_left _ gne]
    have an : n.natAbs = g * n'.natAbs := by
      conv_lhs => rw [hn']
      rw [Int.natAbs_mul, Int.natAbs_natCast]
    have ad : d.natAbs = g * d'.natAbs := by
      conv_lhs => rw [hd']
      rw [Int.natAbs_mul, Int.natAbs_natCast]
    have ln : n'.natAbs ≤ n.natAbs := by rw [an]; exact Nat.le_mul_of_pos_left _ gpos
    have ld : d'.natAbs ≤ d.natAbs := by rw [ad]; exact Nat.le_mul_of_pos_left _ gpos
    have cop : Nat.gcd n'.natAbs d'.natAbs = 1 := by
      have : g * Nat.gcd n'.natAbs d'.natAbs = g * 1 := by
        rw [← Nat.gcd_mul_left, ← an, ← ad, Nat.mul_one]
      exact Nat.eq_of_mul_eq_mul_left gpos this
    have d'ne : d' ≠ 0 := by rintro rfl; simp at hd'; exact h0 hd'
    have gq : (g : ℚ) ≠ 0 := by exact_mod_cast gne
    have d'q : (d' : ℚ) ≠ 0 := by exact_mod_cast d'ne
    have hval : (n : ℚ) / d = n' / d' := by
      have hnq : (n : ℚ) = g * n' := by exact_mod_cast hn'
      have hdq' : (d : ℚ) = g * d' := by exact_mod_cast hd'
      rw [hnq, hdq']
      field_simp
    rw [t1, t2, chk_of (by unfold intMin intMax; omega), chk_of (by unfold intMin intMax; omega)]
    simp only [Outcome.bind_ok]
    by_cases hneg : d' < 0
    · rw [if_pos hneg, chk_of (by unfold intMin intMax; omega), chk_of (by unfold intMin intMax; omega)]
      refine ⟨_, rfl, ⟨?_, ?_, ?_, ?_, ?_⟩, ?_⟩
      · simp [intMin]; omega
      · simp [intMax]; omega
      · simp; omega
      · simp [intMax]; omega
      · intro _; simpa using cop
      · rw [hval]; simp only [val]; push_cast; field_simp
    · rw [if_neg hneg]
      refine ⟨_, rfl, ⟨?_, ?_, ?_, ?_, ?_⟩, hval.symm⟩
      · simp [intMin]; omega
      · simp [intMax]; omega
      · simp; omega
      · simp [intMax]; omega
      · intro _; exact cop

/-- Two well-formed non-zero rationals with the same value are the same pair. -/
theorem val_inj {r s : Rational} (hr : WF r) (hs : WF s) (h0 : val r ≠ 0)
    (h : val r = val s) : r = s := by
  have hs0 : val s ≠ 0 := h ▸ h0
  have rn : r.num ≠ 0 := by rintro e; exact h0 (by simp [val, e])
  have sn : s.num ≠ 0 := by rintro e; exact hs0 (by simp [val, e])
  have rd : (r.den : ℚ) ≠ 0 := by have := hr.den_pos; exact_mod_cast (by omega : r.den ≠ 0)
  have sd : (s.den : ℚ) ≠ 0 := by have := hs.den_pos; exact_mod_cast (by omega : s.den ≠ 0)
  have cross : r.num * s.den = s.num * r.den := by
    have : (r.num : ℚ) * s.den = s.num * r.den := by
      unfold val at h; field_simp at h; linarith
    exact_mod_cast this
  have ca := hr.coprime rn
  have cb := hs.coprime sn
  have nat_cross : r.num.natAbs * s.den.natAbs = s.num.natAbs * r.den.natAbs := by
    rw [← Int.natAbs_mul, ← Int.natAbs_mul, cross]
  have d1 : r.den.natAbs ∣ s.den.natAbs := by
    have : r.den.natAbs ∣ r.num.natAbs * s.den.natAbs := by
      rw [nat_cross]; exact Nat.dvd_mul_left _ _
    exact (Nat.Coprime.dvd_of_dvd_mul_left (Nat.Coprime.symm ca) this)
  have d2 : s.den.natAbs ∣ r.den.natAbs := by
    have : s.den.natAbs ∣ s.num.natAbs * r.den.natAbs := by
      rw [← nat_cross]; exact Nat.dvd_mul_left _ _
    exact (Nat.Coprime.dvd_of_dvd_mul_left (Nat.Coprime.symm cb) this)
  have de : r.den = s.den := by
    have := Nat.dvd_antisymm d1 d2
    have := hr.den_pos; have := hs.den_pos; omega
  have ne : r.num = s.num := by
    rw [de] at cross
    exact Int.eq_of_mul_eq_mul_right (by have := hs.den_pos; omega) cross
  cases r; cases s; simp_all

theorem den_ne {r : Rational} (h : WF r) : (r.den : ℚ) ≠ 0 := by
  have := h.den_pos; exact_mod_cast (by omega : r.den ≠ 0)

theorem den_posq {r : Rational} (h : WF r) : (0 : ℚ) < r.den := by
  have := h.den_pos; exact_mod_cast this

/-- `mk` on arbitrary in-range arguments: exact result or `ub` (only for `INT_MIN`) or the
zero-denominator exception. -/
theorem mk_total (n d : Int) (hn : intMin ≤ n ∧ n ≤ intMax) (hd : intMin ≤ d ∧ d ≤ intMax) :
    (d = 0 ∧ mk n d = .throws .invalidArgument) ∨
    (d ≠ 0 ∧ ∃ r, mk n d = .ok r ∧ WF r ∧ val r = (n : ℚ) / (d : ℚ)) ∨
    (d ≠ 0 ∧ mk n d = .ub) := by
  by_cases h0 : d = 0
  · left; exact ⟨h0, by unfold mk; simp [h0]⟩
  · right
    by_cases h1 : intMin < n ∧ intMin < d
    · left; exact ⟨h0, mk_spec n d ⟨h1.1, hn.2⟩ ⟨h1.2, hd.2⟩ h0⟩
    · unfold intMin intMax at *
      by_cases hn0 : n = -2147483648
      · right
        refine ⟨h0, ?_⟩
        subst hn0
        unfold mk reduce absInt intMin
        rw [if_neg h0]; simp
      · have hd0 : d = -2147483648 := by omega
        subst hd0
        by_cases hz : n = 0
        · right
          refine ⟨h0, ?_⟩
          subst hz
          unfold mk reduce chk intMin intMax; simp
        · right
          refine ⟨h0, ?_⟩
          unfold mk reduce absInt intMin
          rw [if_neg h0]; simp [hz, hn0]

/-- Identify the result of a construction from its (non-zero) value. -/
theorem mk_eq_of (n d : Int) (t : Rational) (hn : intMin < n ∧ n ≤ intMax)
    (hd : intMin < d ∧ d ≤ intMax) (h0 : d ≠ 0) (w : WF t) (hz : n ≠ 0)
    (h : val t = (n : ℚ) / d) : mk n d = .ok t := by
  obtain ⟨u, e, wu, vu⟩ := mk_spec n d hn hd h0
  rw [e]; congr 1
  refine val_inj wu w ?_ (vu.trans h.symm)
  rw [vu]
  have a : (n : ℚ) ≠ 0 := by exact_mod_cast hz
  have b : (d : ℚ) ≠ 0 := by exact_mod_cast h0
  exact div_ne_zero a b

end Verif.Rational
