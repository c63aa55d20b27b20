import Verif.Model.Units
import Mathlib.Tactic.FieldSimp
import Mathlib.Tactic.Ring
import Mathlib.Tactic.NormNum
import Mathlib.Tactic.Positivity

/-!
# Units are tracked correctly (C73)

What it means that a quantity has the exponents `c`, `g`, `s`: in units of length, mass and time that are
smaller by factors `x`, `y`, `z`, its number is larger by `x ^ c * y ^ g * z ^ s`.  The operations have to
commute with such a change of units.
-/

namespace Verif.Units

/-- The number that describes the quantity in units that are smaller by the given factors. -/
noncomputable def Quantity.inUnits (a : Quantity) (x y z : ℝ) : ℝ := a.value * (x ^ a.c * y ^ a.g * z ^ a.s)

theorem intArg_eq {x y : ℤ} (h : intArg x = some y) : y = x := by
  unfold intArg at h
  split at h
  · exact (Option.some.inj h).symm
  · exact absurd h (by simp)

theorem intArg_of {x : ℤ} (h1 : -2 ^ 31 ≤ x) (h2 : x < 2 ^ 31) : intArg x = some x := if_pos ⟨h1, h2⟩

/-- **C73, sums**: sums and differences compile only for the same dimensions, and commute with changes of units. -/
theorem add_units (a b r : Quantity) (x y z : ℝ) :
    (a.add b = some r → r.inUnits x y z = a.inUnits x y z + b.inUnits x y z) ∧
      (a.sub b = some r → r.inUnits x y z = a.inUnits x y z - b.inUnits x y z) ∧
      a.neg.inUnits x y z = -a.inUnits x y z ∧
      ((a.add b).isSome ↔ a.c = b.c ∧ a.g = b.g ∧ a.s = b.s) := by
  refine ⟨fun h => ?_, fun h => ?_, ?_, ?_⟩
  · unfold Quantity.add at h
    split at h
    · rename_i e
      obtain ⟨e1, e2, e3⟩ := e
      rw [← Option.some.inj h]
      simp only [Quantity.inUnits, e1, e2, e3]
      ring
    · exact absurd h (by simp)
  · unfold Quantity.sub at h
    split at h
    · rename_i e
      obtain ⟨e1, e2, e3⟩ := e
      rw [← Option.some.inj h]
      simp only [Quantity.inUnits, e1, e2, e3]
      ring
    · exact absurd h (by simp)
  · simp only [Quantity.inUnits, Quantity.neg]; ring
  · unfold Quantity.add
    split <;> simp_all

/-- Two lengths have a sum; a length and a mass do not. -/
example : (∃ r, (Quantity.mk 1 0 0 3).add ⟨1, 0, 0, 4⟩ = some r ∧ r.inUnits 100 1 1 = 700) ∧ ¬ ((Quantity.mk 1 0 0 3).add ⟨0, 1, 0, 4⟩).isSome := by
  constructor
  · obtain ⟨r, hr⟩ := Option.isSome_iff_exists.1 ((add_units ⟨1, 0, 0, 3⟩ ⟨1, 0, 0, 4⟩ ⟨0, 0, 0, 0⟩ 1 1 1).2.2.2.2 ⟨rfl, rfl, rfl⟩)
    refine ⟨r, hr, ?_⟩
    rw [(add_units _ _ r 100 1 1).1 hr]
    simp only [Quantity.inUnits]
    norm_num
  · intro h
    have := ((add_units ⟨1, 0, 0, 3⟩ ⟨0, 1, 0, 4⟩ ⟨0, 0, 0, 0⟩ 1 1 1).2.2.2.1 h).1
    norm_num at this

/-- **C73, products**: products commute with changes of units. -/
theorem mul_units (a b r : Quantity) (h : a.mul b = some r) (x y z : ℝ) (hx : 0 < x) (hy : 0 < y) (hz : 0 < z) :
    r.inUnits x y z = a.inUnits x y z * b.inUnits x y z := by
  simp only [Quantity.mul, Option.bind_eq_bind, Option.bind_eq_some_iff] at h
  obtain ⟨c, hc, g, hg, s, hs, h⟩ := h
  rw [← Option.some.inj h]
  simp only [Quantity.inUnits, intArg_eq hc, intArg_eq hg, intArg_eq hs, zpow_add₀ hx.ne', zpow_add₀ hy.ne',
    zpow_add₀ hz.ne']
  ring

/-- **C73, quotients**: so do quotients. -/
theorem div_units (a b r : Quantity) (h : a.div b = some r) (x y z : ℝ) (hx : 0 < x) (hy : 0 < y) (hz : 0 < z) :
    r.inUnits x y z = a.inUnits x y z / b.inUnits x y z := by
  unfold Quantity.div at h
  split at h
  · rename_i e
    obtain ⟨e1, e2, e3⟩ := e
    rw [← Option.some.inj h]
    simp only [Quantity.inUnits, e1, e2, e3, zpow_zero, mul_one]
    rw [mul_div_mul_right]
    positivity
  · simp only [Option.bind_eq_bind, Option.bind_eq_some_iff] at h
    obtain ⟨c, hc, g, hg, s, hs, h⟩ := h
    rw [← Option.some.inj h]
    simp only [Quantity.inUnits, intArg_eq hc, intArg_eq hg, intArg_eq hs, zpow_sub₀ hx.ne', zpow_sub₀ hy.ne',
      zpow_sub₀ hz.ne']
    rw [mul_div_mul_comm]
    congr 1
    field_simp

/-- A velocity from a length and a time. -/
example (r : Quantity) (h : (Quantity.mk 1 0 0 6).div ⟨0, 0, 1, 3⟩ = some r) : r.inUnits 100 1 60 = 600 / 180 := by
  rw [div_units _ _ _ h _ _ _ (by norm_num) (by norm_num) (by norm_num)]
  simp only [Quantity.inUnits]
  norm_num

/-- Products and quotients do compile as long as the exponents are not huge. -/
theorem mul_compiles (a b : Quantity)
    (ha : |a.c| < 2 ^ 30 ∧ |a.g| < 2 ^ 30 ∧ |a.s| < 2 ^ 30) (hb : |b.c| < 2 ^ 30 ∧ |b.g| < 2 ^ 30 ∧ |b.s| < 2 ^ 30) :
    (∃ r, a.mul b = some r) ∧ ∃ r, a.div b = some r := by
  simp only [abs_lt] at ha hb
  constructor
  · unfold Quantity.mul
    rw [intArg_of (by omega) (by omega), intArg_of (by omega) (by omega), intArg_of (by omega) (by omega)]
    exact ⟨_, rfl⟩
  · unfold Quantity.div
    split
    · exact ⟨_, rfl⟩
    · rw [intArg_of (by omega) (by omega), intArg_of (by omega) (by omega), intArg_of (by omega) (by omega)]
      exact ⟨_, rfl⟩

theorem powArg_nonneg {c n e : ℤ} {d : ℕ} (hp : 0 ≤ c * n) (h : powArg c n d = some e) :
    0 < d ∧ c * n = e * d := by
  simp only [powArg, Option.bind_eq_bind, Option.bind_eq_some_iff] at h
  obtain ⟨p, hpe, h⟩ := h
  have hp' := intArg_eq hpe
  unfold intArg at hpe
  split at hpe
  case isFalse => exact absurd hpe (by simp)
  rename_i hr
  split at h
  case isFalse => exact absurd h (by simp)
  rename_i hd
  have e1 : p % 2 ^ 32 = p := Int.emod_eq_of_lt (hp' ▸ hp) (by rw [hp']; omega)
  rw [e1] at hd h
  have he := intArg_eq h
  refine ⟨by omega, ?_⟩
  have h2 : p.toNat / d * d = p.toNat := Nat.div_mul_cancel (Nat.dvd_of_mod_eq_zero hd.2)
  have h3 : ((p.toNat : ℕ) : ℤ) = p := Int.toNat_of_nonneg (hp' ▸ hp)
  rw [he, ← hp', ← Nat.cast_mul, h2, h3]

theorem pow_unit {x : ℝ} (hx : 0 < x) {c n e : ℤ} {d : ℕ} (hd : 0 < d) (h : c * n = e * d) :
    x ^ e = (x ^ c) ^ ((n : ℝ) / d) := by
  have hd' : (d : ℝ) ≠ 0 := by positivity
  rw [← Real.rpow_intCast x c, ← Real.rpow_mul hx.le, ← Real.rpow_intCast]
  congr 1
  have : (c : ℝ) * n = e * d := by exact_mod_cast h
  rw [← mul_div_assoc, this, mul_div_assoc, div_self hd', mul_one]

/-- **C73, powers, as far as it holds.** Powers of non-negative quantities commute with changes of units when no
exponent becomes negative.  What is missing: negative exponents, see `pow_units_violated` and `pow_rejected`. -/
theorem pow_units_partial (a r : Quantity) (n : ℤ) (d : ℕ) (h : a.pow n d = some r) (hv : 0 ≤ a.value)
    (hc : 0 ≤ a.c * n) (hg : 0 ≤ a.g * n) (hs : 0 ≤ a.s * n) (x y z : ℝ) (hx : 0 < x) (hy : 0 < y) (hz : 0 < z) :
    r.inUnits x y z = a.inUnits x y z ^ ((n : ℝ) / d) := by
  simp only [Quantity.pow, Option.bind_eq_bind, Option.bind_eq_some_iff] at h
  obtain ⟨c, hc', g, hg', s, hs', h⟩ := h
  rw [← Option.some.inj h]
  obtain ⟨hd, hc'⟩ := powArg_nonneg hc hc'
  obtain ⟨-, hg'⟩ := powArg_nonneg hg hg'
  obtain ⟨-, hs'⟩ := powArg_nonneg hs hs'
  simp only [Quantity.inUnits]
  have px : 0 < x ^ a.c := by positivity
  have py : 0 < y ^ a.g := by positivity
  have pz : 0 < z ^ a.s := by positivity
  rw [Real.mul_rpow hv (by positivity), Real.mul_rpow (by positivity) (by positivity),
    Real.mul_rpow px.le py.le, pow_unit hx hd hc', pow_unit hy hd hg', pow_unit hz hd hs']

theorem powArg_compiles {c n : ℤ} {d : ℕ} (hd : 0 < d) (h0 : 0 ≤ c * n) (h1 : c * n < 2 ^ 31) (hm : (d : ℤ) ∣ c * n) :
    powArg c n d = some (c * n / d) := by
  obtain ⟨k, hk⟩ := Int.eq_ofNat_of_zero_le h0
  rw [hk] at h1 hm ⊢
  have hm' : k % d = 0 := Nat.mod_eq_zero_of_dvd (by exact_mod_cast hm)
  simp only [powArg, Option.bind_eq_bind]
  rw [hk, intArg_of (by omega) (by omega), Option.bind_some, Int.emod_eq_of_lt (by omega) (by omega), Int.toNat_natCast,
    if_pos ⟨by omega, hm'⟩]
  have : k / d ≤ k := Nat.div_le_self _ _
  have h2 : ((k / d : ℕ) : ℤ) = (k : ℤ) / d := rfl
  rw [← h2]
  generalize k / d = q at this
  exact intArg_of (by omega) (by omega)

/-- Such powers compile whenever the exponents are integers. -/
theorem pow_compiles (a : Quantity) (n : ℤ) (d : ℕ) (hd : 0 < d)
    (h : ∀ e ∈ [a.c, a.g, a.s], 0 ≤ e * n ∧ e * n < 2 ^ 31 ∧ (d : ℤ) ∣ e * n) : ∃ r, a.pow n d = some r := by
  obtain ⟨c0, c1, c2⟩ := h a.c (by simp)
  obtain ⟨g0, g1, g2⟩ := h a.g (by simp)
  obtain ⟨s0, s1, s2⟩ := h a.s (by simp)
  unfold Quantity.pow
  rw [powArg_compiles hd c0 c1 c2, powArg_compiles hd g0 g1 g2, powArg_compiles hd s0 s1 s2]
  exact ⟨_, rfl⟩

/-- **C73 is violated**: the square root of the square of a velocity, as `pow<2, 2>`, compiles and has the time
exponent 2147483647; changing the unit of time does not commute with it. -/
theorem pow_units_violated :
    ∃ (a r : Quantity) (n : ℤ) (d : ℕ), 0 < d ∧ 0 < a.value ∧ a.pow n d = some r ∧
      ∃ x y z : ℝ, 0 < x ∧ 0 < y ∧ 0 < z ∧ r.inUnits x y z ≠ a.inUnits x y z ^ ((n : ℝ) / d) := by
  refine ⟨⟨1, 0, -1, 1⟩, ⟨1, 0, 2147483647, 1⟩, 2, 2, by omega, by norm_num, ?_, 1, 1, 2, by norm_num, by norm_num,
    by norm_num, ?_⟩
  · have h1 : powArg 1 2 2 = some 1 := by decide +kernel
    have h2 : powArg 0 2 2 = some 0 := by decide +kernel
    have h3 : powArg (-1) 2 2 = some 2147483647 := by decide +kernel
    simp [Quantity.pow, h1, h2, h3]
  · have h : ∀ k : ℤ, 0 < k → (1 : ℝ) < 2 ^ k := fun k hk => one_lt_zpow₀ (by norm_num) hk
    simp only [Quantity.inUnits, one_zpow, one_mul]
    have h2 : ((2 : ℝ) ^ (-1 : ℤ)) ^ (((2 : ℤ) : ℝ) / ((2 : ℕ) : ℝ)) = 2⁻¹ := by
      norm_num
    rw [h2]
    have := h 2147483647 (by omega)
    intro e
    rw [e] at this
    norm_num at this

theorem emod_neg {p M : ℤ} (h : p < 0) (h' : -M ≤ p) : p % M = p + M := by
  rw [← Int.add_emod_right]
  exact Int.emod_eq_of_lt (by omega) (by omega)

/-- And where an exponent becomes negative with `D = 1`, as in the inverse of a length, the compiler rejects
the expression. -/
theorem pow_rejected (a : Quantity) (n : ℤ) (h : a.c * n < 0) : a.pow n 1 = none := by
  have : powArg a.c n 1 = none := by
    obtain ⟨M, hM⟩ : ∃ M : ℤ, M = 2 ^ 32 := ⟨_, rfl⟩
    unfold powArg
    rw [← hM]
    by_cases hr : -2 ^ 31 ≤ a.c * n
    · rw [intArg_of hr (by omega), Option.bind_eq_bind, Option.bind_some]
      dsimp only
      rw [Nat.mod_one, Nat.div_one, if_pos ⟨by omega, rfl⟩, emod_neg h (by omega), Int.toNat_of_nonneg (by omega)]
      exact if_neg fun hh => by omega
    · rw [show intArg (a.c * n) = none from if_neg fun hh => hr hh.1]
      rfl
  simp [Quantity.pow, this]

/-- Kinetic energy from mass and velocity. -/
example : ∃ r, (Quantity.mk 0 1 0 3).mul ⟨2, 0, -2, 4⟩ = some r ∧ r.inUnits 100 1000 1 = 3000 * 40000 := by
  obtain ⟨r, hr⟩ := (mul_compiles ⟨0, 1, 0, 3⟩ ⟨2, 0, -2, 4⟩ (by simp) (by simp)).1
  refine ⟨r, hr, ?_⟩
  rw [mul_units _ _ _ hr _ _ _ (by norm_num) (by norm_num) (by norm_num)]
  simp only [Quantity.inUnits]
  norm_num

/-- The square root of an area. -/
example : ∃ r, (Quantity.mk 2 0 0 9).pow 1 2 = some r ∧
    r.inUnits 10 1 1 = (900 : ℝ) ^ (((1 : ℤ) : ℝ) / ((2 : ℕ) : ℝ)) := by
  obtain ⟨r, hr⟩ := pow_compiles ⟨2, 0, 0, 9⟩ 1 2 (by omega) (by simp)
  refine ⟨r, hr, ?_⟩
  rw [pow_units_partial _ _ _ _ hr (by norm_num) (by norm_num) (by norm_num) (by norm_num) _ _ _
    (by norm_num) (by norm_num) (by norm_num)]
  simp only [Quantity.inUnits]
  norm_num

end Verif.Units
