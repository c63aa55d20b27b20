import Verif.Model.QuadtreeDouble
import Verif.Props.DoubleRuns

/-!
# C145: equally spaced points in double precision
-/

namespace Verif.Linspace
open Verif Verif.Nd Verif.Double

variable {R : Rounding}

theorem wsub_one {n : Nat} (h : 2 ≤ n) (hn : n ≤ 2 ^ 53) : wsub n 1 = n - 1 := by
  unfold wsub
  omega

theorem cast_val {n : Nat} (h : n ≤ 2 ^ 53) : ((n : Dbl R)).val = n := by
  have a : |(n : ℤ)| ≤ 2 ^ 53 := by
    rw [abs_of_nonneg (Int.natCast_nonneg n)]
    exact_mod_cast h
  have := isDouble_of_le (m := n) (e := 0) a (by norm_num)
  refine R.rnd_double ?_
  simpa using this

/-- The number in the place `k` of the array, with the roundings. -/
noncomputable def point (R : Rounding) (x0 x1 : ℝ) (n k : Nat) : ℝ := R.rnd (x0 + R.rnd (R.rnd (R.rnd (x1 - x0) * k) / ((n - 1 : Nat) : ℝ)))

theorem get_point (x0 x1 : Dbl R) {n k : Nat} (h : 2 ≤ n) (hn : n ≤ 2 ^ 53) (hk : k < n) : ∃ y : Dbl R, (linspace x0 x1 n).get (fun _ => k) = .ok y ∧ y.val = point R x0.val x1.val n k := by
  refine ⟨_, rfl, ?_⟩
  show R.rnd (x0.val + R.rnd (R.rnd (R.rnd (x1.val - x0.val) * ((k : Dbl R)).val) / ((wsub n 1 : Nat) : Dbl R).val)) = _
  rw [wsub_one h hn, cast_val (by omega), cast_val (by omega)]
  rfl

/-- **C145.** The first point is the start of the interval. -/
theorem linspace_start (x0 x1 : Dbl R) {n : Nat} (h : 2 ≤ n) (hn : n ≤ 2 ^ 53) : (linspace x0 x1 n).get (fun _ => 0) = .ok x0 := by
  obtain ⟨y, e, hy⟩ := get_point x0 x1 h hn (k := 0) (by omega)
  rw [e]
  congr 1
  apply Dbl.ext
  rw [hy]
  unfold point
  rw [Nat.cast_zero, mul_zero, R.rnd_double isDouble_zero, zero_div, R.rnd_double isDouble_zero, add_zero, R.rnd_double x0.isDouble]

/-- **C145.** The points are in order. -/
theorem linspace_mono {x0 x1 : Dbl R} (h01 : x0 ≤ x1) {n : Nat} (h : 2 ≤ n) (hn : n ≤ 2 ^ 53) {k l : Nat} (hkl : k ≤ l) (hl : l < n) :
    ∃ y z, (linspace x0 x1 n).get (fun _ => k) = .ok y ∧ (linspace x0 x1 n).get (fun _ => l) = .ok z ∧ y ≤ z := by
  obtain ⟨y, e, hy⟩ := get_point x0 x1 h hn (k := k) (by omega)
  obtain ⟨z, e', hz⟩ := get_point x0 x1 h hn hl
  refine ⟨y, z, e, e', ?_⟩
  rw [Dbl.le_iff, hy, hz]
  unfold point
  have hd : 0 ≤ R.rnd (x1.val - x0.val) := by
    rw [← R.rnd_double isDouble_zero]
    exact R.mono (by linarith [(Dbl.le_iff x0 x1).1 h01])
  refine R.mono (add_le_add_right (R.mono (div_le_div_of_nonneg_right (R.mono (mul_le_mul_of_nonneg_left ?_ hd)) (by positivity))) _)
  exact_mod_cast hkl

theorem error_le (x : ℝ) : |R.rnd x - x| ≤ |x| / 2 ^ 53 + 2 ^ (-1075 : ℤ) := by
  have h0 : (0 : ℝ) ≤ 2 ^ (-1075 : ℤ) := by positivity
  rcases R.error x with h | h
  · linarith
  · have : 0 ≤ |x| / 2 ^ 53 := by positivity
    linarith [h.2]

/-- **C145.** Every point is where it should be, up to eight roundings of the larger end. -/
theorem linspace_near (x0 x1 : Dbl R) {n : Nat} (h : 2 ≤ n) (hn : n ≤ 2 ^ 53) {k : Nat} (hk : k < n) : ∃ y, (linspace x0 x1 n).get (fun _ => k) = .ok y ∧
    |y.val - (x0.val + (x1.val - x0.val) * (k / (n - 1)))| ≤ (|x0.val| + |x1.val|) / 2 ^ 50 + 2 ^ (-1072 : ℤ) := by
  obtain ⟨y, e, hy⟩ := get_point x0 x1 h hn hk
  refine ⟨y, e, ?_⟩
  rw [hy]
  unfold point
  have hm : ((n - 1 : Nat) : ℝ) = n - 1 := by
    rw [Nat.cast_sub (by omega)]
    norm_num
  rw [hm]
  have hm1 : (1 : ℝ) ≤ n - 1 := by
    have : (2 : ℝ) ≤ n := by exact_mod_cast h
    linarith
  have hk0 : (0 : ℝ) ≤ k := by positivity
  have hk1 : (k : ℝ) ≤ n - 1 := by
    have : ((k + 1 : Nat) : ℝ) ≤ n := by exact_mod_cast hk
    push_cast at this
    linarith
  generalize (n : ℝ) - 1 = m at *
  have hm0 : 0 < m := by linarith
  have t0 : (0 : ℝ) ≤ k / m := by positivity
  have t1 : (k : ℝ) / m ≤ 1 := (div_le_one hm0).2 hk1
  set S := |x0.val| + |x1.val| with hS
  have S0 : 0 ≤ S := by positivity
  set z : ℝ := 2 ^ (-1075 : ℤ) with hz
  have z0 : 0 < z := by positivity
  have z8 : (2 : ℝ) ^ (-1072 : ℤ) = 8 * z := by
    rw [hz, show (-1072 : ℤ) = 3 + -1075 by norm_num, zpow_add₀ (by norm_num)]
    norm_num
  rw [z8]
  have e1 := R.error_sub x1.isDouble x0.isDouble
  set d := x1.val - x0.val with hd
  have dS : |d| ≤ S := by
    rw [hd, hS]
    linarith [abs_sub x1.val x0.val]
  set D := R.rnd d
  have DS : |D - d| ≤ S / 2 ^ 53 := e1.trans (by gcongr)
  -- the product
  have e2 := error_le (R := R) (D * k)
  rw [← hz] at e2
  set p := R.rnd (D * k)
  have e3 := error_le (R := R) (p / m)
  rw [← hz] at e3
  set q := R.rnd (p / m)
  have DA : |D| ≤ S + S / 2 ^ 53 := by
    have := abs_sub_abs_le_abs_sub D d
    linarith
  have p1 : |p / m - D * (k / m)| ≤ (S + S / 2 ^ 53) / 2 ^ 53 + z := by
    rw [show p / m - D * (k / m) = (p - D * k) / m by ring, abs_div, abs_of_pos hm0, div_le_iff₀ hm0]
    refine e2.trans ?_
    rw [abs_mul, abs_of_nonneg hk0]
    have : |D| * k ≤ (S + S / 2 ^ 53) * m := mul_le_mul DA hk1 hk0 (by positivity)
    have : |D| * k / 2 ^ 53 ≤ (S + S / 2 ^ 53) * m / 2 ^ 53 := by gcongr
    have : z ≤ z * m := le_mul_of_one_le_right z0.le hm1
    calc _ ≤ (S + S / 2 ^ 53) * m / 2 ^ 53 + z * m := by linarith
      _ = _ := by ring
  have p2 : |D * (k / m) - d * (k / m)| ≤ S / 2 ^ 53 := by
    rw [← sub_mul, abs_mul, abs_of_nonneg t0]
    exact (mul_le_of_le_one_right (abs_nonneg _) t1).trans DS
  have p3 : |d * (k / m)| ≤ S := by
    rw [abs_mul, abs_of_nonneg t0]
    exact (mul_le_of_le_one_right (abs_nonneg _) t1).trans dS
  have e4 := error_le (R := R) (x0.val + q)
  rw [← hz] at e4
  have xx : |x0.val + d * (k / m)| ≤ S := by
    have : x0.val + d * (k / m) = x0.val * (1 - k / m) + x1.val * (k / m) := by
      rw [hd]
      ring
    rw [this]
    refine (abs_add_le _ _).trans ?_
    rw [abs_mul, abs_mul, abs_of_nonneg t0, abs_of_nonneg (by linarith : 0 ≤ 1 - (k : ℝ) / m)]
    nlinarith [abs_nonneg x0.val, abs_nonneg x1.val]
  have q1 : |p / m| ≤ S + (S / 2 ^ 53 + ((S + S / 2 ^ 53) / 2 ^ 53 + z)) := by
    have a := abs_le.1 p1
    have b := abs_le.1 p2
    have c := abs_le.1 p3
    rw [abs_le]
    constructor <;> linarith
  have q2 : |q - d * (k / m)| ≤ S * 4 / 2 ^ 53 + 3 * z := by
    have a := abs_le.1 p1
    have b := abs_le.1 p2
    have c := abs_le.1 (e3.trans (add_le_add_left (div_le_div_of_nonneg_right q1 (by positivity)) _))
    rw [abs_le]
    norm_num at a b c ⊢
    constructor <;> linarith
  have s1 : |x0.val + q| ≤ S + (S * 4 / 2 ^ 53 + 3 * z) := by
    have a := abs_le.1 xx
    have b := abs_le.1 q2
    rw [abs_le]
    constructor <;> linarith
  have a := abs_le.1 q2
  have b := abs_le.1 (e4.trans (add_le_add_left (div_le_div_of_nonneg_right s1 (by positivity)) _))
  rw [abs_le]
  norm_num at a b ⊢
  constructor <;> linarith

/-- **C145.** If the points are further apart than that, no two are equal. -/
theorem linspace_strict {x0 x1 : Dbl R} {n : Nat} (h : 2 ≤ n) (hn : n ≤ 2 ^ 53) (hd : (|x0.val| + |x1.val|) / 2 ^ 49 + 2 ^ (-1071 : ℤ) < (x1.val - x0.val) / (n - 1)) {k : Nat} (hk : k + 1 < n) :
    ∃ y z, (linspace x0 x1 n).get (fun _ => k) = .ok y ∧ (linspace x0 x1 n).get (fun _ => k + 1) = .ok z ∧ y < z := by
  obtain ⟨y, e, hy⟩ := linspace_near x0 x1 h hn (k := k) (by omega)
  obtain ⟨z, e', hz⟩ := linspace_near x0 x1 h hn hk
  refine ⟨y, z, e, e', ?_⟩
  rw [Dbl.lt_iff]
  have a := (abs_le.1 hy).2
  have b := (abs_le.1 hz).1
  have z2 : (2 : ℝ) ^ (-1071 : ℤ) = 2 * 2 ^ (-1072 : ℤ) := by
    rw [show (-1071 : ℤ) = 1 + -1072 by norm_num, zpow_add₀ (by norm_num)]
    norm_num
  rw [z2] at hd
  have c : (x1.val - x0.val) * (((k + 1 : Nat) : ℝ) / (n - 1)) = (x1.val - x0.val) * (k / (n - 1)) + (x1.val - x0.val) / (n - 1) := by
    push_cast
    ring
  rw [c] at b
  norm_num at a b hd ⊢
  linarith

theorem scale_double {x : ℝ} (h : IsDouble x) (j : Nat) : IsDouble (x * 2 ^ j) := by
  obtain ⟨m, e, a, b, rfl⟩ := h
  exact ⟨m, e + j, a, by omega, by rw [zpow_add₀ (by norm_num), zpow_natCast]; ring⟩

/-- **C145, partial.** The last point is the end of the interval if the length, and the length times the number of intervals, are doubles. -/
theorem linspace_end_partial (x0 x1 : Dbl R) {n : Nat} (h : 2 ≤ n) (hn : n ≤ 2 ^ 53) (hd : IsDouble (x1.val - x0.val)) (hm : IsDouble ((x1.val - x0.val) * ((n - 1 : Nat) : ℝ))) :
    (linspace x0 x1 n).get (fun _ => n - 1) = .ok x1 := by
  obtain ⟨y, e, hy⟩ := get_point x0 x1 h hn (k := n - 1) (by omega)
  rw [e]
  congr 1
  apply Dbl.ext
  have h0 : ((n - 1 : Nat) : ℝ) ≠ 0 := by
    have : n - 1 ≠ 0 := by omega
    exact_mod_cast this
  rw [hy]
  unfold point
  rw [R.rnd_double hd, R.rnd_double hm, mul_div_cancel_right₀ _ h0, R.rnd_double hd, add_sub_cancel, R.rnd_double x1.isDouble]

/-- **C145.** This is so for any length that is a double if the number of intervals is a power of two. -/
theorem linspace_end_pow (x0 x1 : Dbl R) (hd : IsDouble (x1.val - x0.val)) {j : Nat} (hj : 2 ^ j + 1 ≤ 2 ^ 53) : (linspace x0 x1 (2 ^ j + 1)).get (fun _ => 2 ^ j) = .ok x1 := by
  have hp : 1 ≤ 2 ^ j := Nat.one_le_two_pow
  have := linspace_end_partial x0 x1 (n := 2 ^ j + 1) (by omega) hj hd (by
    rw [Nat.add_sub_cancel, Nat.cast_pow, Nat.cast_ofNat]
    exact scale_double hd j)
  rwa [Nat.add_sub_cancel] at this

/-- **C145.** It is so for every number of points in the mesh of a block, from -1 to 1 (`mesh_tree_operators.hpp:170-171`), and from 0 to 1 (the tutorial). -/
theorem linspace_block_end {n : Nat} (h : 2 ≤ n) (hn : n ≤ 2 ^ 52) : (linspace (Tree.Dbl.minusOne (R := R)) Tree.Dbl.one n).get (fun _ => n - 1) = .ok Tree.Dbl.one ∧
    (linspace (0 : Dbl R) Tree.Dbl.one n).get (fun _ => n - 1) = .ok Tree.Dbl.one := by
  have a : |((n - 1 : Nat) : ℤ)| < 2 ^ 53 := by
    rw [abs_of_nonneg (Int.natCast_nonneg _)]
    have : n - 1 < 2 ^ 53 := by omega
    exact_mod_cast this
  constructor
  · have v : (Tree.Dbl.one (R := R)).val - (Tree.Dbl.minusOne (R := R)).val = 2 := by
      show (1 : ℝ) - -1 = 2
      norm_num
    refine linspace_end_partial _ _ h (by omega) ?_ ?_
    · rw [v]
      exact ⟨2, 0, by norm_num, by norm_num, by norm_num⟩
    · rw [v]
      exact ⟨(n - 1 : Nat), 1, a, by norm_num, by rw [Int.cast_natCast, zpow_one, mul_comm]⟩
  · have v : (Tree.Dbl.one (R := R)).val - (0 : Dbl R).val = 1 := by
      show (1 : ℝ) - 0 = 1
      norm_num
    refine linspace_end_partial _ _ h (by omega) ?_ ?_
    · rw [v]
      exact ⟨1, 0, by norm_num, by norm_num, by norm_num⟩
    · rw [v, one_mul]
      exact ⟨(n - 1 : Nat), 0, a, by norm_num, by rw [Int.cast_natCast, zpow_zero, mul_one]⟩

/-- If a double is nearer to a number than half of the distance to its neighbours, then it is the rounded number. -/
theorem rnd_eq {x y : ℝ} {m e : ℤ} (hx : x = m * 2 ^ e) (h0 : 2 ^ 52 ≤ m) (h1 : m < 2 ^ 53) (he : -1074 ≤ e) (h : |x - y| < 2 ^ (e - 1)) (hy : 2 ^ 52 * 2 ^ e ≤ y) : R.rnd y = x := by
  have dx : IsDouble x := ⟨m, e, by rw [abs_of_nonneg (by omega)]; exact h1, he, hx⟩
  have hn := R.nearest y x dx
  have lt : |R.rnd y - x| < 2 ^ e := by
    have : (2 : ℝ) ^ e = 2 ^ (e - 1) + 2 ^ (e - 1) := by
      rw [← two_mul, ← zpow_one_add₀ (by norm_num)]
      congr 1
      ring
    rw [this]
    calc _ = |(R.rnd y - y) + (y - x)| := by ring_nf
      _ ≤ |R.rnd y - y| + |y - x| := abs_add_le _ _
      _ < _ := by rw [abs_sub_comm y x]; linarith
  have lo : 2 ^ 52 * 2 ^ e ≤ R.rnd y := by
    have : IsDouble (2 ^ 52 * 2 ^ e) := ⟨2 ^ 52, e, by norm_num, he, by norm_num⟩
    rw [← R.rnd_double this]
    exact R.mono hy
  obtain ⟨m', e', a, b, hr⟩ := R.isDouble y
  have pe : (0 : ℝ) < 2 ^ e := by positivity
  -- the rounded number is a whole multiple of the same unit
  have hee : e ≤ e' := by
    by_contra hc
    push Not at hc
    have h2 : (2 : ℝ) ^ e' * 2 ≤ 2 ^ e := by
      rw [show (2 : ℝ) ^ e' * 2 = 2 ^ (e' + 1) by rw [zpow_add₀ (by norm_num)]; norm_num]
      exact zpow_le_zpow_right₀ (by norm_num) (by omega)
    have h3 : (m' : ℝ) < 2 ^ 53 := by
      have := (abs_lt.1 a).2
      exact_mod_cast this
    have : (0 : ℝ) < 2 ^ e' := by positivity
    rw [hr] at lo
    nlinarith
  obtain ⟨i, rfl⟩ : ∃ i : ℕ, e' = e + i := ⟨(e' - e).toNat, by omega⟩
  have hr' : R.rnd y = ((m' * 2 ^ i : ℤ) : ℝ) * 2 ^ e := by
    rw [hr, zpow_add₀ (by norm_num), zpow_natCast]
    push_cast
    ring
  rw [hr', hx, ← sub_mul, abs_mul, abs_of_pos pe] at lt
  have : |((m' * 2 ^ i : ℤ) : ℝ) - m| < 1 := by
    by_contra hc
    push Not at hc
    nlinarith
  have : |m' * 2 ^ i - m| < 1 := by exact_mod_cast this
  have : m' * 2 ^ i = m := by
    have := Int.abs_lt_one_iff.1 this
    omega
  rw [hr', this, hx]

/-- **C145, violated.** Ten points from 0 to 0.9 do not reach the end of the interval, and fourteen from 0 to 1.3 go beyond it, whatever the rule of rounding for numbers in the middle (the
literals `0.9` and `1.3` are the doubles below). -/
theorem linspace_end_violated : (∃ x1 y : Dbl R, x1.val = 8106479329266893 / 2 ^ 53 ∧ (linspace 0 x1 10).get (fun _ => 9) = .ok y ∧ y < x1) ∧
    (∃ x1 y : Dbl R, x1.val = 5854679515581645 / 2 ^ 52 ∧ (linspace 0 x1 14).get (fun _ => 13) = .ok y ∧ x1 < y) := by
  constructor
  · have dx : IsDouble (8106479329266893 / 2 ^ 53) := ⟨8106479329266893, -53, by norm_num, by norm_num, by norm_num⟩
    obtain ⟨y, e, hy⟩ := get_point (R := R) 0 ⟨8106479329266893 / 2 ^ 53, dx⟩ (n := 10) (by norm_num) (by norm_num) (k := 9) (by norm_num)
    refine ⟨_, y, rfl, e, ?_⟩
    rw [Dbl.lt_iff, hy]
    unfold point
    rw [Dbl.zero_val, sub_zero, R.rnd_double dx]
    have r1 : R.rnd (8106479329266893 / 2 ^ 53 * ((9 : Nat) : ℝ)) = 4559894622712627 / 2 ^ 49 := rnd_eq (m := 4559894622712627) (e := -49) (by norm_num) (by norm_num) (by norm_num) (by norm_num) (by norm_num [abs_lt]) (by norm_num)
    rw [r1]
    have r2 : R.rnd (4559894622712627 / 2 ^ 49 / ((10 - 1 : Nat) : ℝ)) = 8106479329266892 / 2 ^ 53 := rnd_eq (m := 8106479329266892) (e := -53) (by norm_num) (by norm_num) (by norm_num) (by norm_num) (by norm_num [abs_lt]) (by norm_num)
    rw [r2, zero_add, R.rnd_double ⟨8106479329266892, -53, by norm_num, by norm_num, by norm_num⟩]
    norm_num
  · have dx : IsDouble (5854679515581645 / 2 ^ 52) := ⟨5854679515581645, -52, by norm_num, by norm_num, by norm_num⟩
    obtain ⟨y, e, hy⟩ := get_point (R := R) 0 ⟨5854679515581645 / 2 ^ 52, dx⟩ (n := 14) (by norm_num) (by norm_num) (k := 13) (by norm_num)
    refine ⟨_, y, rfl, e, ?_⟩
    rw [Dbl.lt_iff, hy]
    unfold point
    rw [Dbl.zero_val, sub_zero, R.rnd_double dx]
    have r1 : R.rnd (5854679515581645 / 2 ^ 52 * ((13 : Nat) : ℝ)) = 4756927106410087 / 2 ^ 48 := rnd_eq (m := 4756927106410087) (e := -48) (by norm_num) (by norm_num) (by norm_num) (by norm_num) (by norm_num [abs_lt]) (by norm_num)
    rw [r1]
    have r2 : R.rnd (4756927106410087 / 2 ^ 48 / ((14 - 1 : Nat) : ℝ)) = 5854679515581646 / 2 ^ 52 := rnd_eq (m := 5854679515581646) (e := -52) (by norm_num) (by norm_num) (by norm_num) (by norm_num) (by norm_num [abs_lt]) (by norm_num)
    rw [r2, zero_add, R.rnd_double ⟨5854679515581646, -52, by norm_num, by norm_num, by norm_num⟩]
    norm_num

/-- Five points from -1 to 1, as in the mesh of the binary program. -/
example : (linspace (Tree.Dbl.minusOne (R := R)) Tree.Dbl.one 5).get (fun _ => 4) = .ok Tree.Dbl.one ∧
    (linspace (Tree.Dbl.minusOne (R := R)) Tree.Dbl.one 5).get (fun _ => 0) = .ok Tree.Dbl.minusOne ∧
    ∃ y z, (linspace (Tree.Dbl.minusOne (R := R)) Tree.Dbl.one 5).get (fun _ => 2) = .ok y ∧ (linspace (Tree.Dbl.minusOne (R := R)) Tree.Dbl.one 5).get (fun _ => 3) = .ok z ∧ y < z := by
  refine ⟨linspace_end_pow _ _ (j := 2) ⟨2, 0, by norm_num, by norm_num, ?_⟩ (by norm_num), linspace_start _ _ (by norm_num) (by norm_num),
    linspace_strict (by norm_num) (by norm_num) ?_ (by norm_num)⟩
  · show (1 : ℝ) - -1 = _
    norm_num
  · show (|(-1 : ℝ)| + |(1 : ℝ)|) / 2 ^ 49 + 2 ^ (-1071 : ℤ) < ((1 : ℝ) - -1) / (((5 : Nat) : ℝ) - 1)
    have : (2 : ℝ) ^ (-1071 : ℤ) ≤ 2 ^ (-2 : ℤ) := zpow_le_zpow_right₀ (by norm_num) (by norm_num)
    norm_num at this ⊢
    linarith

/-- The hundred points of the tutorial from -1 to 1. -/
example : (linspace (Tree.Dbl.minusOne (R := R)) Tree.Dbl.one 100).get (fun _ => 99) = .ok Tree.Dbl.one := (linspace_block_end (n := 100) (by norm_num) (by norm_num)).1

/-- Four points from 0 to 3. -/
example (x : Dbl R) (hx : x.val = 3) : (linspace 0 x 4).get (fun _ => 3) = .ok x := by
  refine linspace_end_partial 0 x (n := 4) (by norm_num) (by norm_num) ?_ ?_
  · rw [hx]
    exact ⟨3, 0, by norm_num, by norm_num, by rw [Dbl.zero_val]; norm_num⟩
  · rw [hx]
    exact ⟨9, 0, by norm_num, by norm_num, by rw [Dbl.zero_val]; norm_num⟩

example : ∃ y z : Dbl R, (linspace 0 Tree.Dbl.one 11).get (fun _ => 3) = .ok y ∧ (linspace 0 Tree.Dbl.one 11).get (fun _ => 10) = .ok z ∧ y ≤ z :=
  linspace_mono (show (0 : ℝ) ≤ 1 by norm_num) (by norm_num) (by norm_num) (by norm_num) (by norm_num)

/-- The tenth of eleven points from 0 to 1 is 0.9 up to the rounding. -/
example : ∃ y : Dbl R, (linspace 0 Tree.Dbl.one 11).get (fun _ => 9) = .ok y ∧ |y.val - 9 / 10| ≤ 1 / 2 ^ 49 := by
  obtain ⟨y, e, h⟩ := linspace_near (R := R) 0 Tree.Dbl.one (n := 11) (by norm_num) (by norm_num) (k := 9) (by norm_num)
  refine ⟨y, e, ?_⟩
  rw [Dbl.zero_val, show (Tree.Dbl.one (R := R)).val = 1 from rfl] at h
  have : (2 : ℝ) ^ (-1072 : ℤ) ≤ 2 ^ (-50 : ℤ) := zpow_le_zpow_right₀ (by norm_num) (by norm_num)
  have e2 : (0 : ℝ) + (1 - 0) * (((9 : Nat) : ℝ) / (((11 : Nat) : ℝ) - 1)) = 9 / 10 := by norm_num
  rw [e2, abs_zero, abs_one] at h
  norm_num at this h ⊢
  linarith

end Verif.Linspace
