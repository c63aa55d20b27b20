import Verif.Model.QuadtreeDouble
import Verif.Spec.QuadtreeDouble
import Verif.Lemmas.Double
import Verif.Lemmas.MeshLines

/-!
# The lines of a mesh in double precision
-/

namespace Verif.Tree
open Verif Verif.Seq Verif.Nd Verif.Double

variable {R : Rounding}

theorem le_def {a b : Dbl R} : a ≤ b ↔ a.val ≤ b.val := Iff.rfl
theorem lt_def {a b : Dbl R} : a < b ↔ a.val < b.val := Iff.rfl

theorem isDouble_twice {a : ℝ} (h : IsDouble a) : IsDouble (2 * a) := by
  obtain ⟨m, e, h1, h2, rfl⟩ := h
  refine ⟨m, e + 1, h1, by omega, ?_⟩
  rw [zpow_add₀ two_ne_zero]
  ring

theorem isDouble_nat {n : Nat} (h : n ≤ 2 ^ 53) : IsDouble (n : ℝ) := by
  have := isDouble_of_le (m := n) (e := 0) (by rw [abs_of_nonneg (by positivity)]; exact_mod_cast h) (by norm_num)
  simpa using this

theorem isDouble_two : IsDouble 2 := by exact_mod_cast isDouble_nat (n := 2) (by norm_num)

/-- Halving is exact, up to the last subnormal bit. -/
theorem error_half {s : ℝ} (h : IsDouble s) : |R.rnd (s * (1 / 2)) - s * (1 / 2)| ≤ 2 ^ (-1075 : ℤ) := by
  obtain ⟨m, e, h1, h2, rfl⟩ := h
  rcases h2.lt_or_eq with h2 | rfl
  · have : IsDouble ((m : ℝ) * 2 ^ e * (1 / 2)) := ⟨m, e - 1, h1, by omega, by rw [zpow_sub₀ two_ne_zero]; ring⟩
    rw [R.rnd_double this, sub_self, abs_zero]
    positivity
  · have e : (m : ℝ) * 2 ^ (-1074 : ℤ) * (1 / 2) = m * 2 ^ (-1075 : ℤ) := by
      rw [show (-1074 : ℤ) = -1075 + 1 by norm_num, zpow_add₀ two_ne_zero]; ring
    have h3 : |(m : ℝ)| < 2 ^ 53 := by exact_mod_cast h1
    rcases R.error ((m : ℝ) * 2 ^ (-1074 : ℤ) * (1 / 2)) with h | h
    · refine h.trans ?_
      rw [e, abs_mul, abs_of_pos (show (0 : ℝ) < 2 ^ (-1075 : ℤ) by positivity), div_le_iff₀ (by positivity), mul_comm]
      exact mul_le_mul_of_nonneg_left h3.le (by positivity)
    · exact h.2

/-- The midpoint of two numbers as the code computes it. -/
noncomputable def midD (a b : Dbl R) : Dbl R := (a + b) * Dbl.half

theorem midD_val (a b : Dbl R) : (midD a b).val = R.rnd (R.rnd (a.val + b.val) * (1 / 2)) := rfl

theorem midPair_midD : midPair (midD (R := R)) = midDouble := rfl

theorem midD_self (a : Dbl R) : midD a a = a := by
  apply Dbl.ext
  rw [midD_val, ← two_mul, R.rnd_double (isDouble_twice a.isDouble), show 2 * a.val * (1 / 2) = a.val by ring, R.rnd_double a.isDouble]

theorem midD_mono {a b a' b' : Dbl R} (h : a ≤ a') (h' : b ≤ b') : midD a b ≤ midD a' b' := by
  rw [le_def] at *
  rw [midD_val, midD_val]
  refine R.mono (mul_le_mul_of_nonneg_right (R.mono (add_le_add h h')) (by norm_num))

theorem midD_error (a b : Dbl R) (ha : |a.val| ≤ 1) (hb : |b.val| ≤ 1) : |(midD a b).val - (a.val + b.val) / 2| ≤ 1 / 2 ^ 52 := by
  rw [midD_val]
  have h1 := R.error_add a.isDouble b.isDouble
  have h2 := error_half (R := R) (R.isDouble (a.val + b.val))
  have h3 : |a.val + b.val| ≤ 2 := (abs_add_le _ _).trans (by linarith)
  have h4 : (2 : ℝ) ^ (-1075 : ℤ) ≤ 2 ^ (-53 : ℤ) := zpow_le_zpow_right₀ one_le_two (by norm_num)
  have h5 : (2 : ℝ) ^ (-53 : ℤ) = 1 / 2 ^ 53 := by rw [zpow_neg, one_div]; norm_cast
  rw [h5] at h4
  have h6 : |a.val + b.val| / 2 ^ 53 ≤ 2 / 2 ^ 53 := by gcongr
  rw [abs_le] at h1 h2 ⊢
  constructor
  · linarith [h1.1, h2.1, show (1 : ℝ) / 2 ^ 52 = 1 / 2 ^ 53 + 1 / 2 ^ 53 by norm_num, show (2 : ℝ) / 2 ^ 53 = 2 * (1 / 2 ^ 53) by norm_num]
  · linarith [h1.2, h2.2, show (1 : ℝ) / 2 ^ 52 = 1 / 2 ^ 53 + 1 / 2 ^ 53 by norm_num, show (2 : ℝ) / 2 ^ 53 = 2 * (1 / 2 ^ 53) by norm_num]

/-- The vertices of the root on one axis. -/
noncomputable def rootD (n k : Nat) : Dbl R := Dbl.minusOne + (Dbl.one - Dbl.minusOne) * (k : Dbl R) / (n : Dbl R)

theorem rootD_val {n k : Nat} (hn : n < 2 ^ 31) (hk : k ≤ n) :
    (rootD n k : Dbl R).val = R.rnd (-1 + R.rnd (2 * k / n)) := by
  show R.rnd (-1 + R.rnd (R.rnd (R.rnd (1 - -1) * R.rnd k) / R.rnd n)) = _
  have e2 : R.rnd ((1 : ℝ) - -1) = 2 := by
    rw [show (1 : ℝ) - -1 = ((2 : ℕ) : ℝ) by norm_num, R.rnd_double (isDouble_nat (by norm_num))]; norm_num
  rw [e2, R.rnd_double (isDouble_nat (n := n) (by omega)), R.rnd_double (isDouble_nat (n := k) (by omega)),
    R.rnd_double (isDouble_twice (isDouble_nat (n := k) (by omega)))]

theorem rootD_mono {n k k' : Nat} (hn : n < 2 ^ 31) (h : k ≤ k') (hk : k' ≤ n) : (rootD n k : Dbl R) ≤ rootD n k' := by
  rw [le_def, rootD_val hn (h.trans hk), rootD_val hn hk]
  refine R.mono (add_le_add_right (R.mono ?_) _)
  gcongr

theorem rootD_first {n : Nat} (hn : n < 2 ^ 31) : (rootD n 0 : Dbl R).val = -1 := by
  rw [rootD_val hn (Nat.zero_le _)]
  simp only [Nat.cast_zero, mul_zero, zero_div, R.rnd_double isDouble_zero, add_zero]
  exact R.rnd_double (Dbl.minusOne (R := R)).isDouble

theorem rootD_last {n : Nat} (h1 : 1 ≤ n) (hn : n < 2 ^ 31) : (rootD n n : Dbl R).val = 1 := by
  rw [rootD_val hn le_rfl]
  have : (2 * (n : ℝ) / n) = 2 := by field_simp
  rw [this, R.rnd_double isDouble_two, show (-1 : ℝ) + 2 = 1 by norm_num]
  exact R.rnd_double (Dbl.one (R := R)).isDouble

theorem rootD_error {n k : Nat} (h1 : 1 ≤ n) (hn : n < 2 ^ 31) (hk : k ≤ n) :
    |(rootD n k : Dbl R).val - (-1 + 2 * k / n)| ≤ 2 / 2 ^ 52 := by
  rw [rootD_val hn hk]
  have hp : (0 : ℝ) < n := by exact_mod_cast h1
  have hq : |2 * (k : ℝ) / n| ≤ 2 := by
    rw [abs_of_nonneg (by positivity), div_le_iff₀ hp]
    have : (k : ℝ) ≤ n := by exact_mod_cast hk
    linarith
  have g1 : |R.rnd (2 * (k : ℝ) / n) - 2 * (k : ℝ) / n| ≤ 2 / 2 ^ 53 := by
    rcases R.error (2 * (k : ℝ) / n) with h | h
    · exact h.trans (by gcongr)
    · refine h.2.trans ?_
      have h4 : (2 : ℝ) ^ (-1075 : ℤ) ≤ 2 ^ (-52 : ℤ) := zpow_le_zpow_right₀ one_le_two (by norm_num)
      have h5 : (2 : ℝ) ^ (-52 : ℤ) = 1 / 2 ^ 52 := by rw [zpow_neg, one_div]; norm_cast
      rw [h5] at h4
      exact h4.trans (by norm_num)
  have g2 := R.error_add (Dbl.minusOne (R := R)).isDouble (R.isDouble (2 * (k : ℝ) / n))
  simp only [show (Dbl.minusOne (R := R)).val = -1 from rfl] at g2
  have g3 : |-1 + R.rnd (2 * (k : ℝ) / n)| ≤ 1 := by
    have a1 : (0 : ℝ) ≤ R.rnd (2 * (k : ℝ) / n) := by
      rw [← R.rnd_double isDouble_zero]; exact R.mono (by positivity)
    have a2 : R.rnd (2 * (k : ℝ) / n) ≤ 2 := by
      have := R.mono (abs_le.1 hq).2
      rwa [R.rnd_double isDouble_two] at this
    rw [abs_le]
    constructor <;> linarith
  have g4 : |-1 + R.rnd (2 * (k : ℝ) / n)| / 2 ^ 53 ≤ 1 / 2 ^ 53 := by gcongr
  rw [abs_le] at g1 g2 ⊢
  constructor
  · linarith [g1.1, g2.1, show (2 : ℝ) / 2 ^ 52 = 4 * (1 / 2 ^ 53) by norm_num, show (2 : ℝ) / 2 ^ 53 = 2 * (1 / 2 ^ 53) by norm_num, show (0 : ℝ) < 1 / 2 ^ 53 by norm_num]
  · linarith [g1.2, g2.2, show (2 : ℝ) / 2 ^ 52 = 4 * (1 / 2 ^ 53) by norm_num, show (2 : ℝ) / 2 ^ 53 = 2 * (1 / 2 ^ 53) by norm_num, show (0 : ℝ) < 1 / 2 ^ 53 by norm_num]

/-- The lines of a level. -/
noncomputable abbrev lineD (n l k : Nat) : Dbl R := line midD (rootD n) l k

theorem lineD_step {n l k : Nat} (hn : n < 2 ^ 31) (hk : k + 1 ≤ n * 2 ^ l) : (lineD n l k : Dbl R) ≤ lineD n l (k + 1) := by
  induction l generalizing k with
  | zero => exact rootD_mono hn (Nat.le_succ k) (by simpa using hk)
  | succ l ih =>
    rw [pow_succ, ← Nat.mul_assoc] at hk
    rcases Nat.even_or_odd' k with ⟨m, rfl | rfl⟩
    · have h := ih (k := m) (by omega)
      show midD _ _ ≤ midD _ _
      rw [show 2 * m / 2 = m by omega, show 2 * m % 2 = 0 by omega, show (2 * m + 1) / 2 = m by omega, show (2 * m + 1) % 2 = 1 by omega]
      exact midD_mono le_rfl h
    · have h := ih (k := m) (by omega)
      show midD _ _ ≤ midD _ _
      rw [show (2 * m + 1) / 2 = m by omega, show (2 * m + 1) % 2 = 1 by omega, show (2 * m + 1 + 1) / 2 = m + 1 by omega,
        show (2 * m + 1 + 1) % 2 = 0 by omega]
      exact midD_mono h le_rfl

theorem lineD_mono {n l k k' : Nat} (hn : n < 2 ^ 31) (h : k ≤ k') (hk : k' ≤ n * 2 ^ l) : (lineD n l k : Dbl R) ≤ lineD n l k' := by
  obtain ⟨d, rfl⟩ := Nat.exists_eq_add_of_le h
  clear h
  induction d with
  | zero => exact le_rfl
  | succ d ih => exact (ih (by omega)).trans (lineD_step hn hk)

theorem lineD_first {n : Nat} (hn : n < 2 ^ 31) (l : Nat) : (lineD n l 0 : Dbl R).val = -1 := by
  have := line_up (midD_self (R := R)) (rootD n) 0 0 l
  rw [Nat.zero_add, Nat.zero_mul] at this
  rw [lineD, this]
  exact rootD_first hn

theorem lineD_last {n : Nat} (h1 : 1 ≤ n) (hn : n < 2 ^ 31) (l : Nat) : (lineD n l (n * 2 ^ l) : Dbl R).val = 1 := by
  have := line_up (midD_self (R := R)) (rootD n) 0 n l
  rw [Nat.zero_add] at this
  rw [lineD, this]
  exact rootD_last h1 hn

theorem lineD_abs {n l k : Nat} (h1 : 1 ≤ n) (hn : n < 2 ^ 31) (hk : k ≤ n * 2 ^ l) : |(lineD n l k : Dbl R).val| ≤ 1 := by
  have a := lineD_mono (R := R) hn (Nat.zero_le k) hk
  have b := lineD_mono (R := R) hn hk le_rfl
  rw [le_def, lineD_first hn] at a
  rw [le_def, lineD_last h1 hn] at b
  exact abs_le.2 ⟨a, b⟩

theorem lineD_error {n l k : Nat} (h1 : 1 ≤ n) (hn : n < 2 ^ 31) (hk : k ≤ n * 2 ^ l) :
    |(lineD n l k : Dbl R).val - (-1 + 2 * k / (n * 2 ^ l))| ≤ (l + 2) / 2 ^ 52 := by
  have hp : (0 : ℝ) < n := by exact_mod_cast h1
  induction l generalizing k with
  | zero =>
    have := rootD_error (R := R) h1 hn (k := k) (by simpa using hk)
    simpa [lineD, line] using this
  | succ l ih =>
    rw [pow_succ, ← Nat.mul_assoc] at hk
    have ha := ih (k := k / 2) (by omega)
    have hb := ih (k := k / 2 + k % 2) (by omega)
    have h := midD_error (lineD n l (k / 2) : Dbl R) (lineD n l (k / 2 + k % 2)) (lineD_abs h1 hn (by omega)) (lineD_abs h1 hn (by omega))
    have e : (lineD n (l + 1) k : Dbl R) = midD (lineD n l (k / 2)) (lineD n l (k / 2 + k % 2)) := rfl
    rw [e]
    have hk2 : ((k / 2 : Nat) : ℝ) + ((k / 2 + k % 2 : Nat) : ℝ) = k := by
      rw [← Nat.cast_add]; congr 1; omega
    have e2 : -1 + 2 * (k : ℝ) / (n * 2 ^ (l + 1)) =
        ((-1 + 2 * ((k / 2 : Nat) : ℝ) / (n * 2 ^ l)) + (-1 + 2 * ((k / 2 + k % 2 : Nat) : ℝ) / (n * 2 ^ l))) / 2 := by
      rw [← hk2, pow_succ]
      field_simp
      ring
    rw [e2]
    generalize (lineD n l (k / 2) : Dbl R) = u at *
    generalize (lineD n l (k / 2 + k % 2) : Dbl R) = v at *
    generalize -1 + 2 * ((k / 2 : Nat) : ℝ) / (n * 2 ^ l) = x at *
    generalize -1 + 2 * ((k / 2 + k % 2 : Nat) : ℝ) / (n * 2 ^ l) = y at *
    have e3 : ((l + 1 : Nat) + 2 : ℝ) / 2 ^ 52 = (l + 2) / 2 ^ 52 + 1 / 2 ^ 52 := by push_cast; ring
    rw [e3]
    rw [abs_le] at ha hb h ⊢
    constructor <;> linarith [ha.1, hb.1, h.1, ha.2, hb.2, h.2]

theorem lineD_strict {n l k k' : Nat} (h1 : 1 ≤ n) (hn : n < 2 ^ 31) (hl : l ≤ 30) (h46 : n * 2 ^ l ≤ 2 ^ 46) (h : k < k')
    (hk : k' ≤ n * 2 ^ l) : (lineD n l k : Dbl R) < lineD n l k' := by
  refine lt_of_lt_of_le (b := lineD n l (k + 1)) ?_ (lineD_mono hn h hk)
  rw [lt_def]
  have a := lineD_error (R := R) h1 hn (l := l) (k := k) (by omega)
  have b := lineD_error (R := R) h1 hn (l := l) (k := k + 1) (by omega)
  have hp : (0 : ℝ) < n * 2 ^ l := by have : (0 : ℝ) < n := by exact_mod_cast h1
                                      positivity
  have h46' : (n : ℝ) * 2 ^ l ≤ 2 ^ 46 := by exact_mod_cast h46
  have gap : (2 : ℝ) / 2 ^ 46 ≤ 2 / (n * 2 ^ l) := by gcongr
  have e : 2 * ((k + 1 : Nat) : ℝ) / (n * 2 ^ l) = 2 * k / (n * 2 ^ l) + 2 / (n * 2 ^ l) := by push_cast; ring
  rw [e] at b
  have hl' : ((l : ℝ) + 2) / 2 ^ 52 ≤ 32 / 2 ^ 52 := by
    have : (l : ℝ) ≤ 30 := by exact_mod_cast hl
    gcongr
    linarith
  rw [abs_le] at a b
  have : (2 : ℝ) / 2 ^ 46 = 2 * (64 / 2 ^ 52) := by norm_num
  have p : (0 : ℝ) < 1 / 2 ^ 52 := by norm_num
  linarith [a.2, b.1, show (64 : ℝ) / 2 ^ 52 = 64 * (1 / 2 ^ 52) by norm_num, show (32 : ℝ) / 2 ^ 52 = 32 * (1 / 2 ^ 52) by norm_num]

theorem rootBlock_lines (R : Rounding) {nx ny : Nat} (hc : (nx + 1) * (ny + 1) < 2 ^ 31) :
    ∃ b, rootBlockDouble R nx ny = .ok b ∧ OnLines midD (rootD nx) (rootD ny) nx ny Index.root b := by
  have hs := shape_pos nx ny
  have hcount := shape_count hc
  have hlt := lt_of_count hs hcount
  have hx' : nx + 1 < 2 ^ 31 := hlt 0
  have hy' : ny + 1 < 2 ^ 31 := hlt 1
  have ex : w (nx + 1) = nx + 1 := w_eq (by omega)
  have ey : w (ny + 1) = ny + 1 := w_eq (by omega)
  have exs : wsub (nx + 1) 1 = nx := wsub_eq (by omega) (by omega)
  have eys : wsub (ny + 1) 1 = ny := wsub_eq (by omega) (by omega)
  have hd : OnLines midD (rootD nx) (rootD ny) nx ny Index.root
      (cartesianProduct (linspace (Dbl.minusOne (R := R)) Dbl.one (w (nx + 1))) (linspace Dbl.minusOne Dbl.one (w (ny + 1)))) := by
    rw [ex, ey]
    refine ⟨rfl, fun p _ => ?_⟩
    simp only [cartesianProduct, linspace, Outcome.bind_ok, exs, eys, Index.root, Nat.zero_mul, Nat.zero_add, line]
    rfl
  obtain ⟨B, h1, h2⟩ := evaluate_partial _ _ _ hd (.inl fun a => hs a) hcount
  exact ⟨B, h1, h2⟩

end Verif.Tree
