import Verif.Model.Text
import Mathlib.Tactic.Ring
import Mathlib.Tactic.IntervalCases
import Mathlib.Data.List.Basic

namespace Verif.Text
open Verif

theorem digitChar_toNat {d : Nat} (h : d < 10) : (digitChar d).toNat = 48 + d := by
  unfold digitChar; interval_cases d <;> rfl

theorem digitChar_isDigit {d : Nat} (h : d < 10) : isDigit (digitChar d) = true := by
  unfold isDigit; rw [digitChar_toNat h]; simp; omega

theorem showNat_lt {n : Nat} (h : n < 10) : showNat n = [digitChar n] := by
  rw [showNat, if_pos h]

theorem showNat_ge {n : Nat} (h : 10 ≤ n) : showNat n = showNat (n / 10) ++ [digitChar (n % 10)] := by
  rw [showNat, if_neg (by omega)]

theorem showNat_digits (n : Nat) : ∀ c ∈ showNat n, isDigit c = true := by
  induction n using Nat.strongRecOn with
  | ind n ih =>
    by_cases h : n < 10
    · rw [showNat_lt h]; simp [digitChar_isDigit h]
    · rw [showNat_ge (by omega)]
      intro c hc
      rw [List.mem_append, List.mem_singleton] at hc
      rcases hc with hc | rfl
      · exact ih (n / 10) (by omega) c hc
      · exact digitChar_isDigit (by omega)

theorem showNat_ne_nil (n : Nat) : showNat n ≠ [] := by
  by_cases h : n < 10
  · rw [showNat_lt h]; simp
  · rw [showNat_ge (by omega)]; simp

theorem digitsVal_append (s t : Str) :
    digitsVal (s ++ t) = t.foldl (fun v c => 10 * v + (c.toNat - 48)) (digitsVal s) := by
  unfold digitsVal; rw [List.foldl_append]

theorem digitsVal_showNat (n : Nat) : digitsVal (showNat n) = n := by
  induction n using Nat.strongRecOn with
  | ind n ih =>
    by_cases h : n < 10
    · rw [showNat_lt h]; simp [digitsVal, digitChar_toNat h]
    · rw [showNat_ge (by omega), digitsVal_append, ih (n / 10) (by omega)]
      simp only [List.foldl_cons, List.foldl_nil, digitChar_toNat (show n % 10 < 10 by omega)]
      omega

theorem digitsVal_zeros (k : Nat) (s : Str) : digitsVal (List.replicate k '0' ++ s) = digitsVal s := by
  induction k with
  | zero => simp
  | succ k ih =>
    rw [List.replicate_succ, List.cons_append]
    unfold digitsVal at *
    rw [List.foldl_cons, ← ih]
    rfl

theorem pad_digits (w n : Nat) : ∀ c ∈ pad w (showNat n), isDigit c = true := by
  intro c hc
  unfold pad at hc
  rw [List.mem_append] at hc
  rcases hc with hc | hc
  · rw [List.eq_of_mem_replicate hc]; rfl
  · exact showNat_digits n c hc

theorem pad_ne_nil (w n : Nat) : pad w (showNat n) ≠ [] := by
  unfold pad; simp [showNat_ne_nil]

theorem digitsVal_pad (w n : Nat) : digitsVal (pad w (showNat n)) = n := by
  unfold pad; rw [digitsVal_zeros, digitsVal_showNat]

theorem pad_inj {w n m : Nat} (h : pad w (showNat n) = pad w (showNat m)) : n = m := by
  rw [← digitsVal_pad w n, h, digitsVal_pad]

theorem isDigit_not_space {c : Char} (h : isDigit c = true) : isSpace c = false := by
  unfold isDigit at h
  unfold isSpace
  simp only [Bool.and_eq_true, decide_eq_true_eq] at h
  have h1 : (c == ' ') = false := by
    rw [beq_eq_false_iff_ne]
    rintro rfl
    exact absurd h.1 (by decide)
  rw [h1]
  simp; omega

theorem isDigit_ne {c d : Char} (h : isDigit c = true) (hd : isDigit d = false) : c ≠ d := by
  rintro rfl; rw [h] at hd; cases hd

theorem takeWhile_all {p : Char → Bool} {s : Str} (h : ∀ c ∈ s, p c = true) : s.takeWhile p = s := by
  induction s with
  | nil => rfl
  | cons c s ih =>
    rw [List.takeWhile_cons, h c (by simp), if_pos rfl, ih fun d hd => h d (by simp [hd])]

theorem stoi_digits {s : Str} (hd : ∀ c ∈ s, isDigit c = true) (hn : s ≠ []) (hv : digitsVal s < 2 ^ 31) :
    stoi s = .ok (digitsVal s : Int) := by
  cases s with
  | nil => exact absurd rfl hn
  | cons c r =>
    have hc := hd c (by simp)
    unfold stoi
    have e1 : (c :: r).dropWhile isSpace = c :: r := by
      rw [List.dropWhile_cons, isDigit_not_space hc]; rfl
    rw [e1]
    have e2 : splitSign (c :: r) = (false, c :: r) := by
      unfold splitSign
      split
      · rename_i h; injection h with h _; exact absurd h (isDigit_ne hc (by decide))
      · rename_i h; injection h with h _; exact absurd h (isDigit_ne hc (by decide))
      · rfl
    simp only [e2]
    rw [takeWhile_all hd, if_neg (by simp)]
    simp only [Bool.false_eq_true, if_false]
    rw [if_neg]
    push Not
    constructor <;> omega

/-- Splitting at a separator. -/
theorem before_append {c : Char} {s t : Str} (h : c ∉ s) : before c (s ++ c :: t) = s := by
  unfold before
  induction s with
  | nil => simp
  | cons d s ih =>
    simp only [List.mem_cons, not_or] at h
    have hd : d ≠ c := fun e => h.1 e.symm
    simp only [List.cons_append, List.takeWhile_cons]
    simp [hd]
    simpa using ih h.2

theorem before_not_mem {c : Char} {s : Str} (h : c ∉ s) : before c s = s := by
  unfold before
  apply takeWhile_all
  intro d hd
  simp only [decide_eq_true_eq]
  rintro rfl; exact h hd

theorem erase_append {c : Char} {s t : Str} (h : c ∉ s) : eraseThrough c (s ++ c :: t) = t := by
  unfold eraseThrough
  rw [if_pos (by simp)]
  induction s with
  | nil => simp
  | cons d s ih =>
    simp only [List.mem_cons, not_or] at h
    have hd : d ≠ c := fun e => h.1 e.symm
    simp only [List.cons_append, List.dropWhile_cons]
    simp [hd]
    simpa using ih h.2

theorem erase_not_mem {c : Char} {s : Str} (h : c ∉ s) : eraseThrough c s = s := by
  unfold eraseThrough; rw [if_neg h]

theorem not_mem_digits {c : Char} {s : Str} (hd : ∀ d ∈ s, isDigit d = true) (hc : isDigit c = false) :
    c ∉ s := fun h => absurd (hd c h) (by rw [hc]; simp)

/-- The number of digits of a number below a power of ten. -/
theorem showNat_length_le {n k : Nat} (hk : 0 < k) (h : n < 10 ^ k) : (showNat n).length ≤ k := by
  induction k generalizing n with
  | zero => omega
  | succ k ih =>
    by_cases hn : n < 10
    · rw [showNat_lt hn]; simp
    · rw [showNat_ge (by omega), List.length_append, List.length_singleton]
      have : (showNat (n / 10)).length ≤ k := by
        rcases Nat.eq_zero_or_pos k with rfl | hk'
        · simp at h; omega
        · apply ih hk'
          rw [Nat.pow_succ] at h
          omega
      omega

theorem showNat_length_gt {n k : Nat} (h : 10 ^ k ≤ n) : k < (showNat n).length := by
  induction k generalizing n with
  | zero =>
    rw [List.length_pos_iff]; exact showNat_ne_nil n
  | succ k ih =>
    have h10 : 10 ≤ n := by
      have : 10 ^ 1 ≤ 10 ^ (k + 1) := Nat.pow_le_pow_right (by norm_num) (by omega)
      omega
    rw [showNat_ge h10, List.length_append, List.length_singleton]
    have : 10 ^ k ≤ n / 10 := by
      rw [Nat.le_div_iff_mul_le (by norm_num), ← Nat.pow_succ]; exact h
    have := ih this
    omega

end Verif.Text
