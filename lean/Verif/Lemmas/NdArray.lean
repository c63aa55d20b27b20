import Verif.Spec.NdArray
import Mathlib.Tactic.Ring
import Mathlib.Tactic.Push
import Mathlib.Tactic.ByContra
import Mathlib.Tactic.NormNum.DivMod
import Mathlib.Tactic.NormNum.Basic
import Mathlib.Algebra.Order.BigOperators.Ring.Finset

/-!
# Lemmas about N-dimensional arrays: volume, offsets, iteration
-/

namespace Verif.Nd
open Verif

variable {R : Nat} {α β γ : Type}

theorem w_eq {n : Nat} (h : n < 2 ^ 64) : w n = n := Nat.mod_eq_of_lt h

theorem wsub_eq {a b : Nat} (h : b ≤ a) (ha : a < 2 ^ 64) : wsub a b = a - b := by
  unfold wsub; omega

theorem ofInt_nat {n : Nat} (h : n < 2 ^ 64) : ofInt n = n := by unfold ofInt; omega

theorem bmod_congr {a b : Int} {m : Nat} (h : a % m = b % m) : Int.bmod a m = Int.bmod b m := by
  unfold Int.bmod; rw [h]

theorem volume_step (acc : Int) (n : Nat) : toInt32 (w (ofInt acc * n)) = Int.bmod (acc * n) 4294967296 := by
  unfold toInt32 w ofInt
  apply bmod_congr
  have h0 : (0 : Int) ≤ acc % 2 ^ 64 := Int.emod_nonneg _ (by norm_num)
  rw [Int.natCast_mod, Int.natCast_mul, Int.toNat_of_nonneg h0]
  have h1 : ((4294967296 : Nat) : Int) = 2 ^ 32 := by norm_num
  have h2 : ((2 ^ 64 : Nat) : Int) = 2 ^ 64 := by norm_num
  rw [h1, h2, Int.emod_emod_of_dvd _ (by norm_num), Int.mul_emod, Int.emod_emod_of_dvd _ (by norm_num),
    ← Int.mul_emod]

theorem bmod_fold (step : Int → Nat → Int) (m : Nat) (hstep : ∀ a n, step a n = Int.bmod (a * n) m)
    (l : List Nat) (acc : Int) :
    Int.bmod (l.foldl step acc) m = Int.bmod (acc * (l.prod : Nat)) m ∧
      (l ≠ [] → l.foldl step acc = Int.bmod (l.foldl step acc) m) := by
  induction l generalizing acc with
  | nil => simp
  | cons n l ih =>
    obtain ⟨h1, h2⟩ := ih (step acc n)
    rw [List.foldl_cons]
    refine ⟨?_, ?_⟩
    · rw [h1, hstep, Int.bmod_mul_bmod, List.prod_cons, Int.natCast_mul, mul_assoc]
    · intro _
      by_cases hl : l = []
      · subst hl
        rw [List.foldl_nil, hstep, Int.bmod_bmod]
      · exact h2 hl

/-- The volume is the number of indexes reduced to 32 bits with sign. -/
theorem volume_eq (s : Ix R) : volume s = ofInt (Int.bmod (count s : Nat) 4294967296) := by
  unfold volume
  obtain ⟨h1, h2⟩ := bmod_fold (fun acc n => toInt32 (w (ofInt acc * n))) 4294967296 volume_step (List.ofFn s) 1
  rw [one_mul, List.prod_ofFn] at h1
  by_cases hl : List.ofFn s = []
  · have hR : R = 0 := by simpa using congrArg List.length hl
    subst hR
    simp [count]
  · rw [h2 hl, h1]; rfl

theorem volume_small {s : Ix R} (h : count s < 2 ^ 31) : volume s = count s := by
  rw [volume_eq]
  have : Int.bmod (count s : Nat) 4294967296 = (count s : Nat) := by
    unfold Int.bmod; simp only; omega
  rw [this, ofInt_nat (by omega)]

theorem count_succ (s : Ix (R + 1)) : count s = s 0 * count (Fin.tail s) := Fin.prod_univ_succ s

theorem count_pos {s : Ix R} : 0 < count s ↔ ∀ a, 0 < s a := by
  unfold count
  constructor
  · intro h a
    by_contra hn
    have : s a = 0 := by omega
    rw [Finset.prod_eq_zero (Finset.mem_univ a) this] at h
    omega
  · intro h
    exact Finset.prod_pos fun a _ => h a

theorem inShape_pos {s i : Ix R} (h : InShape s i) : 0 < count s :=
  count_pos.2 fun a => by have := h a; omega

theorem inShape_cons {s : Ix (R + 1)} {i : Ix (R + 1)} :
    InShape s i ↔ i 0 < s 0 ∧ InShape (Fin.tail s) (Fin.tail i) := by
  unfold InShape
  rw [Fin.forall_fin_succ]
  rfl

theorem contains_eq {s i : Ix R} : contains s i = true ↔ InShape s i := by
  unfold contains InShape; simp

/-- The row-major offset. -/
def off : {R : Nat} → Ix R → Ix R → Nat
  | 0, _, _ => 0
  | _ + 1, s, i => i 0 * count (Fin.tail s) + off (Fin.tail s) (Fin.tail i)

theorem off_lt (s i : Ix R) (h : InShape s i) : off s i < count s := by
  induction R with
  | zero => simp [off, count]
  | succ R ih =>
    obtain ⟨h0, ht⟩ := inShape_cons.1 h
    have := ih _ _ ht
    rw [count_succ]
    unfold off
    calc i 0 * count (Fin.tail s) + off (Fin.tail s) (Fin.tail i)
        < i 0 * count (Fin.tail s) + count (Fin.tail s) := by omega
      _ = (i 0 + 1) * count (Fin.tail s) := by ring
      _ ≤ s 0 * count (Fin.tail s) := Nat.mul_le_mul_right _ h0

theorem off_inj (s i j : Ix R) (hi : InShape s i) (hj : InShape s j) (h : off s i = off s j) : i = j := by
  induction R with
  | zero => funext a; exact a.elim0
  | succ R ih =>
    obtain ⟨_, hi'⟩ := inShape_cons.1 hi
    obtain ⟨_, hj'⟩ := inShape_cons.1 hj
    have li := off_lt _ _ hi'
    have lj := off_lt _ _ hj'
    unfold off at h
    have hc : 0 < count (Fin.tail s) := by omega
    have h0 : i 0 = j 0 := by
      have := congrArg (· / count (Fin.tail s)) h
      simp only [mul_comm (i 0), mul_comm (j 0), Nat.mul_add_div hc, Nat.div_eq_of_lt li,
        Nat.div_eq_of_lt lj] at this
      omega
    have ht : Fin.tail i = Fin.tail j := ih _ _ _ hi' hj' (by rw [h0] at h; omega)
    rw [← Fin.cons_self_tail i, ← Fin.cons_self_tail j, h0, ht]

theorem off_surj (s : Ix R) (n : Nat) (h : n < count s) : ∃ i, InShape s i ∧ off s i = n := by
  induction R generalizing n with
  | zero =>
    have : n = 0 := by simpa [count] using h
    exact ⟨Fin.elim0, fun a => a.elim0, by rw [this]; rfl⟩
  | succ R ih =>
    rw [count_succ] at h
    have hc : 0 < count (Fin.tail s) := by
      by_contra hn
      have : count (Fin.tail s) = 0 := by omega
      rw [this] at h; omega
    obtain ⟨i, hi, ho⟩ := ih (Fin.tail s) (n % count (Fin.tail s)) (Nat.mod_lt _ hc)
    refine ⟨Fin.cons (n / count (Fin.tail s)) i, inShape_cons.2 ⟨?_, by simpa using hi⟩, ?_⟩
    · simp only [Fin.cons_zero]
      rw [Nat.div_lt_iff_lt_mul hc]; exact h
    · unfold off
      simp only [Fin.cons_zero, Fin.tail_cons]
      rw [ho, mul_comm, Nat.div_add_mod]

theorem strides_zero (s : Ix (R + 1)) (h : ∀ a, 0 < s a) (hc : count s < 2 ^ 64) :
    strides s 0 = count (Fin.tail s) := by
  induction R with
  | zero => simp [strides, count]
  | succ R ih =>
    have hs : count (Fin.tail s) < 2 ^ 64 := by
      rw [count_succ] at hc
      exact lt_of_le_of_lt (Nat.le_mul_of_pos_left _ (h 0)) hc
    simp only [strides, Fin.cons_zero]
    rw [ih (Fin.tail s) (fun a => h _) hs, count_succ (Fin.tail s), mul_comm]
    exact w_eq (by rw [count_succ (Fin.tail s)] at hs; exact hs)

theorem strides_tail (s : Ix (R + 2)) : Fin.tail (strides s) = strides (Fin.tail s) := by
  simp [strides]

theorem offset_fold (l : List (Fin R)) (st i : Ix R) (acc : Nat) (ha : acc < 2 ^ 64) :
    l.foldl (fun acc a => w (acc + w (i a * st a))) acc = w (acc + (l.map fun a => i a * st a).sum) := by
  induction l generalizing acc with
  | nil => simp [w_eq ha]
  | cons a l ih =>
    simp only [List.foldl_cons, List.map_cons, List.sum_cons]
    rw [ih _ (show w _ < 2 ^ 64 from Nat.mod_lt _ (by norm_num))]
    unfold w; omega

theorem computeOffset_eq (st i : Ix R) : computeOffset st i = w (∑ a, i a * st a) := by
  unfold computeOffset
  rw [offset_fold _ _ _ _ (by norm_num), Nat.zero_add, ← List.sum_ofFn, List.ofFn_eq_map]

theorem sum_off (s i : Ix R) (h : InShape s i) (hc : count s < 2 ^ 64) :
    ∑ a, i a * strides s a = off s i := by
  induction R with
  | zero => simp [off]
  | succ R ih =>
    have hp : ∀ a, 0 < s a := count_pos.1 (inShape_pos h)
    have hs : count (Fin.tail s) < 2 ^ 64 := by
      rw [count_succ] at hc
      exact lt_of_le_of_lt (Nat.le_mul_of_pos_left _ (hp 0)) hc
    rw [Fin.sum_univ_succ, strides_zero s hp hc]
    unfold off
    congr 1
    cases R with
    | zero => simp [off]
    | succ R =>
      rw [← ih (Fin.tail s) (Fin.tail i) (inShape_cons.1 h).2 hs, ← strides_tail]
      rfl

theorem computeOffset_off (s i : Ix R) (h : InShape s i) (hc : count s < 2 ^ 64) :
    computeOffset (strides s) i = off s i := by
  rw [computeOffset_eq, sum_off s i h hc]
  exact w_eq (lt_trans (off_lt s i h) hc)

/-! ### iteration -/

namespace AccessPattern

/-- The pattern without its first axis. -/
def tail (p : AccessPattern (R + 1)) : AccessPattern R :=
  ⟨Fin.tail p.start, Fin.tail p.final, Fin.tail p.jumps⟩

/-- The number of steps on an axis. -/
def len (p : AccessPattern R) (a : Fin R) : Nat := (p.final a - p.start a - 1) / p.jumps a + 1

/-- All indexes in row-major order. -/
def grid : {R : Nat} → AccessPattern R → List (Ix R)
  | 0, _ => [Fin.elim0]
  | _ + 1, p => (List.range (p.len 0)).flatMap fun k =>
      (grid p.tail).map (Fin.cons (p.start 0 + k * p.jumps 0))

/-- The successor of an index. -/
def succ : {R : Nat} → AccessPattern R → Ix R → Option (Ix R)
  | 0, _, _ => none
  | _ + 1, p, i =>
    match succ p.tail (Fin.tail i) with
    | some t => some (Fin.cons (i 0) t)
    | none => if i 0 + p.jumps 0 < p.final 0 then some (Fin.cons (i 0 + p.jumps 0) (Fin.tail p.start)) else none

/-- The state of the index when the loop arrives at axis `n`. -/
def stateAt (p : AccessPattern R) (i : Ix R) (n : Nat) : Ix R := fun a =>
  if (a : Nat) < n then i a else if (a : Nat) = n then i a + p.jumps a else p.start a

theorem advanceFrom_zero (p : AccessPattern (R + 1)) (i : Ix (R + 1)) :
    p.advanceFrom 0 (p.stateAt i 0) = if i 0 + p.jumps 0 < p.final 0 then some (p.stateAt i 0) else none := by
  have v : p.stateAt i 0 0 = i 0 + p.jumps 0 := by simp [stateAt]
  simp only [advanceFrom]
  by_cases h : i 0 + p.jumps 0 < p.final 0
  · rw [if_pos h, if_neg (by omega)]
  · rw [if_neg h, if_pos (by omega)]

theorem advanceFrom_succ (p : AccessPattern (R + 1)) (i : Ix (R + 1)) (hi : ∀ a, i a + p.jumps a < 2 ^ 64)
    (n : Nat) (hn : n < R) :
    p.advanceFrom (n + 1) (p.stateAt i (n + 1)) =
      if i ⟨n + 1, by omega⟩ + p.jumps ⟨n + 1, by omega⟩ < p.final ⟨n + 1, by omega⟩ then
        some (p.stateAt i (n + 1)) else p.advanceFrom n (p.stateAt i n) := by
  have e1 : Fin.ofNat (R + 1) (n + 1) = ⟨n + 1, by omega⟩ := Fin.ext (Nat.mod_eq_of_lt (by omega))
  have e0 : Fin.ofNat (R + 1) n = ⟨n, by omega⟩ := Fin.ext (Nat.mod_eq_of_lt (by omega))
  simp only [advanceFrom, e1, e0]
  have v : p.stateAt i (n + 1) ⟨n + 1, by omega⟩ = i ⟨n + 1, by omega⟩ + p.jumps ⟨n + 1, by omega⟩ := by
    simp [stateAt]
  rw [v]
  by_cases h : i ⟨n + 1, by omega⟩ + p.jumps ⟨n + 1, by omega⟩ < p.final ⟨n + 1, by omega⟩
  · rw [if_pos h, if_neg (by omega)]
  · rw [if_neg h, if_pos (by omega)]
    congr 1
    funext a
    simp only [Function.update_apply, Fin.ext_iff, stateAt]
    by_cases h1 : (a : Nat) = n
    · have ha : a = ⟨n, by omega⟩ := Fin.ext h1
      rw [ha]
      simp
      exact w_eq (hi _)
    · by_cases h2 : (a : Nat) = n + 1
      · have ha : a = ⟨n + 1, by omega⟩ := Fin.ext h2
        rw [ha]; simp
      · have e : ((a : Nat) < n + 1) ↔ ((a : Nat) < n) := by omega
        simp [h1, h2, e]

theorem succ_eq (p : AccessPattern (R + 1)) (i : Ix (R + 1)) (hi : ∀ a, i a + p.jumps a < 2 ^ 64) :
    p.advanceFrom R (p.stateAt i R) = p.succ i := by
  induction R with
  | zero =>
    rw [advanceFrom_zero]
    simp only [succ]
    by_cases h : i 0 + p.jumps 0 < p.final 0
    · rw [if_pos h, if_pos h]
      congr 1
      funext a
      obtain rfl : a = 0 := by omega
      simp [stateAt]
    · rw [if_neg h, if_neg h]
  | succ R ih =>
    -- loop on the tail
    have key : ∀ n, n ≤ R → p.advanceFrom (n + 1) (p.stateAt i (n + 1)) =
        match p.tail.advanceFrom n (p.tail.stateAt (Fin.tail i) n) with
        | some t => some (Fin.cons (i 0) t)
        | none => p.advanceFrom 0 (p.stateAt i 0) := by
      have hst : ∀ n, p.stateAt i (n + 1) = Fin.cons (i 0) (p.tail.stateAt (Fin.tail i) n) := by
        intro n
        funext a
        refine Fin.cases ?_ (fun a => ?_) a
        · simp [stateAt]
        · simp [stateAt, tail, Fin.tail]
      intro n
      induction n with
      | zero =>
        intro _
        rw [advanceFrom_succ p i hi 0 (by omega), advanceFrom_zero p, advanceFrom_zero p.tail]
        have e : (Fin.tail i 0 + p.tail.jumps 0 < p.tail.final 0) ↔
          (i ⟨0 + 1, by omega⟩ + p.jumps ⟨0 + 1, by omega⟩ < p.final ⟨0 + 1, by omega⟩) := Iff.rfl
        by_cases h : i ⟨0 + 1, by omega⟩ + p.jumps ⟨0 + 1, by omega⟩ < p.final ⟨0 + 1, by omega⟩
        · rw [if_pos h, hst, if_pos (e.2 h)]
        · rw [if_neg h, if_neg (fun h' => h (e.1 h'))]
      | succ n ihn =>
        intro hn
        rw [advanceFrom_succ p i hi (n + 1) (by omega), advanceFrom_succ p.tail (Fin.tail i) (fun a => hi _) n (by omega)]
        have e : (Fin.tail i ⟨n + 1, by omega⟩ + p.tail.jumps ⟨n + 1, by omega⟩ < p.tail.final ⟨n + 1, by omega⟩) ↔
          (i ⟨n + 1 + 1, by omega⟩ + p.jumps ⟨n + 1 + 1, by omega⟩ < p.final ⟨n + 1 + 1, by omega⟩) := Iff.rfl
        by_cases h : i ⟨n + 1 + 1, by omega⟩ + p.jumps ⟨n + 1 + 1, by omega⟩ < p.final ⟨n + 1 + 1, by omega⟩
        · rw [if_pos h, if_pos (e.2 h), hst]
        · rw [if_neg h, if_neg (fun h' => h (e.1 h')), ihn (by omega)]
    rw [key R le_rfl, ih p.tail (Fin.tail i) (fun a => hi _)]
    conv_rhs => rw [succ]
    cases p.tail.succ (Fin.tail i) with
    | some t => rfl
    | none =>
      simp only
      rw [advanceFrom_zero]
      by_cases h : i 0 + p.jumps 0 < p.final 0
      · rw [if_pos h, if_pos h]
        congr 1
        funext a
        refine Fin.cases ?_ (fun a => ?_) a
        · simp [stateAt]
        · simp [stateAt, Fin.tail]
      · rw [if_neg h, if_neg h]

theorem advance_eq (p : AccessPattern (R + 1)) (i : Ix (R + 1)) (hi : ∀ a, i a + p.jumps a < 2 ^ 64) :
    p.advance i = (p.succ i).getD p.final := by
  unfold advance
  rw [← succ_eq p i hi]
  congr 2
  funext a
  rw [Function.update_apply]
  by_cases h : a = Fin.last R
  · subst h; simp [stateAt, w_eq (hi _)]
  · rw [if_neg h]
    have : (a : Nat) < R := by
      have := a.2
      have : (a : Nat) ≠ R := fun e => h (Fin.ext e)
      omega
    simp [stateAt, this]

end AccessPattern
end Verif.Nd
