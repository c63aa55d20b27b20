import Verif.Model.Tree
import Mathlib.Data.Set.Card
import Mathlib.Data.Fintype.Card
import Mathlib.Data.Int.ModEq
import Mathlib.Data.Int.Interval
import Mathlib.Data.Nat.Bitwise
import Mathlib.Tactic.Ring
import Mathlib.Tactic.Linarith
import Mathlib.Tactic.NormNum

/-!
# C14: the space-filling curve
-/

namespace Verif.Tree

/-- What the loop adds is not negative, and at most four times the square of `s`. -/
theorem hilbertLoop_bounds (n : Int) (fuel s : Nat) (x y d : Int) :
    d ≤ hilbertLoop n fuel s x y d ∧ hilbertLoop n fuel s x y d ≤ d + 4 * (s * s : Nat) := by
  induction fuel generalizing s x y d with
  | zero => exact ⟨le_rfl, by unfold hilbertLoop; omega⟩
  | succ fuel ih =>
    rw [hilbertLoop]
    by_cases h0 : s = 0
    · rw [if_pos h0]
      exact ⟨le_rfl, by omega⟩
    · rw [if_neg h0]
      simp only []
      generalize hrx : (if (x % 4294967296).toNat &&& s > 0 then 1 else 0 : Nat) = rx
      generalize hry : (if (y % 4294967296).toNat &&& s > 0 then 1 else 0 : Nat) = ry
      have hw : (3 * rx) ^^^ ry ≤ 3 := by
        have h1 : rx = 0 ∨ rx = 1 := by rw [← hrx]; split_ifs <;> simp
        have h2 : ry = 0 ∨ ry = 1 := by rw [← hry]; split_ifs <;> simp
        rcases h1 with rfl | rfl <;> rcases h2 with rfl | rfl <;> decide
      generalize (3 * rx) ^^^ ry = w at hw
      obtain ⟨h1, h2⟩ := ih (s / 2) (hilbertRot n x y rx ry).1 (hilbertRot n x y rx ry).2 (d + s * s * (w : Nat))
      have hs : (s / 2) * (s / 2) * 4 ≤ s * s := by
        have := Nat.div_mul_le_self s 2
        calc (s / 2) * (s / 2) * 4 = (s / 2 * 2) * (s / 2 * 2) := by ring
          _ ≤ s * s := Nat.mul_le_mul this this
      have hsw : s * s * w ≤ s * s * 3 := Nat.mul_le_mul_left _ hw
      push_cast at *
      constructor
      · have : (0 : Int) ≤ s * s * w := by positivity
        linarith
      · zify at hs hsw
        push_cast at hs hsw
        linarith

theorem sq_lt_four_pow (l : Nat) (h : 1 ≤ l) : l * l + 1 < 4 ^ l := by
  induction l, h using Nat.le_induction with
  | base => norm_num
  | succ l hl ih => rw [pow_succ]; nlinarith

/-- **C14**, VIOLATION: on every level but the first there are cells that the curve does not distinguish.  (The level is passed to
the algorithm in place of the number of cells on a side, so that there are far fewer positions than cells.) -/
theorem hilbert_violated (l : Nat) (h : 1 ≤ l) :
    ∃ i j : Index 2, i ≠ j ∧ i.level = l ∧ j.level = l ∧ (∀ a, i.coords a < 2 ^ l) ∧ (∀ a, j.coords a < 2 ^ l)
      ∧ hilbertIndex i = hilbertIndex j := by
  have key : ¬ Function.Injective fun p : Fin (2 ^ l) × Fin (2 ^ l) =>
      (⟨(hilbertIndex ⟨l, ![p.1, p.2]⟩).toNat, by
        obtain ⟨h1, h2⟩ := hilbertLoop_bounds l 32 (l / 2) (p.1 : Nat) (p.2 : Nat) 0
        have hs : (l / 2) * (l / 2) * 4 ≤ l * l := by
          have := Nat.div_mul_le_self l 2
          calc (l / 2) * (l / 2) * 4 = (l / 2 * 2) * (l / 2 * 2) := by ring
            _ ≤ l * l := Nat.mul_le_mul this this
        have hle : hilbertIndex ⟨l, ![p.1, p.2]⟩ ≤ (l * l : Nat) := by
          refine le_trans h2 ?_
          zify at hs
          push_cast at hs ⊢
          linarith
        omega⟩ : Fin (l * l + 1)) := by
    intro hinj
    have := Fintype.card_le_of_injective _ hinj
    simp only [Fintype.card_prod, Fintype.card_fin] at this
    have h4 := sq_lt_four_pow l h
    have : 2 ^ l * 2 ^ l = 4 ^ l := by rw [← mul_pow]; norm_num
    omega
  rw [Function.Injective] at key
  push Not at key
  obtain ⟨p, q, he, hne⟩ := key
  refine ⟨⟨l, ![p.1, p.2]⟩, ⟨l, ![q.1, q.2]⟩, ?_, rfl, rfl, ?_, ?_, ?_⟩
  · intro hh
    apply hne
    injection hh with _ hc
    exact Prod.ext (Fin.ext (congrFun hc 0)) (Fin.ext (congrFun hc 1))
  · intro a; match a with
    | 0 => exact p.1.2
    | 1 => exact p.2.2
  · intro a; match a with
    | 0 => exact q.1.2
    | 1 => exact q.2.2
  · have h1 := (hilbertLoop_bounds l 32 (l / 2) (p.1 : Nat) (p.2 : Nat) 0).1
    have h2 := (hilbertLoop_bounds l 32 (l / 2) (q.1 : Nat) (q.2 : Nat) 0).1
    have h3 : (0 : Int) ≤ hilbertIndex ⟨l, ![p.1, p.2]⟩ := h1
    have h4 : (0 : Int) ≤ hilbertIndex ⟨l, ![q.1, q.2]⟩ := h2
    have he' := congrArg Fin.val he
    simp only at he'
    omega

/-- The bit of `x` at `2 ^ j`. -/
theorem bit_test (k j : Nat) (hk : k ≤ 15) (x : Int) (h0 : 0 ≤ x) (h1 : x < 2 ^ k) :
    (if (x % 4294967296).toNat &&& 2 ^ j > 0 then 1 else 0 : Nat) = (x / 2 ^ j % 2).toNat := by
  have h2 : (2 : Int) ^ k ≤ 2 ^ 15 := pow_le_pow_right₀ (by norm_num) hk
  obtain ⟨n, rfl⟩ := Int.eq_ofNat_of_zero_le h0
  have : ((n : Int) % 4294967296).toNat = n := by
    have : (n : Int) < 2 ^ 15 := lt_of_lt_of_le h1 h2
    norm_num at this
    omega
  rw [this, Nat.and_two_pow]
  have hb : ((n : Int) / 2 ^ j % 2).toNat = n / 2 ^ j % 2 := by
    have : ((n : Int) / 2 ^ j % 2) = ((n / 2 ^ j % 2 : Nat) : Int) := by push_cast; rfl
    rw [this]; rfl
  rw [hb, Nat.testBit_eq_decide_div_mod_eq]
  have h3 : 0 < 2 ^ j := by positivity
  rcases Nat.mod_two_eq_zero_or_one (n / 2 ^ j) with h | h <;> simp [h]

/-- The loop adds to `d`. -/
theorem hilbertLoop_add (n : Int) (fuel s : Nat) (x y d : Int) :
    hilbertLoop n fuel s x y d = d + hilbertLoop n fuel s x y 0 := by
  induction fuel generalizing s x y d with
  | zero => simp [hilbertLoop]
  | succ fuel ih =>
    rw [hilbertLoop, hilbertLoop]
    by_cases h0 : s = 0
    · rw [if_pos h0, if_pos h0, add_zero]
    · rw [if_neg h0, if_neg h0]
      simp only []
      rw [ih _ _ _ (d + _), ih _ _ _ (0 + _)]
      ring

/-- Half of the side, on the way down. -/
def half : Nat → Nat
  | 0 => 0
  | j + 1 => 2 ^ j

theorem half_div (j : Nat) : half (j + 1) / 2 = half j := by
  cases j with
  | zero => rfl
  | succ j => show 2 ^ (j + 1) / 2 = 2 ^ j; rw [pow_succ]; omega

theorem rot_range (k : Nat) (x y : Int) (rx ry : Nat) (hx : 0 ≤ x ∧ x < 2 ^ k) (hy : 0 ≤ y ∧ y < 2 ^ k) :
    (0 ≤ (hilbertRot ((2 ^ k : Nat) : Int) x y rx ry).1 ∧ (hilbertRot ((2 ^ k : Nat) : Int) x y rx ry).1 < 2 ^ k) ∧
    (0 ≤ (hilbertRot ((2 ^ k : Nat) : Int) x y rx ry).2 ∧ (hilbertRot ((2 ^ k : Nat) : Int) x y rx ry).2 < 2 ^ k) := by
  unfold hilbertRot
  push_cast
  generalize (2 : Int) ^ k = N at *
  split_ifs <;> refine ⟨⟨?_, ?_⟩, ?_, ?_⟩ <;> simp only [] <;> omega

/-- With the number of cells on a side in place of the level, the loop distinguishes coordinates by their last `j` bits. -/
theorem hilbertLoop_side (k : Nat) (hk : k ≤ 15) (j : Nat) (hj : j ≤ k) (fuel : Nat) (hf : j ≤ fuel) :
    (∀ x y : Int, 0 ≤ x ∧ x < 2 ^ k → 0 ≤ y ∧ y < 2 ^ k →
      0 ≤ hilbertLoop ((2 ^ k : Nat) : Int) fuel (half j) x y 0 ∧ hilbertLoop ((2 ^ k : Nat) : Int) fuel (half j) x y 0 < 4 ^ j) ∧
    (∀ x y x' y' : Int, 0 ≤ x ∧ x < 2 ^ k → 0 ≤ y ∧ y < 2 ^ k → 0 ≤ x' ∧ x' < 2 ^ k → 0 ≤ y' ∧ y' < 2 ^ k →
      hilbertLoop ((2 ^ k : Nat) : Int) fuel (half j) x y 0 = hilbertLoop ((2 ^ k : Nat) : Int) fuel (half j) x' y' 0 →
      x % 2 ^ j = x' % 2 ^ j ∧ y % 2 ^ j = y' % 2 ^ j) := by
  induction j generalizing fuel with
  | zero =>
    constructor
    · intro x y _ _
      cases fuel <;> simp [hilbertLoop, half]
    · intro x y x' y' _ _ _ _ _
      simp [Int.emod_one]
  | succ j ih =>
    obtain ⟨fuel, rfl⟩ : ∃ f, fuel = f + 1 := ⟨fuel - 1, by omega⟩
    obtain ⟨ih1, ih2⟩ := ih (by omega) fuel (by omega)
    have hne : half (j + 1) ≠ 0 := by unfold half; positivity
    have unfoldL : ∀ x y : Int, 0 ≤ x ∧ x < 2 ^ k → 0 ≤ y ∧ y < 2 ^ k →
        hilbertLoop ((2 ^ k : Nat) : Int) (fuel + 1) (half (j + 1)) x y 0 =
          4 ^ j * (((3 * (x / 2 ^ j % 2).toNat) ^^^ (y / 2 ^ j % 2).toNat : Nat) : Int) +
          hilbertLoop ((2 ^ k : Nat) : Int) fuel (half j)
            (hilbertRot ((2 ^ k : Nat) : Int) x y (x / 2 ^ j % 2).toNat (y / 2 ^ j % 2).toNat).1
            (hilbertRot ((2 ^ k : Nat) : Int) x y (x / 2 ^ j % 2).toNat (y / 2 ^ j % 2).toNat).2 0 := by
      intro x y hx hy
      have e1 := bit_test k j hk x hx.1 hx.2
      have e2 := bit_test k j hk y hy.1 hy.2
      rw [hilbertLoop, if_neg hne]
      simp only []
      rw [half_div]
      have hh : half (j + 1) = 2 ^ j := rfl
      rw [hh, e1, e2, hilbertLoop_add]
      have h4 : (4 : Int) ^ j = 2 ^ j * 2 ^ j := by rw [← mul_pow]; norm_num
      rw [h4]
      push_cast
      ring
    have bits : ∀ x : Int, (x / 2 ^ j % 2).toNat = 0 ∨ (x / 2 ^ j % 2).toNat = 1 := fun x => by omega
    have hp : (0 : Int) < 4 ^ j := by positivity
    constructor
    · intro x y hx hy
      rw [unfoldL x y hx hy]
      obtain ⟨r1, r2⟩ := rot_range k x y (x / 2 ^ j % 2).toNat (y / 2 ^ j % 2).toNat hx hy
      obtain ⟨b1, b2⟩ := ih1 _ _ r1 r2
      rw [pow_succ]
      generalize hilbertLoop _ _ _ _ _ _ = r at b1 b2
      have hw : (3 * (x / 2 ^ j % 2).toNat) ^^^ (y / 2 ^ j % 2).toNat ≤ 3 := by
        rcases bits x with h | h <;> rcases bits y with h' | h' <;> rw [h, h'] <;> decide
      generalize (3 * (x / 2 ^ j % 2).toNat) ^^^ (y / 2 ^ j % 2).toNat = w at hw
      have hw' : (w : Int) ≤ 3 := by exact_mod_cast hw
      have h1 : (0 : Int) ≤ 4 ^ j * w := by positivity
      have h2 := mul_le_mul_of_nonneg_left hw' hp.le
      constructor <;> linarith
    · intro x y x' y' hx hy hx' hy' he
      rw [unfoldL x y hx hy, unfoldL x' y' hx' hy'] at he
      obtain ⟨r1, r2⟩ := rot_range k x y (x / 2 ^ j % 2).toNat (y / 2 ^ j % 2).toNat hx hy
      obtain ⟨r1', r2'⟩ := rot_range k x' y' (x' / 2 ^ j % 2).toNat (y' / 2 ^ j % 2).toNat hx' hy'
      obtain ⟨b1, b2⟩ := ih1 _ _ r1 r2
      obtain ⟨b1', b2'⟩ := ih1 _ _ r1' r2'
      have i2 := ih2 _ _ _ _ r1 r2 r1' r2'
      -- the digits agree
      have hdig : ∀ (a b : Nat) (r s : Int), 0 ≤ r → r < 4 ^ j → 0 ≤ s → s < 4 ^ j → 4 ^ j * (a : Int) + r = 4 ^ j * (b : Int) + s →
          a = b ∧ r = s := by
        intro a b r s h1 h2 h3 h4 h5
        have ha : (a : Int) = b := by
          have e1 : (4 ^ j * (a : Int) + r) / 4 ^ j = a := by
            rw [Int.add_comm, Int.add_mul_ediv_left _ _ hp.ne', Int.ediv_eq_zero_of_lt h1 h2, zero_add]
          have e2 : (4 ^ j * (b : Int) + s) / 4 ^ j = b := by
            rw [Int.add_comm, Int.add_mul_ediv_left _ _ hp.ne', Int.ediv_eq_zero_of_lt h3 h4, zero_add]
          rw [← e1, h5, e2]
        refine ⟨by exact_mod_cast ha, ?_⟩
        rw [ha] at h5
        linarith
      obtain ⟨d1, d2⟩ := hdig _ _ _ _ b1 b2 b1' b2' he
      have hbx : (x / 2 ^ j % 2).toNat = (x' / 2 ^ j % 2).toNat ∧ (y / 2 ^ j % 2).toNat = (y' / 2 ^ j % 2).toNat := by
        revert d1
        rcases bits x with h | h <;> rcases bits y with h' | h' <;> rcases bits x' with h'' | h'' <;>
          rcases bits y' with h''' | h''' <;> rw [h, h', h'', h'''] <;> decide
      obtain ⟨c1, c2⟩ := i2 d2
      rw [← hbx.1, ← hbx.2] at c1 c2
      have hdvd : ((2 : Int) ^ j) ∣ ((2 ^ k : Nat) : Int) := by
        push_cast; exact pow_dvd_pow _ (by omega)
      have hsub : ∀ a b : Int, (((2 ^ k : Nat) : Int) - 1 - a) % 2 ^ j = (((2 ^ k : Nat) : Int) - 1 - b) % 2 ^ j → a % 2 ^ j = b % 2 ^ j := by
        intro a b h
        have h1 : (((2 ^ k : Nat) : Int) - 1 - a) ≡ (((2 ^ k : Nat) : Int) - 1 - b) [ZMOD 2 ^ j] := h
        have h2 := (Int.ModEq.refl (n := 2 ^ j) (((2 ^ k : Nat) : Int) - 1)).sub h1
        rwa [sub_sub_cancel, sub_sub_cancel] at h2
      have hlow : x % 2 ^ j = x' % 2 ^ j ∧ y % 2 ^ j = y' % 2 ^ j := by
        unfold hilbertRot at c1 c2
        split_ifs at c1 c2
        · exact ⟨hsub _ _ c2, hsub _ _ c1⟩
        · exact ⟨c2, c1⟩
        · exact ⟨c1, c2⟩
      have hup : ∀ a b : Int, a % 2 ^ j = b % 2 ^ j → (a / 2 ^ j % 2).toNat = (b / 2 ^ j % 2).toNat → a % 2 ^ (j + 1) = b % 2 ^ (j + 1) := by
        intro a b h1 h2
        have h3 : a / 2 ^ j % 2 = b / 2 ^ j % 2 := by omega
        have e : ∀ c : Int, c % 2 ^ (j + 1) = c % 2 ^ j + 2 ^ j * (c / 2 ^ j % 2) := by
          intro c
          rw [pow_succ]
          have h1 : c / (2 ^ j * 2) = c / 2 ^ j / 2 := (Int.ediv_ediv_of_nonneg (by positivity)).symm
          rw [Int.emod_def, Int.emod_def, Int.emod_def, h1]
          ring
        rw [e a, e b, h1, h3]
      exact ⟨hup _ _ hlow.1 hbx.1, hup _ _ hlow.2 hbx.2⟩

theorem half_side (k : Nat) : 2 ^ k / 2 = half k := by
  cases k with
  | zero => rfl
  | succ k => show 2 ^ (k + 1) / 2 = 2 ^ k; rw [pow_succ]; omega

/-- **C14**, what holds: the algorithm (`xy2d`) is right: given the number of cells on a side, `2 ^ l`, it sends the cells of
the level one to one onto the positions `0` to `4 ^ l - 1`.  (Up to level 15; above, positions overflow an `int`.) -/
theorem hilbert_partial (l : Nat) (hl : l ≤ 15) :
    Set.BijOn (fun p : Nat × Nat => xy2d (2 ^ l) p.1 p.2) {p | p.1 < 2 ^ l ∧ p.2 < 2 ^ l} {d | 0 ≤ d ∧ d < 4 ^ l} := by
  obtain ⟨h1, h2⟩ := hilbertLoop_side l hl l le_rfl 32 (by omega)
  have hr : ∀ n : Nat, n < 2 ^ l → (0 : Int) ≤ n ∧ (n : Int) < 2 ^ l := fun n h => ⟨by omega, by exact_mod_cast h⟩
  have hmaps : Set.MapsTo (fun p : Nat × Nat => xy2d (2 ^ l) p.1 p.2) {p | p.1 < 2 ^ l ∧ p.2 < 2 ^ l} {d | 0 ≤ d ∧ d < 4 ^ l} := by
    rintro ⟨x, y⟩ ⟨hx, hy⟩
    have := h1 x y (hr x hx) (hr y hy)
    simpa only [xy2d, half_side, Set.mem_setOf_eq] using this
  have hinj : Set.InjOn (fun p : Nat × Nat => xy2d (2 ^ l) p.1 p.2) {p | p.1 < 2 ^ l ∧ p.2 < 2 ^ l} := by
    rintro ⟨x, y⟩ ⟨hx, hy⟩ ⟨x', y'⟩ ⟨hx', hy'⟩ he
    simp only at hx hy hx' hy'
    have := h2 x y x' y' (hr x hx) (hr y hy) (hr x' hx') (hr y' hy') (by simpa only [xy2d, half_side] using he)
    rw [Int.emod_eq_of_lt (hr x hx).1 (hr x hx).2, Int.emod_eq_of_lt (hr x' hx').1 (hr x' hx').2,
      Int.emod_eq_of_lt (hr y hy).1 (hr y hy).2, Int.emod_eq_of_lt (hr y' hy').1 (hr y' hy').2] at this
    exact Prod.ext (by exact_mod_cast this.1) (by exact_mod_cast this.2)
  refine ⟨hmaps, hinj, ?_⟩
  have hS : ({p : Nat × Nat | p.1 < 2 ^ l ∧ p.2 < 2 ^ l}) = ((Finset.range (2 ^ l) ×ˢ Finset.range (2 ^ l) : Finset (Nat × Nat)) : Set (Nat × Nat)) := by
    ext p; simp
  have hT : ({d : Int | 0 ≤ d ∧ d < 4 ^ l}) = ((Finset.Ico (0 : Int) (4 ^ l) : Finset Int) : Set Int) := by
    ext p; simp
  rw [hS] at hmaps hinj ⊢
  rw [hT] at hmaps ⊢
  refine Finset.surjOn_of_injOn_of_card_le _ hmaps hinj ?_
  rw [Int.card_Ico, Finset.card_product, Finset.card_range]
  have : 2 ^ l * 2 ^ l = 4 ^ l := by rw [← mul_pow]; norm_num
  rw [this]
  have : ((4 : Int) ^ l - 0).toNat = 4 ^ l := by
    have : ((4 : Int) ^ l) = ((4 ^ l : Nat) : Int) := by push_cast; rfl
    rw [sub_zero, this]; rfl
  omega

example : xy2d 4 0 0 = 0 ∧ xy2d 4 1 0 = 1 ∧ xy2d 4 1 1 = 2 ∧ xy2d 4 3 0 = 15 := by decide
example : hilbertIndex ⟨2, ![0, 0]⟩ = hilbertIndex ⟨2, ![2, 0]⟩ := by decide

end Verif.Tree
