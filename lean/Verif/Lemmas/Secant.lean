import Verif.Model.Envelope
import Mathlib.Analysis.Calculus.Deriv.MeanValue
import Mathlib.Analysis.SpecificLimits.Basic
import Mathlib.Tactic.Positivity
import Mathlib.Tactic.Linarith
import Mathlib.Tactic.LinearCombination
import Mathlib.Tactic.FieldSimp

/-!
# The secant method for increasing functions between a straight line and a logarithm
-/

namespace Verif.Envelope

open Verif Verif.Loop Set

/-- What the secant method returns is a root up to the tolerance. -/
theorem solveSecant_accurate {f : ℝ → Outcome ℝ} {g1 g2 tol m : ℝ} (h : solveSecant f g1 g2 tol = .ok m) :
    ∃ y, f m = .ok y ∧ |y| ≤ tol := by
  unfold solveSecant at h
  obtain ⟨y1, h1, h⟩ := Outcome.bind_eq_ok.1 h
  obtain ⟨y2, h2, h⟩ := Outcome.bind_eq_ok.1 h
  obtain ⟨s, hs, h3⟩ := whileLoop_invariant _ (fun s : (ℝ × ℝ) × (ℝ × ℝ) => f s.2.1 = .ok s.2.2) (fun s s' hs h4 => by
    dsimp only at h4
    split_ifs at h4 with c1 c2
    · obtain ⟨y, h5, h6⟩ := Outcome.map_eq_ok.1 h4
      cases h6
      exact h5
    · cases h4) h2 h
  dsimp only at h3
  split_ifs at h3 with c1 c2
  · obtain ⟨y, h5, h6⟩ := Outcome.map_eq_ok.1 h3
    cases h6
  · cases h3
    exact ⟨_, hs, not_lt.1 c1⟩

/-- An increasing function on the positive numbers that is concave, and convex as function of the logarithm, with a root. -/
structure Bent (F : ℝ → Outcome ℝ) (f f' : ℝ → ℝ) (a : ℝ) : Prop where
  ok : ∀ x, 0 < x → F x = .ok (f x)
  deriv : ∀ x, 0 < x → HasDerivAt f (f' x) x
  pos : ∀ x, 0 < x → 0 < f' x
  concave : ∀ x y, 0 < x → x ≤ y → f' y ≤ f' x
  logConvex : ∀ x y, 0 < x → x ≤ y → x * f' x ≤ y * f' y
  root_pos : 0 < a
  root : f a = 0

namespace Bent

variable {F : ℝ → Outcome ℝ} {f f' : ℝ → ℝ} {a : ℝ}

theorem slope (h : Bent F f f' a) {x y : ℝ} (hx : 0 < x) (hxy : x < y) : ∃ z, x < z ∧ z < y ∧ f y - f x = f' z * (y - x) := by
  obtain ⟨z, hz, e⟩ := exists_hasDerivAt_eq_slope f f' hxy (fun z hz => (h.deriv z (hx.trans_le hz.1)).continuousAt.continuousWithinAt)
    (fun z hz => h.deriv z (hx.trans hz.1))
  refine ⟨z, hz.1, hz.2, ?_⟩
  rw [e]
  have : y - x ≠ 0 := by linarith
  field_simp

theorem lt (h : Bent F f f' a) {x y : ℝ} (hx : 0 < x) (hxy : x < y) : f x < f y := by
  obtain ⟨z, h1, h2, e⟩ := h.slope hx hxy
  have := mul_pos (h.pos z (hx.trans h1)) (sub_pos.2 hxy)
  linarith

/-- The next point of the secant method. -/
noncomputable def next (f : ℝ → ℝ) (x y : ℝ) : ℝ := y - f y * (y - x) / (f y - f x)

theorem next_comm {x y : ℝ} (h : f y - f x ≠ 0) : next f x y = next f y x := by
  have h' : f x - f y ≠ 0 := fun e => h (by linarith)
  unfold next
  field_simp
  have : f x - f y = -(f y - f x) := by ring
  rw [this]
  field_simp
  ring

/-- Between two points around the root: the next point is to the right of the root, and nearer to it. -/
theorem next_around (h : Bent F f f' a) {l r : ℝ} (hl : 0 < l) (hla : l ≤ a) (har : a < r) :
    a ≤ next f l r ∧ next f l r - a ≤ (1 - l / r) * (r - a) := by
  have hr : 0 < r := hl.trans_le (hla.trans har.le)
  obtain ⟨z, z1, z2, e⟩ := h.slope h.root_pos har
  rw [h.root, sub_zero] at e
  obtain ⟨w, w1, w2, e'⟩ := h.slope hl (hla.trans_lt har)
  have hw := h.pos w (hl.trans w1)
  have hz := h.pos z (h.root_pos.trans z1)
  have hd : r - l ≠ 0 := by linarith
  have hn : next f l r = r - f' z * (r - a) / f' w := by
    unfold next
    rw [e', e]
    field_simp
  have hzw : f' z ≤ f' w := by
    rcases hla.eq_or_lt with rfl | hla
    · rw [h.root, sub_zero, e] at e'
      exact (mul_right_cancel₀ (by linarith) e').le
    · obtain ⟨v, v1, v2, e2⟩ := h.slope hl hla
      rw [h.root] at e2
      have hv : f' z ≤ f' v := h.concave v z (hl.trans v1) (by linarith)
      have e3 : f' w * (r - l) = f' v * (a - l) + f' z * (r - a) := by linarith
      have : f' z * (r - l) ≤ f' w * (r - l) := by
        rw [e3]
        have := mul_le_mul_of_nonneg_right hv (sub_nonneg.2 hla.le)
        linarith
      exact le_of_mul_le_mul_right this (by linarith)
  have hratio : l / r * f' w ≤ f' z := by
    have b1 : f' w ≤ f' l := h.concave l w hl w1.le
    have b2 : f' r ≤ f' z := h.concave z r (h.root_pos.trans z1) z2.le
    have b3 := h.logConvex l r hl (hla.trans har.le)
    rw [div_mul_eq_mul_div, div_le_iff₀ hr]
    nlinarith
  have hra : 0 ≤ r - a := by linarith
  rw [hn]
  constructor
  · have : f' z * (r - a) / f' w ≤ r - a := by
      rw [div_le_iff₀ hw]
      nlinarith
    linarith
  · have : l / r * (r - a) ≤ f' z * (r - a) / f' w := by
      rw [le_div_iff₀ hw]
      nlinarith
    linarith

/-- From two points to the right of the root. -/
theorem next_right (h : Bent F f f' a) {r s : ℝ} (har : a < r) (hrs : r < s) (hs : s ≤ 2 * a) :
    next f s r ≤ a ∧ a - (r - a) ≤ next f s r := by
  have ha := h.root_pos
  have hr : 0 < r := ha.trans har
  obtain ⟨z, z1, z2, e⟩ := h.slope ha har
  rw [h.root, sub_zero] at e
  obtain ⟨w, w1, w2, e'⟩ := h.slope hr hrs
  have hw := h.pos w (hr.trans w1)
  have hz := h.pos z (ha.trans z1)
  have hd : r - s ≠ 0 := by linarith
  have hn : next f s r = r - f' z * (r - a) / f' w := by
    unfold next
    rw [show f r - f s = f' w * (r - s) by linarith, e]
    field_simp
  have hwz : f' w ≤ f' z := h.concave z w (ha.trans z1) (by linarith)
  have h2 : f' z ≤ 2 * f' w := by
    have b1 : f' z ≤ f' a := h.concave a z ha z1.le
    have b2 : f' s ≤ f' w := h.concave w s (hr.trans w1) w2.le
    have b3 := h.logConvex a s ha (by linarith)
    have hfs := h.pos s (by linarith)
    have : a * f' z ≤ a * (2 * f' w) := by nlinarith
    exact le_of_mul_le_mul_left this ha
  have hra : 0 < r - a := by linarith
  rw [hn]
  constructor
  · have : r - a ≤ f' z * (r - a) / f' w := by
      rw [le_div_iff₀ hw]
      nlinarith
    linarith
  · have : f' z * (r - a) / f' w ≤ 2 * (r - a) := by
      rw [div_le_iff₀ hw]
      nlinarith
    linarith

/-- From two points to the left of the root. -/
theorem next_left (h : Bent F f f' a) {x y : ℝ} (hx : 0 < x) (hxy : x < y) (hya : y < a) :
    next f x y ≤ a ∧ y + -f y / f' x ≤ next f x y := by
  have hy := hx.trans hxy
  obtain ⟨z, z1, z2, e⟩ := h.slope hy hya
  rw [h.root, zero_sub] at e
  obtain ⟨w, w1, w2, e'⟩ := h.slope hx hxy
  have hw := h.pos w (hx.trans w1)
  have hz := h.pos z (hy.trans z1)
  have hfx := h.pos x hx
  have hd : y - x ≠ 0 := by linarith
  have hn : next f x y = y + -f y / f' w := by
    unfold next
    rw [e']
    field_simp
    ring
  have hzw : f' z ≤ f' w := h.concave w z (hx.trans w1) (by linarith)
  have hwx : f' w ≤ f' x := h.concave x w hx w1.le
  have hneg : 0 ≤ -f y := by
    rw [e]
    exact (mul_pos hz (by linarith)).le
  rw [hn]
  constructor
  · rw [e]
    have : f' z * (a - y) / f' w ≤ a - y := by
      rw [div_le_iff₀ hw]
      nlinarith
    linarith
  · have : -f y / f' x ≤ -f y / f' w := div_le_div_of_nonneg_left hneg hw hwx
    linarith

/-- One pass of the loop. -/
noncomputable abbrev pass (F : ℝ → Outcome ℝ) (tol : ℝ) (s : (ℝ × ℝ) × (ℝ × ℝ)) : Outcome (((ℝ × ℝ) × (ℝ × ℝ)) ⊕ ℝ) :=
  open Classical in
  if tol < |s.2.2| then
    if s.2.2 - s.1.2 = 0 then .ub
    else
      let next := s.2.1 - s.2.2 * (s.2.1 - s.1.1) / (s.2.2 - s.1.2)
      (F next).map fun y => Sum.inl (s.2, next, y)
  else .ok (.inr s.2.1)

/-- The loop, started at two points, ends. -/
def Ends (F : ℝ → Outcome ℝ) (f : ℝ → ℝ) (tol x y : ℝ) : Prop := ∃ m, 0 < m ∧ whileLoop (pass F tol) ((x, f x), (y, f y)) = .ok m

theorem ends_stop {tol x y : ℝ} (hy : 0 < y) (h : |f y| ≤ tol) : Ends F f tol x y := by
  refine ⟨y, hy, ?_⟩
  rw [whileLoop_unfold]
  dsimp only [pass]
  rw [if_neg (not_lt.2 h)]

theorem ends_step (h : Bent F f f' a) {tol x y : ℝ} (hxy : f y - f x ≠ 0) (hn : 0 < next f x y) (hy : 0 < y)
    (hend : tol < |f y| → Ends F f tol y (next f x y)) : Ends F f tol x y := by
  by_cases ht : tol < |f y|
  · obtain ⟨m, hm, e⟩ := hend ht
    refine ⟨m, hm, ?_⟩
    rw [whileLoop_unfold]
    dsimp only [pass]
    rw [if_pos ht, if_neg hxy]
    have hF := h.ok _ hn
    unfold next at hF
    rw [hF, Outcome.map_ok]
    exact e
  · exact ends_stop hy (not_lt.1 ht)

/-- All points to the left of the root: every pass goes on by at least a fixed length. -/
theorem ends_left (h : Bent F f f' a) {tol x0 : ℝ} (ht : 0 < tol) (hx0 : 0 < x0) (k : ℕ) :
    ∀ x y, x0 ≤ x → x < y → y ≤ a → a - y ≤ k * (tol / f' x0) → Ends F f tol x y := by
  have hf0 := h.pos x0 hx0
  induction k with
  | zero =>
    intro x y _ h2 h3 h4
    have hy : y = a := by
      simp only [Nat.cast_zero, zero_mul] at h4
      linarith
    refine ends_stop (by linarith) ?_
    rw [hy, h.root, abs_zero]
    exact ht.le
  | succ k ih =>
    intro x y h1 h2 h3 h4
    have hx : 0 < x := hx0.trans_le h1
    rcases h3.eq_or_lt with rfl | h3
    · refine ends_stop (by linarith) ?_
      rw [h.root, abs_zero]
      exact ht.le
    · by_cases hstop : |f y| ≤ tol
      · exact ends_stop (by linarith) hstop
      obtain ⟨n1, n2⟩ := h.next_left hx h2 h3
      have hneg : f y < 0 := by
        have := h.lt (hx.trans h2) h3
        rwa [h.root] at this
      rw [abs_of_neg hneg, not_le] at hstop
      have hstep : tol / f' x0 ≤ -f y / f' x := by
        have := h.concave x0 x hx0 h1
        exact div_le_div₀ (by linarith) hstop.le (h.pos x hx) this
      have hpos : 0 < tol / f' x0 := by positivity
      refine h.ends_step (by have := h.lt hx h2; linarith) (by linarith) (by linarith) fun _ => ?_
      refine ih y (next f x y) (by linarith) (by linarith) n1 ?_
      push_cast at h4
      linarith

/-- Points around the root. -/
theorem ends_around (h : Bent F f f' a) {tol m1 : ℝ} (ht : 0 < tol) (hm1 : 0 < m1) (ha : m1 ≤ a) (k : ℕ) :
    ∀ l r, m1 / 2 ≤ l → l ≤ a → a ≤ r → r ≤ 2 * m1 → (r - a ≤ m1 / 2 ∨ m1 ≤ l) →
      f' (m1 / 2) * (r - a) ≤ (4 / 3 : ℝ) ^ k * tol → Ends F f tol l r := by
  have hh : 0 < m1 / 2 := by linarith
  have hf := h.pos _ hh
  have key : ∀ r, a < r → f r ≤ f' (m1 / 2) * (r - a) ∧ 0 < f r := by
    intro r hr
    obtain ⟨z, z1, z2, e⟩ := h.slope h.root_pos hr
    rw [h.root, sub_zero] at e
    rw [e]
    have h2 : f' z ≤ f' (m1 / 2) := h.concave _ _ hh (by linarith)
    exact ⟨mul_le_mul_of_nonneg_right h2 (by linarith), mul_pos (h.pos z (h.root_pos.trans z1)) (by linarith)⟩
  have hroot : |f a| ≤ tol := by
    rw [h.root, abs_zero]
    exact ht.le
  induction k with
  | zero =>
    intro l r h1 h2 h3 h4 _ h6
    rcases h3.eq_or_lt with rfl | h3
    · exact ends_stop h.root_pos hroot
    obtain ⟨k1, k2⟩ := key r h3
    refine ends_stop (by linarith) ?_
    rw [abs_of_pos k2]
    linarith
  | succ k ih =>
    intro l r h1 h2 h3 h4 h5 h6
    have hl : 0 < l := hh.trans_le h1
    rcases h3.eq_or_lt with rfl | h3
    · exact ends_stop h.root_pos hroot
    obtain ⟨n1, n2⟩ := h.next_around hl h2 h3
    have hr : 0 < r := by linarith
    have hlr : f r - f l ≠ 0 := by
      have := h.lt hl (h2.trans_lt h3)
      linarith
    have hq : 1 / 4 ≤ l / r := by
      rw [le_div_iff₀ hr]
      linarith
    have hq2 : m1 ≤ l → 1 / 2 ≤ l / r := fun hml => by
      rw [le_div_iff₀ hr]
      linarith
    have hra : 0 < r - a := by linarith
    refine h.ends_step hlr (by linarith [h.root_pos]) hr fun _ => ?_
    -- two points to the right
    generalize next f l r = r' at n1 n2
    have hc : r' - a ≤ 3 / 4 * (r - a) := by nlinarith
    have hhalf : r' - a ≤ m1 / 2 := by
      rcases h5 with h5 | h5
      · linarith
      · have := hq2 h5
        nlinarith
    have h6' : f' (m1 / 2) * (r' - a) ≤ (4 / 3 : ℝ) ^ k * tol := by
      rw [pow_succ] at h6
      have := mul_le_mul_of_nonneg_left hc hf.le
      linarith
    rcases n1.eq_or_lt with rfl | n1
    · exact ends_stop h.root_pos hroot
    have hr' : r' < r := by linarith
    obtain ⟨p1, p2⟩ := h.next_right n1 hr' (by linarith)
    have hr'0 : 0 < r' := by linarith
    have hd2 : f r' - f r ≠ 0 := by
      have := h.lt hr'0 hr'
      linarith
    refine h.ends_step hd2 (by linarith) hr'0 fun _ => ?_
    generalize next f r r' = l' at p1 p2
    have hl' : 0 < l' := by linarith
    have hlt : l' < r' := by linarith
    have hd3 : f r' - f l' ≠ 0 := by
      have := h.lt hl' hlt
      linarith
    obtain ⟨q1, q2⟩ := h.next_around hl' p1 n1
    rw [next_comm hd3] at q1 q2
    refine h.ends_step (fun e => hd3 (by linarith)) (by linarith [h.root_pos]) hl' fun _ => ?_
    generalize next f r' l' = r'' at q1 q2
    have hr'' : r'' - a ≤ r' - a := by
      have : 0 ≤ l' / r' := by positivity
      nlinarith
    refine ih l' r'' (by linarith) p1 q1 (by linarith) (Or.inl (by linarith)) ?_
    have := mul_le_mul_of_nonneg_left hr'' hf.le
    linarith

/-- The secant method started at some point and its double ends, if the root is not to the left of them. -/
theorem solves (h : Bent F f f' a) {tol m1 : ℝ} (ht : 0 < tol) (hm1 : 0 < m1) (ha : m1 ≤ a) :
    ∃ m, 0 < m ∧ solveSecant F m1 (m1 * 2) tol = .ok m ∧ |f m| ≤ tol := by
  have hends : Ends F f tol m1 (m1 * 2) := by
    rcases le_total (m1 * 2) a with h2 | h2
    · have hf := h.pos m1 hm1
      obtain ⟨k, hk⟩ := exists_nat_ge ((a - m1 * 2) / (tol / f' m1))
      refine h.ends_left ht hm1 k m1 _ le_rfl (by linarith) h2 ?_
      rwa [div_le_iff₀ (by positivity)] at hk
    · have hf := h.pos (m1 / 2) (by linarith)
      obtain ⟨k, hk⟩ := pow_unbounded_of_one_lt (f' (m1 / 2) * (m1 * 2 - a) / tol) (show (1 : ℝ) < 4 / 3 by norm_num)
      refine h.ends_around ht hm1 ha k m1 _ (by linarith) ha h2 (by linarith) (Or.inr le_rfl) ?_
      rw [div_lt_iff₀ ht] at hk
      exact hk.le
  obtain ⟨m, hm, e⟩ := hends
  have e' : solveSecant F m1 (m1 * 2) tol = .ok m := by
    unfold solveSecant
    rw [h.ok m1 hm1, Outcome.bind_ok, h.ok (m1 * 2) (by linarith), Outcome.bind_ok]
    exact e
  obtain ⟨y, h1, h2⟩ := solveSecant_accurate e'
  rw [h.ok m hm] at h1
  cases h1
  exact ⟨m, hm, e', h2⟩

end Bent

end Verif.Envelope
