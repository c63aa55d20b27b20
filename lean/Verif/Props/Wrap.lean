import Verif.Model.Wrap
import Verif.Model.TwoBody
import Verif.Props.DoubleRuns

/-!
# C144: numbers brought into an interval
-/

namespace Verif.Wrap
open Verif Verif.Double

theorem wrap_below {α : Type} [Add α] [Sub α] [LT α] [DecidableLT α] {x0 x1 x : α} (h : x < x0) : wrap x0 x1 x = wrap x0 x1 (x + (x1 - x0)) := by
  unfold wrap
  rw [Loop.whileLoop_unfold, step, if_pos h]

theorem wrap_above {α : Type} [Add α] [Sub α] [LT α] [DecidableLT α] {x0 x1 x : α} (h0 : ¬ x < x0) (h : x1 < x) : wrap x0 x1 x = wrap x0 x1 (x - (x1 - x0)) := by
  unfold wrap
  rw [Loop.whileLoop_unfold, step, if_neg h0, if_pos h]

theorem wrap_inside {α : Type} [Add α] [Sub α] [LT α] [DecidableLT α] {x0 x1 x : α} (h0 : ¬ x < x0) (h1 : ¬ x1 < x) : wrap x0 x1 x = .ok x := by
  unfold wrap
  rw [Loop.whileLoop_unfold, step, if_neg h0, if_neg h1]

theorem diverges_of {σ ρ : Type} (f : σ → Outcome (σ ⊕ ρ)) (P : σ → Prop) (h : ∀ s, P s → ∃ s', f s = .ok (.inl s') ∧ P s') {s : σ} (hs : P s) : Loop.whileLoop f s = .diverges := by
  rw [Loop.whileLoop_diverges_iff]
  intro n
  induction n generalizing s with
  | zero => rfl
  | succ n ih =>
    obtain ⟨s', e, hs'⟩ := h s hs
    simp only [Loop.run, e]
    exact ih hs'

/-- **C144.** In exact arithmetic, for an interval that is not empty: the number returned is in the interval, and differs from the one given by a whole number of its lengths; a number of the interval is returned as it is. -/
theorem wrap_spec {x0 x1 : ℝ} (h : x0 < x1) (x : ℝ) : ∃ k : ℤ, wrap x0 x1 x = .ok (x + k * (x1 - x0)) ∧ x0 ≤ x + k * (x1 - x0) ∧ x + k * (x1 - x0) ≤ x1 ∧
    (x0 ≤ x → x ≤ x1 → k = 0) := by
  have hd : 0 < x1 - x0 := by linarith
  have up : ∀ (n : ℕ) (x : ℝ), x0 ≤ x → x - x1 ≤ n * (x1 - x0) → ∃ k : ℤ, wrap x0 x1 x = .ok (x + k * (x1 - x0)) ∧ x0 ≤ x + k * (x1 - x0) ∧ x + k * (x1 - x0) ≤ x1 := by
    intro n
    induction n with
    | zero =>
      intro x h0 h1
      rw [Nat.cast_zero, zero_mul] at h1
      exact ⟨0, by rw [wrap_inside (by linarith) (by linarith)]; simp, by simpa using h0, by simp; linarith⟩
    | succ n ih =>
      intro x h0 h1
      by_cases hx : x1 < x
      · obtain ⟨k, e, a, b⟩ := ih (x - (x1 - x0)) (by linarith) (by push_cast at h1; linarith)
        refine ⟨k - 1, ?_, ?_, ?_⟩
        · rw [wrap_above (by linarith) hx, e]
          congr 1
          push_cast
          ring
        · push_cast
          linarith
        · push_cast
          linarith
      · exact ⟨0, by rw [wrap_inside (by linarith) hx]; simp, by simpa using h0, by simp; linarith⟩
  have down : ∀ (n : ℕ) (x : ℝ), x ≤ x1 → x0 - x ≤ n * (x1 - x0) → ∃ k : ℤ, wrap x0 x1 x = .ok (x + k * (x1 - x0)) ∧ x0 ≤ x + k * (x1 - x0) ∧ x + k * (x1 - x0) ≤ x1 := by
    intro n
    induction n with
    | zero =>
      intro x h0 h1
      rw [Nat.cast_zero, zero_mul] at h1
      exact ⟨0, by rw [wrap_inside (by linarith) (by linarith)]; simp, by simp; linarith, by simpa using h0⟩
    | succ n ih =>
      intro x h0 h1
      by_cases hx : x < x0
      · obtain ⟨k, e, a, b⟩ := ih (x + (x1 - x0)) (by linarith) (by push_cast at h1; linarith)
        refine ⟨k + 1, ?_, ?_, ?_⟩
        · rw [wrap_below hx, e]
          congr 1
          push_cast
          ring
        · push_cast
          linarith
        · push_cast
          linarith
      · exact ⟨0, by rw [wrap_inside hx (by linarith)]; simp, by simp; linarith, by simpa using h0⟩
  by_cases hin : x0 ≤ x ∧ x ≤ x1
  · exact ⟨0, by rw [wrap_inside (by linarith [hin.1]) (by linarith [hin.2])]; simp, by simpa using hin.1, by simpa using hin.2, fun _ _ => rfl⟩
  · by_cases hx : x0 ≤ x
    · obtain ⟨n, hn⟩ := exists_nat_ge ((x - x1) / (x1 - x0))
      obtain ⟨k, a, b, c⟩ := up n x hx ((div_le_iff₀ hd).1 hn)
      exact ⟨k, a, b, c, fun h h' => absurd ⟨h, h'⟩ hin⟩
    · obtain ⟨n, hn⟩ := exists_nat_ge ((x0 - x) / (x1 - x0))
      obtain ⟨k, a, b, c⟩ := down n x (by linarith) ((div_le_iff₀ hd).1 hn)
      exact ⟨k, a, b, c, fun h h' => absurd ⟨h, h'⟩ hin⟩

example : wrap (0 : ℝ) 2 7 = .ok 1 := by
  obtain ⟨k, e, a, b, -⟩ := wrap_spec (x0 := 0) (x1 := 2) (by norm_num) 7
  have h1 : -4 < k := by
    have : (-4 : ℝ) < k := by linarith
    exact_mod_cast this
  have h2 : k ≤ -2 := by
    have : (k : ℝ) < -2 := by linarith
    have : k < -2 := by exact_mod_cast this
    omega
  have h3 : k ≠ -2 := by
    rintro rfl
    norm_num at b
  obtain rfl : k = -3 := by omega
  rw [e]
  norm_num

/-- **C144, violated.** Whatever it is started with, the recursion does not end if the interval is turned around; if it is a single number, it ends for this number alone. -/
theorem wrap_empty_violated (x0 x1 x : ℝ) : (x1 < x0 → wrap x0 x1 x = .diverges) ∧ (x ≠ x0 → wrap x0 x0 x = .diverges) := by
  constructor
  · intro h
    refine diverges_of _ (fun _ => True) (fun s _ => ?_) trivial
    by_cases h1 : s < x0
    · exact ⟨_, by rw [step, if_pos h1], trivial⟩
    · exact ⟨_, by rw [step, if_neg h1, if_pos (by linarith)], trivial⟩
  · intro h
    refine diverges_of _ (fun s => s ≠ x0) (fun s hs => ?_) h
    rcases lt_or_gt_of_ne hs with h1 | h1
    · exact ⟨_, by rw [step, if_pos h1], by simpa using hs⟩
    · exact ⟨_, by rw [step, if_neg (by linarith), if_pos h1], by simpa using hs⟩

/-- **C144, violated.** Numbers that differ by the length of the interval can have different results: both ends are returned as they are. -/
theorem wrap_ends_violated {x0 x1 : ℝ} (h : x0 < x1) : wrap x0 x1 x0 = .ok x0 ∧ wrap x0 x1 (x0 + (x1 - x0)) = .ok x1 := by
  refine ⟨wrap_inside (lt_irrefl _) (by linarith), ?_⟩
  rw [show x0 + (x1 - x0) = x1 by ring]
  exact wrap_inside (by linarith) (lt_irrefl _)

example : (0 : ℝ) < 2 * Real.pi := by positivity

section doubles
variable {R : Rounding}

theorem neg_double {x : ℝ} (h : IsDouble x) : IsDouble (-x) := by
  obtain ⟨m, e, a, b, rfl⟩ := h
  exact ⟨-m, e, by rwa [abs_neg], b, by push_cast; ring⟩

/-- A double does not change if a much smaller one is added or subtracted. -/
theorem absorbs {x r d : ℝ} (hx : IsDouble x) (hr : IsDouble r) (h : 2 ^ 55 * |d| ≤ |x|) (hn : |r - (x + d)| ≤ |d|) : r = x := by
  have key : ∀ {x r d : ℝ}, IsDouble x → IsDouble r → 2 ^ 55 * |d| ≤ x → |r - (x + d)| ≤ |d| → r = x := by
    intro x r d hx hr h hn
    have h1 := (abs_le.1 hn).1
    have h2 := (abs_le.1 hn).2
    have h3 := neg_abs_le d
    have h4 := le_abs_self d
    have h5 := abs_nonneg d
    rcases lt_trichotomy r x with hlt | heq | hgt
    · have := gap hr hx hlt
      rw [div_lt_iff₀ (by positivity)] at this
      norm_num at this h
      linarith
    · exact heq
    · have := gap hx hr hgt
      rw [div_lt_iff₀ (by positivity)] at this
      norm_num at this h
      linarith
  rcases le_total 0 x with h0 | h0
  · rw [abs_of_nonneg h0] at h
    exact key hx hr h hn
  · rw [abs_of_nonpos h0] at h
    have := key (x := -x) (r := -r) (d := -d) (neg_double hx) (neg_double hr) (by rwa [abs_neg]) (by
      rw [abs_neg, show -r - (-x + -d) = -(r - (x + d)) by ring, abs_neg]
      exact hn)
    linarith

theorem add_absorbs {x d : Dbl R} (h : 2 ^ 55 * |d.val| ≤ |x.val|) : x + d = x := by
  apply Dbl.ext
  rw [Dbl.add_val]
  refine absorbs x.isDouble (R.isDouble _) h ?_
  have := R.nearest (x.val + d.val) x.val x.isDouble
  rwa [show x.val - (x.val + d.val) = -d.val by ring, abs_neg] at this

theorem sub_absorbs {x d : Dbl R} (h : 2 ^ 55 * |d.val| ≤ |x.val|) : x - d = x := by
  apply Dbl.ext
  rw [Dbl.sub_val]
  refine absorbs (d := -d.val) x.isDouble (R.isDouble _) (by rwa [abs_neg]) ?_
  have := R.nearest (x.val - d.val) x.val x.isDouble
  rw [show x.val - (x.val - d.val) = d.val by ring] at this
  rwa [abs_neg, ← sub_eq_add_neg]

/-- **C144, violated.** In double precision the recursion does not end for a number outside of the interval that is 2^55 times its length. -/
theorem wrap_double_violated {x0 x1 x : Dbl R} (hx : x < x0 ∨ x1 < x) (h : 2 ^ 55 * |(x1 - x0).val| ≤ |x.val|) : wrap x0 x1 x = .diverges := by
  refine diverges_of _ (fun s => s = x) (fun s hs => ?_) rfl
  subst hs
  by_cases h0 : s < x0
  · exact ⟨_, by rw [step, if_pos h0], add_absorbs h⟩
  · exact ⟨_, by rw [step, if_neg h0, if_pos (hx.resolve_left h0)], sub_absorbs h⟩

/-- **C144, violated.** Likewise for the periods that are added to a time long before the periapse. -/
theorem catch_up_double_violated {tau P t : Dbl R} (ht : t < tau) (h : 2 ^ 55 * |P.val| ≤ |t.val|) : catchUp tau P t = .diverges := by
  refine diverges_of _ (fun s => s = t) (fun s hs => ?_) rfl
  subst hs
  exact ⟨_, if_pos ht, add_absorbs h⟩

/-- **C144, partial.** In double precision, if the length of the interval is a double: numbers up to 2^52 times the length are brought into the interval. -/
theorem wrap_double_partial {x0 x1 x : Dbl R} (hd : 0 < x1.val - x0.val) (he : IsDouble (x1.val - x0.val)) (h0 : |x0.val| ≤ 2 ^ 52 * (x1.val - x0.val))
    (h1 : |x1.val| ≤ 2 ^ 52 * (x1.val - x0.val)) (hx : |x.val| ≤ 2 ^ 52 * (x1.val - x0.val)) : ∃ r, wrap x0 x1 x = .ok r ∧ x0 ≤ r ∧ r ≤ x1 := by
  have hv : (x1 - x0).val = x1.val - x0.val := R.rnd_double he
  generalize hD : x1.val - x0.val = d at *
  have stop : ∀ {s : Dbl R}, x0 ≤ s → s ≤ x1 → ∃ r, wrap x0 x1 s = .ok r ∧ x0 ≤ r ∧ r ≤ x1 := fun a b => ⟨_, wrap_inside (not_lt.2 a) (not_lt.2 b), a, b⟩
  have up : ∀ (n : ℕ) (s : Dbl R), x0 ≤ s → |s.val| ≤ 2 ^ 52 * d → s.val - x1.val ≤ n * (d / 4) → ∃ r, wrap x0 x1 s = .ok r ∧ x0 ≤ r ∧ r ≤ x1 := by
    intro n
    induction n with
    | zero =>
      intro s a _ b
      exact stop a (by rw [Dbl.le_iff]; simp at b; linarith)
    | succ n ih =>
      intro s a c b
      by_cases hs : x1 < s
      · rw [wrap_above (not_lt.2 a) hs]
        have hs' : x1.val < s.val := hs
        have e : (s - (x1 - x0)).val = R.rnd (s.val - d) := by rw [Dbl.sub_val, hv]
        have lo : x0.val ≤ R.rnd (s.val - d) := by
          rw [← R.rnd_double x0.isDouble]
          exact R.mono (by linarith)
        have er : |R.rnd (s.val - d) - (s.val - d)| ≤ |s.val - d| / 2 ^ 53 := by
          have := R.error_sub s.isDouble he
          exact this
        have bd : |s.val - d| ≤ 2 ^ 52 * d + d := (abs_sub _ _).trans (by rw [abs_of_pos hd]; linarith)
        have er' : R.rnd (s.val - d) ≤ s.val - d + (2 ^ 52 * d + d) / 2 ^ 53 := by
          have h1 := (abs_le.1 er).2
          have h2 : |s.val - d| / 2 ^ 53 ≤ (2 ^ 52 * d + d) / 2 ^ 53 := by gcongr
          linarith
        have hi : R.rnd (s.val - d) ≤ s.val - d / 4 := by
          norm_num at er'
          linarith
        refine ih _ (by rw [Dbl.le_iff, e]; exact lo) ?_ ?_
        · rw [e, abs_le]
          have := abs_le.1 c
          have := abs_le.1 h0
          constructor <;> linarith
        · rw [e]
          push_cast at b
          linarith
      · exact stop a (not_lt.1 hs)
  have down : ∀ (n : ℕ) (s : Dbl R), s ≤ x1 → |s.val| ≤ 2 ^ 52 * d → x0.val - s.val ≤ n * (d / 4) → ∃ r, wrap x0 x1 s = .ok r ∧ x0 ≤ r ∧ r ≤ x1 := by
    intro n
    induction n with
    | zero =>
      intro s a _ b
      exact stop (by rw [Dbl.le_iff]; simp at b; linarith) a
    | succ n ih =>
      intro s a c b
      by_cases hs : s < x0
      · rw [wrap_below hs]
        have hs' : s.val < x0.val := hs
        have e : (s + (x1 - x0)).val = R.rnd (s.val + d) := by rw [Dbl.add_val, hv]
        have lo : R.rnd (s.val + d) ≤ x1.val := by
          rw [← R.rnd_double x1.isDouble]
          exact R.mono (by linarith)
        have er : |R.rnd (s.val + d) - (s.val + d)| ≤ |s.val + d| / 2 ^ 53 := R.error_add s.isDouble he
        have bd : |s.val + d| ≤ 2 ^ 52 * d + d := (abs_add_le _ _).trans (by rw [abs_of_pos hd]; linarith)
        have er' : s.val + d - (2 ^ 52 * d + d) / 2 ^ 53 ≤ R.rnd (s.val + d) := by
          have h1 := (abs_le.1 er).1
          have h2 : |s.val + d| / 2 ^ 53 ≤ (2 ^ 52 * d + d) / 2 ^ 53 := by gcongr
          linarith
        have hi : s.val + d / 4 ≤ R.rnd (s.val + d) := by
          norm_num at er'
          linarith
        refine ih _ (by rw [Dbl.le_iff, e]; exact lo) ?_ ?_
        · rw [e, abs_le]
          have := abs_le.1 c
          have := abs_le.1 h1
          constructor <;> linarith
        · rw [e]
          push_cast at b
          linarith
      · exact stop (not_lt.1 hs) a
  by_cases hs : x0 ≤ x
  · obtain ⟨n, hn⟩ := exists_nat_ge ((x.val - x1.val) / (d / 4))
    exact up n x hs hx ((div_le_iff₀ (by linarith)).1 hn)
  · have hs' : x.val < x0.val := not_le.1 hs
    obtain ⟨n, hn⟩ := exists_nat_ge ((x0.val - x.val) / (d / 4))
    exact down n x (by rw [Dbl.le_iff]; linarith) hx ((div_le_iff₀ (by linarith)).1 hn)

/-- Angles from 0 to 6.25. -/
example : ∃ x0 x1 x y : Dbl R, x0.val = 0 ∧ x1.val = 25 / 4 ∧ x.val = 100 ∧ y.val = 2 ^ 60 ∧ (∃ r, wrap x0 x1 x = .ok r ∧ x0 ≤ r ∧ r ≤ x1) ∧ wrap x0 x1 y = .diverges := by
  have q : IsDouble (25 / 4) := ⟨25, -2, by norm_num, by norm_num, by norm_num⟩
  refine ⟨0, ⟨25 / 4, q⟩, ⟨100, 100, 0, by norm_num, by norm_num, by norm_num⟩, ⟨2 ^ 60, 1, 60, by norm_num, by norm_num, by norm_num⟩, rfl, rfl, rfl, rfl, ?_, ?_⟩
  · apply wrap_double_partial
    · show (0 : ℝ) < 25 / 4 - 0
      norm_num
    · show IsDouble (25 / 4 - 0)
      rwa [sub_zero]
    · show |(0 : ℝ)| ≤ 2 ^ 52 * (25 / 4 - 0)
      norm_num
    · show |(25 / 4 : ℝ)| ≤ 2 ^ 52 * (25 / 4 - 0)
      rw [abs_of_pos (by norm_num)]
      norm_num
    · show |(100 : ℝ)| ≤ 2 ^ 52 * (25 / 4 - 0)
      rw [abs_of_pos (by norm_num)]
      norm_num
  · apply wrap_double_violated
    · right
      show (25 / 4 : ℝ) < 2 ^ 60
      norm_num
    · rw [Dbl.sub_val]
      show 2 ^ 55 * |R.rnd (25 / 4 - 0)| ≤ |(2 ^ 60 : ℝ)|
      rw [sub_zero, R.rnd_double q, abs_of_pos (by norm_num), abs_of_pos (by norm_num)]
      norm_num

/-- A time far in the past. -/
example : ∃ tau P t : Dbl R, P.val = 1 ∧ t.val = -2 ^ 55 ∧ catchUp tau P t = .diverges := by
  refine ⟨0, ⟨1, 1, 0, by norm_num, by norm_num, by norm_num⟩, ⟨-2 ^ 55, -1, 55, by norm_num, by norm_num, by norm_num⟩, rfl, rfl, ?_⟩
  apply catch_up_double_violated
  · show (-2 ^ 55 : ℝ) < 0
    norm_num
  · show 2 ^ 55 * |(1 : ℝ)| ≤ |(-2 ^ 55 : ℝ)|
    rw [abs_neg, abs_of_pos (by norm_num), abs_of_pos (by norm_num)]
    norm_num

theorem abs_double {x : ℝ} (h : IsDouble x) : IsDouble |x| := by
  rcases abs_choice x with e | e <;> rw [e]
  · exact h
  · exact neg_double h

theorem max_double {x y : ℝ} (hx : IsDouble x) (hy : IsDouble y) : IsDouble (max x y) := by
  rcases max_choice x y with e | e <;> rw [e]
  · exact hx
  · exact hy

/-- Rounding does not leave bounds that are doubles. -/
theorem rnd_abs_le {y M : ℝ} (hM : IsDouble M) (h : |y| ≤ M) : |R.rnd y| ≤ M := by
  rw [abs_le] at h ⊢
  constructor
  · rw [← R.rnd_double (neg_double hM)]
    exact R.mono h.1
  · rw [← R.rnd_double hM]
    exact R.mono h.2

/-- **C144.** How far the result in double precision is from a number that differs by whole lengths: one rounding of the largest number for each length. -/
theorem wrap_double_error {x0 x1 x r : Dbl R} (hd : 0 < x1.val - x0.val) (he : IsDouble (x1.val - x0.val)) (h : wrap x0 x1 x = .ok r) :
    ∃ k : ℤ, |r.val - (x.val + k * (x1.val - x0.val))| ≤ |(k : ℝ)| * (max |x.val| (max |x0.val| |x1.val|) / 2 ^ 53) := by
  have hv : (x1 - x0).val = x1.val - x0.val := R.rnd_double he
  set d := x1.val - x0.val with hD
  set M := max |x.val| (max |x0.val| |x1.val|) with hM
  have dM : IsDouble M := max_double (abs_double x.isDouble) (max_double (abs_double x0.isDouble) (abs_double x1.isDouble))
  have m0 : |x0.val| ≤ M := (le_max_left _ _).trans (le_max_right _ _)
  have m1 : |x1.val| ≤ M := (le_max_right _ _).trans (le_max_right _ _)
  have mx : |x.val| ≤ M := le_max_left _ _
  have between : ∀ {a b y : ℝ}, |a| ≤ M → |b| ≤ M → a ≤ y → y ≤ b → |y| ≤ M := by
    intro a b y ha hb h1 h2
    rw [abs_le] at *
    exact ⟨ha.1.trans h1, h2.trans hb.2⟩
  have dd : IsDouble d := he
  by_cases hx : x0 ≤ x
  · obtain ⟨s, ⟨p1, p2, n, p3⟩, hs⟩ := Loop.whileLoop_invariant (step x0 x1) (fun s : Dbl R => x0 ≤ s ∧ |s.val| ≤ M ∧ ∃ n : ℕ, |s.val - (x.val - n * d)| ≤ n * (M / 2 ^ 53))
      (fun s s' hp e => by
        obtain ⟨p1, p2, n, p3⟩ := hp
        unfold step at e
        rw [if_neg (not_lt.2 p1)] at e
        by_cases hc : x1 < s
        · rw [if_pos hc] at e
          injection e with e
          injection e with e
          have v : s'.val = R.rnd (s.val - d) := by rw [← e, Dbl.sub_val, hv]
          have lo : x0.val ≤ s.val - d := by
            have := (Dbl.lt_iff _ _).1 hc
            linarith
          have hb : |s.val - d| ≤ M := between m0 p2 lo (by linarith [le_abs_self s.val] : s.val - d ≤ s.val)
          refine ⟨?_, ?_, n + 1, ?_⟩
          · rw [Dbl.le_iff, v, ← R.rnd_double x0.isDouble]
            exact R.mono lo
          · rw [v]
            exact rnd_abs_le dM hb
          · have er := R.error_sub s.isDouble dd
            have er : |R.rnd (s.val - d) - (s.val - d)| ≤ M / 2 ^ 53 := er.trans (by gcongr)
            rw [v]
            have a := abs_le.1 er
            have b := abs_le.1 p3
            push_cast
            rw [abs_le]
            constructor <;> nlinarith
        · rw [if_neg hc] at e
          injection e with e
          injection e) ⟨hx, mx, 0, by simp⟩ h
    unfold step at hs
    rw [if_neg (not_lt.2 p1)] at hs
    by_cases hc : x1 < s
    · rw [if_pos hc] at hs
      injection hs with hs
      injection hs
    · rw [if_neg hc] at hs
      injection hs with hs
      injection hs with hs
      subst hs
      refine ⟨-n, ?_⟩
      rw [Int.cast_neg, Int.cast_natCast, abs_neg, abs_of_nonneg (by positivity : (0 : ℝ) ≤ n), neg_mul, ← sub_eq_add_neg]
      exact p3
  · have hx1 : x ≤ x1 := by
      rw [Dbl.le_iff] at hx ⊢
      linarith
    obtain ⟨s, ⟨p1, p2, n, p3⟩, hs⟩ := Loop.whileLoop_invariant (step x0 x1) (fun s : Dbl R => s ≤ x1 ∧ |s.val| ≤ M ∧ ∃ n : ℕ, |s.val - (x.val + n * d)| ≤ n * (M / 2 ^ 53))
      (fun s s' hp e => by
        obtain ⟨p1, p2, n, p3⟩ := hp
        unfold step at e
        by_cases hc : s < x0
        · rw [if_pos hc] at e
          injection e with e
          injection e with e
          have v : s'.val = R.rnd (s.val + d) := by rw [← e, Dbl.add_val, hv]
          have up : s.val + d ≤ x1.val := by
            have := (Dbl.lt_iff _ _).1 hc
            linarith
          have hb : |s.val + d| ≤ M := between p2 m1 (by linarith : s.val ≤ s.val + d) up
          refine ⟨?_, ?_, n + 1, ?_⟩
          · rw [Dbl.le_iff, v, ← R.rnd_double x1.isDouble]
            exact R.mono up
          · rw [v]
            exact rnd_abs_le dM hb
          · have er := R.error_add s.isDouble dd
            have er : |R.rnd (s.val + d) - (s.val + d)| ≤ M / 2 ^ 53 := er.trans (by gcongr)
            rw [v]
            have a := abs_le.1 er
            have b := abs_le.1 p3
            push_cast
            rw [abs_le]
            constructor <;> nlinarith
        · rw [if_neg hc, if_neg (not_lt.2 p1)] at e
          injection e with e
          injection e) ⟨hx1, mx, 0, by simp⟩ h
    unfold step at hs
    by_cases hc : s < x0
    · rw [if_pos hc] at hs
      injection hs with hs
      injection hs
    · rw [if_neg hc, if_neg (not_lt.2 p1)] at hs
      injection hs with hs
      injection hs with hs
      subst hs
      refine ⟨n, ?_⟩
      rw [Int.cast_natCast, abs_of_nonneg (by positivity : (0 : ℝ) ≤ n)]
      exact p3

/-- The angle 100 in the interval from 0 to 6.25: up to roundings of 100. -/
example : ∃ x0 x1 x r : Dbl R, x0.val = 0 ∧ x1.val = 25 / 4 ∧ x.val = 100 ∧ wrap x0 x1 x = .ok r ∧ ∃ k : ℤ, |r.val - (100 + k * (25 / 4))| ≤ |(k : ℝ)| * (100 / 2 ^ 53) := by
  have q : IsDouble (25 / 4) := ⟨25, -2, by norm_num, by norm_num, by norm_num⟩
  have q' : IsDouble ((⟨25 / 4, q⟩ : Dbl R).val - (0 : Dbl R).val) := by
    show IsDouble (25 / 4 - 0)
    rwa [sub_zero]
  have p : 0 < (⟨25 / 4, q⟩ : Dbl R).val - (0 : Dbl R).val := by
    show (0 : ℝ) < 25 / 4 - 0
    norm_num
  obtain ⟨r, e, -⟩ := wrap_double_partial (R := R) (x0 := 0) (x1 := ⟨25 / 4, q⟩) (x := ⟨100, 100, 0, by norm_num, by norm_num, by norm_num⟩) p q'
    (by show |(0 : ℝ)| ≤ 2 ^ 52 * (25 / 4 - 0); norm_num) (by show |(25 / 4 : ℝ)| ≤ 2 ^ 52 * (25 / 4 - 0); rw [abs_of_pos (by norm_num)]; norm_num)
    (by show |(100 : ℝ)| ≤ 2 ^ 52 * (25 / 4 - 0); rw [abs_of_pos (by norm_num)]; norm_num)
  refine ⟨0, ⟨25 / 4, q⟩, ⟨100, 100, 0, by norm_num, by norm_num, by norm_num⟩, r, rfl, rfl, rfl, e, ?_⟩
  obtain ⟨k, hk⟩ := wrap_double_error p q' e
  refine ⟨k, ?_⟩
  have hm : max |(100 : ℝ)| (max |(0 : ℝ)| |(25 / 4 : ℝ)|) = 100 := by norm_num [abs_of_pos]
  have hk : |r.val - (100 + k * (25 / 4 - 0))| ≤ |(k : ℝ)| * (max |(100 : ℝ)| (max |(0 : ℝ)| |(25 / 4 : ℝ)|) / 2 ^ 53) := hk
  rwa [hm, sub_zero] at hk

end doubles

/-- The loop of this file is that of the model of the orbits. -/
theorem catch_up_same (p : TwoBody.FullElements) {P : ℝ} (h : TwoBody.orbitalPeriod p.elements = .ok P) (t : ℝ) : TwoBody.catchUp p t = catchUp p.tau P t := by
  unfold TwoBody.catchUp catchUp
  rw [h]
  congr 1

example : ∃ P, TwoBody.orbitalPeriod ⟨1, 1, 1, 0⟩ = .ok P := ⟨_, by unfold TwoBody.orbitalPeriod; norm_num; rfl⟩

end Verif.Wrap
