import Verif.Model.TwoBody
import Verif.Lemmas.Kepler
import Mathlib.Algebra.Order.Archimedean.Basic
import Mathlib.Tactic.FieldSimp

/-!
# The loop that solves Kepler's equation

Newton's method from `E = M`: if it is left it is left close to the solution; for eccentricities up to `9/10` it is left;
for some eccentricities below one it is not.
-/

namespace Verif.TwoBody

open Real Verif.Kepler

/-- The loop as `compute_two_body_state` starts it. -/
noncomputable def kstep (e M tol : ℝ) : ℝ → Outcome (ℝ ⊕ ℝ) :=
  newtonStep (fun E => E - e * sin E - M) (fun E => 1 - e * cos E) tol

theorem kstep_stop {e M tol x : ℝ} (h : |x - e * sin x - M| ≤ tol) : kstep e M tol x = .ok (.inr x) := by
  unfold kstep newtonStep
  rw [if_neg (by linarith)]

theorem kstep_go {e M tol x : ℝ} (h0 : 0 ≤ e) (h1 : e < 1) (h : tol < |x - e * sin x - M|) :
    kstep e M tol x = .ok (.inl (x - (x - e * sin x - M) / (1 - e * cos x))) := by
  unfold kstep newtonStep
  rw [if_pos h, if_neg (slope_pos h0 h1 x).ne']

/-- What the loop returns solves Kepler's equation up to the tolerance. -/
theorem solve_close {e M tol x E : ℝ} (h0 : 0 ≤ e) (h1 : e < 1) (h : Loop.whileLoop (kstep e M tol) x = .ok E) :
    |E - e * sin E - M| ≤ tol := by
  obtain ⟨s, _, hs⟩ := Loop.whileLoop_invariant (kstep e M tol) (fun _ => True) (fun _ _ _ _ => trivial) trivial h
  by_cases hc : tol < |s - e * sin s - M|
  · rw [kstep_go h0 h1 hc] at hs
    cases hs
  · rw [kstep_stop (not_lt.mp hc)] at hs
    cases hs
    exact not_lt.mp hc

/-- The loop never does anything undefined. -/
theorem solve_defined {e M tol x : ℝ} (h0 : 0 ≤ e) (h1 : e < 1) :
    (∃ E, Loop.whileLoop (kstep e M tol) x = .ok E) ∨ Loop.whileLoop (kstep e M tol) x = .diverges := by
  by_cases hd : Loop.whileLoop (kstep e M tol) x = .diverges
  · exact Or.inr hd
  refine Or.inl ?_
  have : ∃ n, Loop.run (kstep e M tol) n x ≠ .diverges := by
    by_contra hn
    exact hd ((Loop.whileLoop_diverges_iff _ _).mpr fun n => by
      by_contra h'
      exact hn ⟨n, h'⟩)
  obtain ⟨n, hn⟩ := this
  rw [Loop.whileLoop_eq_run _ hn]
  clear hd
  induction n generalizing x with
  | zero => exact absurd rfl hn
  | succ n ih =>
    by_cases hc : tol < |x - e * sin x - M|
    · simp only [Loop.run, kstep_go h0 h1 hc] at hn ⊢
      exact ih hn
    · simp only [Loop.run, kstep_stop (not_lt.mp hc)] at hn ⊢
      exact ⟨_, rfl⟩

/-- One Newton step in a half turn where the sine is not negative goes to the right of the solution. -/
theorem newton_right {e M c x R : ℝ} (h0 : 0 ≤ e) (h1 : e < 1) (k : ℤ) (hc : c = k * (2 * π)) (hx0 : c ≤ x) (hx1 : x ≤ c + π)
    (hR0 : c ≤ R) (hR1 : R ≤ c + π) (hR : kep e R = M) : R ≤ x - (x - e * sin x - M) / (1 - e * cos x) := by
  have hs := slope_pos h0 h1 x
  have ht := sin_le_tangent (x := x - c) (z := R - c) (by linarith) (by linarith) (by linarith) (by linarith)
  rw [hc, sin_sub_int_mul_two_pi, sin_sub_int_mul_two_pi, cos_sub_int_mul_two_pi] at ht
  have h2 : (x - e * sin x - M) / (1 - e * cos x) ≤ x - R := by
    rw [div_le_iff₀ hs]
    unfold kep at hR
    nlinarith
  linarith

/-- From a point to the right of the solution, in the half turn, the loop is left. -/
theorem terminates_right {e M c tol x R : ℝ} (h0 : 0 ≤ e) (h1 : e < 1) (ht : 0 < tol) (k : ℤ) (hc : c = k * (2 * π))
    (hR0 : c ≤ R) (hR1 : R ≤ c + π) (hR : kep e R = M) (hxR : R ≤ x) (hx1 : x ≤ c + π) :
    ∃ E, Loop.whileLoop (kstep e M tol) x = .ok E := by
  apply Loop.whileLoop_terminates (kstep e M tol) (fun x => R ≤ x ∧ x ≤ c + π) (fun x => ⌈(x - R) * 2 / tol⌉₊) _ ⟨hxR, hx1⟩
  rintro s ⟨hs0, hs1⟩
  by_cases hstop : tol < |s - e * sin s - M|
  · right
    have hf : 0 ≤ s - e * sin s - M := by
      have := (kep_strictMono h0 h1).monotone hs0
      unfold kep at this hR
      linarith
    rw [abs_of_nonneg hf] at hstop
    have hsl := slope_pos h0 h1 s
    have hle : 1 - e * cos s ≤ 2 := (slope_le h0 s).trans (by linarith)
    have hd : tol / 2 < (s - e * sin s - M) / (1 - e * cos s) := by
      rw [lt_div_iff₀ hsl]
      nlinarith
    have hr := newton_right h0 h1 k hc (hR0.trans hs0) hs1 hR0 hR1 hR
    refine ⟨_, kstep_go h0 h1 (by rw [abs_of_nonneg hf]; exact hstop), ⟨hr, by linarith⟩, ?_⟩
    generalize (s - e * sin s - M) / (1 - e * cos s) = d at *
    have h3 : (s - d - R) * 2 / tol + 1 ≤ (s - R) * 2 / tol := by
      rw [div_add_one ht.ne', div_le_div_iff_of_pos_right ht]
      linarith
    have h4 : 0 ≤ (s - d - R) * 2 / tol := div_nonneg (by linarith) ht.le
    have h5 : ⌈(s - d - R) * 2 / tol⌉₊ + 1 = ⌈(s - d - R) * 2 / tol + 1⌉₊ := (Nat.ceil_add_one h4).symm
    have h6 := Nat.ceil_le_ceil h3
    omega
  · left
    exact ⟨_, kstep_stop (not_lt.mp hstop)⟩

/-- For a mean anomaly in a half turn where the sine is not negative, and an eccentricity of at most `9/10`, the loop is
left. -/
theorem terminates_upper {e M c tol : ℝ} (h0 : 0 ≤ e) (h9 : e ≤ 9 / 10) (ht : 0 < tol) (k : ℤ) (hc : c = k * (2 * π))
    (hM0 : c ≤ M) (hM1 : M ≤ c + π) : ∃ E, Loop.whileLoop (kstep e M tol) M = .ok E := by
  have h1 : e < 1 := by linarith
  have hsM : 0 ≤ sin M := by
    have := sin_nonneg_of_nonneg_of_le_pi (x := M - c) (by linarith) (by linarith)
    rwa [hc, sin_sub_int_mul_two_pi] at this
  by_cases hstop : tol < |M - e * sin M - M|
  · rw [Loop.whileLoop_unfold, kstep_go h0 h1 hstop]
    set R := root h0 M with hRdef
    have hR : kep e R = M := kep_root h0 M
    have hR0 : M ≤ R := by
      rw [← (kep_strictMono h0 h1).le_iff_le, hR]
      unfold kep
      nlinarith
    have hR1 : R ≤ c + π := by
      rw [← (kep_strictMono h0 h1).le_iff_le, hR]
      unfold kep
      have : sin (c + π) = 0 := by
        rw [hc, add_comm, sin_add_int_mul_two_pi, sin_pi]
      rw [this]
      linarith
    have hr := newton_right h0 h1 k hc hM0 hM1 (hM0.trans hR0) hR1 hR
    refine terminates_right h0 h1 ht k hc (hM0.trans hR0) hR1 hR hr ?_
    have hsl := slope_pos h0 h1 M
    have hf := first_step (M := M - c) h0 h9 (by linarith) (by linarith)
    rw [hc, sin_sub_int_mul_two_pi, cos_sub_int_mul_two_pi, ← hc] at hf
    have : e * sin M / (1 - e * cos M) ≤ π - (M - c) := by
      rw [div_le_iff₀ hsl]
      exact hf
    have h2 : (M - e * sin M - M) / (1 - e * cos M) = -(e * sin M / (1 - e * cos M)) := by ring
    rw [h2]
    linarith
  · rw [Loop.whileLoop_unfold, kstep_stop (not_lt.mp hstop)]
    exact ⟨M, rfl⟩

/-- The loop is the same seen in the mirror. -/
theorem run_neg (e M tol : ℝ) (h0 : 0 ≤ e) (h1 : e < 1) (n : ℕ) (x : ℝ) :
    Loop.run (kstep e (-M) tol) n (-x) = (Loop.run (kstep e M tol) n x).map Neg.neg := by
  induction n generalizing x with
  | zero => rfl
  | succ n ih =>
    have habs : |(-x) - e * sin (-x) - -M| = |x - e * sin x - M| := by
      rw [sin_neg, ← abs_neg]
      congr 1
      ring
    by_cases hc : tol < |x - e * sin x - M|
    · simp only [Loop.run, kstep_go h0 h1 hc, kstep_go h0 h1 (habs.symm ▸ hc)]
      rw [← ih]
      congr 1
      rw [sin_neg, cos_neg]
      ring
    · simp only [Loop.run, kstep_stop (not_lt.mp hc), kstep_stop (habs.le.trans (not_lt.mp hc))]
      rfl

/-- For an eccentricity of at most `9/10` the loop is left, whatever the time. -/
theorem terminates {e tol : ℝ} (h0 : 0 ≤ e) (h9 : e ≤ 9 / 10) (ht : 0 < tol) (M : ℝ) :
    ∃ E, Loop.whileLoop (kstep e M tol) M = .ok E := by
  have h1 : e < 1 := by linarith
  set k : ℤ := ⌊M / (2 * π)⌋ with hk
  have hp : 0 < 2 * π := by positivity
  have hk0 : k * (2 * π) ≤ M := by
    rw [← le_div_iff₀ hp]
    exact Int.floor_le _
  have hk1 : M < (k + 1) * (2 * π) := by
    rw [← div_lt_iff₀ hp]
    exact Int.lt_floor_add_one _
  rcases le_total M (k * (2 * π) + π) with h | h
  · exact terminates_upper h0 h9 ht k rfl hk0 h
  · obtain ⟨E, hE⟩ := terminates_upper (M := -M) h0 h9 ht (-(k + 1)) rfl (by push_cast; linarith) (by push_cast; linarith)
    rw [Loop.whileLoop_eq_ok_iff] at hE
    obtain ⟨n, hn⟩ := hE
    refine ⟨-E, (Loop.whileLoop_eq_ok_iff _ _ _).mpr ⟨n, ?_⟩⟩
    have := run_neg e (-M) tol h0 h1 n (-M)
    rw [neg_neg, hn] at this
    exact this

/-- There are an eccentricity below one and a mean anomaly from which Newton's method goes back and forth between two
values forever. -/
theorem cycles : ∃ M : ℝ, 0 < M ∧ M < π / 6 ∧
    ∀ tol : ℝ, tol < 1 / 100 → Loop.whileLoop (kstep (cos M) M tol) M = .diverges := by
  have hpi := pi_gt_d2
  have hpi' := pi_lt_d2
  -- an angle with `cot M = 3π/2 - 2M`
  have hcont : Continuous fun M : ℝ => (3 * π / 2 - 2 * M) * sin M - cos M := by fun_prop
  have hmem : (0 : ℝ) ∈ Set.Ioo ((3 * π / 2 - 2 * 0) * sin 0 - cos 0)
      ((3 * π / 2 - 2 * (π / 6)) * sin (π / 6) - cos (π / 6)) := by
    constructor
    · simp
    · rw [sin_pi_div_six]
      have := cos_le_one (π / 6)
      nlinarith
  obtain ⟨M, ⟨hM0, hM1⟩, hM⟩ := intermediate_value_Ioo (by positivity : (0 : ℝ) ≤ π / 6) hcont.continuousOn hmem
  refine ⟨M, hM0, hM1, fun tol ht => ?_⟩
  have hs0 : 0 < sin M := sin_pos_of_pos_of_lt_pi hM0 (by linarith)
  have hc1 : 1 / 2 ≤ cos M := by
    have := cos_le_cos_of_nonneg_of_le_pi hM0.le (by linarith : π / 3 ≤ π) (by linarith : M ≤ π / 3)
    rwa [cos_pi_div_three] at this
  have he1 : cos M < 1 := by
    nlinarith [sin_sq_add_cos_sq M, cos_le_one M]
  have hM' : (3 * π / 2 - 2 * M) * sin M = cos M := by
    have : (3 * π / 2 - 2 * M) * sin M - cos M = 0 := hM
    linarith
  have hs1 : 1 / 10 ≤ sin M := by
    nlinarith
  have hsq := sin_sq_add_cos_sq M
  apply Loop.whileLoop_forever (kstep (cos M) M tol) (fun x => x = M ∨ x = 3 * π / 2 - M) _ (Or.inl rfl)
  rintro s (rfl | rfl)
  · have hf : s - cos s * sin s - s = -(cos s * sin s) := by ring
    refine ⟨_, kstep_go (by linarith) he1 ?_, Or.inr ?_⟩
    · rw [hf, abs_neg, abs_of_nonneg (by nlinarith)]
      nlinarith
    · have h1 : 1 - cos s * cos s = sin s * sin s := by nlinarith
      rw [hf, h1]
      have : -(cos s * sin s) / (sin s * sin s) = -(3 * π / 2 - 2 * s) := by
        rw [div_eq_iff (mul_pos hs0 hs0).ne', ← hM']
        ring
      rw [this]
      ring
  · have hsin : sin (3 * π / 2 - M) = -cos M := by
      rw [show 3 * π / 2 - M = π - (M - π / 2) by ring, sin_pi_sub, sin_sub_pi_div_two]
    have hcos : cos (3 * π / 2 - M) = -sin M := by
      rw [show 3 * π / 2 - M = π - (M - π / 2) by ring, cos_pi_sub, cos_sub_pi_div_two]
    refine ⟨_, kstep_go (by linarith) he1 ?_, Or.inl ?_⟩
    · rw [hsin]
      refine lt_of_lt_of_le ?_ (le_abs_self _)
      nlinarith
    · rw [hsin, hcos]
      have hpos : 1 - cos M * -sin M ≠ 0 := by nlinarith
      have : (3 * π / 2 - M - cos M * -cos M - M) / (1 - cos M * -sin M) = 3 * π / 2 - 2 * M := by
        rw [div_eq_iff hpos]
        linear_combination -cos M * hM'
      rw [this]
      ring

end Verif.TwoBody
