import Verif.Lemmas.CloudFound
import Verif.Props.CloudEnds

/-!
# C91: the budget of mass and energy for every step that ends, and for runs
-/

namespace Verif.Cloud

open Verif.Nd Verif.Sedov Geometry

variable {m n : Nat} {r q : Nat → ℝ}

/-- What passes the inner and the outer sphere, per time, in a stage from the cells `u`: at the inner one the fluxes that the Riemann solver gives for the inflow and the gas
of the innermost cells, at the outer one the fluxes of the gas in the outermost cells. -/
def Passes (T : ℝ) (inflow : ℝ → Vec 5 ℝ) (method : Int) (z : Fin 5 → Bool) (theta : ℝ) (m n : Nat) (r q : Nat → ℝ) (u : Nat → Nat → Vec 5 ℝ)
    (inner outer : Fin 5 → ℝ) : Prop :=
  ∃ p F : Nat → Nat → Vec 5 ℝ, (∀ i, i < m → ∀ j, j < n → Srhd.recover (fun a => u i j a / wedge (r i) (r (i + 1)) (q j) (q (j + 1))) (4 / 3) T = .ok (p i j))
    ∧ (∀ j, j < n → F 0 j = Srhd.hlle (inflow ((q j + q (j + 1)) / 2))
        (sides method z theta (m + 2) (column (inflow ((q j + q (j + 1)) / 2)) m fun k => p k j) 0).2 ⟨1, 0, 0⟩ (4 / 3))
    ∧ inner = through n (r 0) q (F 0) ∧ outer = through n (r m) q (fun j => Srhd.flux (p (m - 1) j) ⟨1, 0, 0⟩ (4 / 3))

/-- At the innermost face the gas on the inner side is the inflow. -/
theorem sides_inner (method : Int) (z : Fin 5 → Bool) (theta : ℝ) (first : Vec 5 ℝ) (p : Nat → Vec 5 ℝ) :
    (sides method z theta (m + 2) (column first m p) 0).1 = first := by
  have c0 : column first m p 0 = first := if_pos rfl
  have s0 : slope z theta (m + 2) (column first m p) 0 = 0 := if_pos (by omega)
  unfold sides
  rw [c0, s0]
  split_ifs
  · rfl
  · funext a
    show first a + 0 / 2 = _
    ring

theorem passes_of_found {T : ℝ} {inflow : ℝ → Vec 5 ℝ} {method : Int} {z : Fin 5 → Bool} {theta : ℝ} {u p Fr Fq S : Nat → Nat → Vec 5 ℝ}
    (h : Found (srhd T) inflow method z theta m n r q u p Fr Fq S) :
    Passes T inflow method z theta m n r q u (through n (r 0) q (Fr 0)) (through n (r m) q fun j => Srhd.flux (p (m - 1) j) ⟨1, 0, 0⟩ (4 / 3)) := by
  refine ⟨p, Fr, h.primitive, fun j hj => ?_, rfl, rfl⟩
  have := h.radial 0 (by omega) j hj
  rw [sides_inner] at this
  unfold srhd at this
  dsimp only at this
  rw [if_pos rfl] at this
  split_ifs at this with h0
  injection this with this
  exact this.symm

/-- **C91.** In every step that ends, rest mass and energy change only by what passes the inner and the outer sphere. -/
theorem step_budget (T : ℝ) (inflow : ℝ → ℝ → Vec 5 ℝ) (method : Int) (z : Fin 5 → Bool) (theta cfl : ℝ) (rk : Int) {s t : Solution}
    (hm : 1 ≤ m) (hn : 2 ≤ n) (hn3 : method = 1 ∨ 3 ≤ n) (hmn : (m + 2) * (n + 1) < 2 ^ 31) {u : Nat → Nat → Vec 5 ℝ}
    (hr : Line s.radial (m + 1) r) (hq : Line s.polar (n + 1) q) (hu : Grid s.conserved m n u)
    (h : nextSolution (srhd T) inflow method z theta cfl rk s = .ok t) :
    t.time = s.time + (r 1 - r 0) * cfl ∧ t.radial = s.radial ∧ t.polar = s.polar ∧ ∃ u' inner outer, Grid t.conserved m n u'
      ∧ Passes T (inflow s.time) method z theta m n r q u inner outer
      ∧ (rk = 1 → ∀ a, a = 0 ∨ a = 4 → content m n u' a = content m n u a + (r 1 - r 0) * cfl * (inner a - outer a))
      ∧ (rk ≠ 1 → ∃ u1 inner1 outer1, (∃ s1, advance (srhd T) (inflow s.time) method z theta s ((r 1 - r 0) * cfl) = .ok s1 ∧ Grid s1.conserved m n u1)
        ∧ Passes T (inflow s.time) method z theta m n r q u1 inner1 outer1
        ∧ ∀ a, a = 0 ∨ a = 4 → content m n u' a = content m n u a + (r 1 - r 0) * cfl * ((inner a + inner1 a) / 2 - (outer a + outer1 a) / 2)) := by
  have b1 : m + 2 ≤ (m + 2) * (n + 1) := Nat.le_mul_of_pos_right _ (by omega)
  obtain ⟨D, e1, hD⟩ := hr.difference (by omega)
  have h' := h
  unfold nextSolution at h'
  rw [e1, Outcome.bind_ok, hD.2 0 (by omega), Outcome.bind_ok] at h'
  dsimp only at h'
  rw [zero_add] at h'
  by_cases h1 : rk = 1
  · subst h1
    rw [if_pos rfl] at h'
    obtain ⟨hme, hV, p, Fr, Fq, S, hF⟩ := found_of_advance (srhd T) (inflow s.time) method z theta s t _ hm hn hn3 hmn u hr hq hu h'
    obtain ⟨t', u', dt, rfl, e2, e3, e4, e5, e6, e7⟩ := budget_first_order T inflow method z theta cfl s hme hm hn hn3 hmn u hr hq hu hV p Fr Fq S hF
    rw [h] at e2
    injection e2 with e2
    subst e2
    exact ⟨e3, e4, e5, u', _, _, e6, passes_of_found hF, fun _ => e7, fun h => absurd rfl h⟩
  · rw [if_neg h1] at h'
    by_cases h2 : rk = 2
    · subst h2
      rw [if_pos rfl] at h'
      obtain ⟨s1, a1, h'⟩ := Outcome.bind_eq_ok.1 h'
      obtain ⟨s2, a2, h'⟩ := Outcome.bind_eq_ok.1 h'
      obtain ⟨hme, hV, p, Fr, Fq, S, hF⟩ := found_of_advance (srhd T) (inflow s.time) method z theta s s1 _ hm hn hn3 hmn u hr hq hu a1
      obtain ⟨s1', b1, b2, b3, b4, b5, -⟩ := stage (srhd T) (inflow s.time) method z theta s ((r 1 - r 0) * cfl) hme hm hn hn3 hmn u hr hq hu hV p Fr Fq S hF
      rw [a1] at b1
      injection b1 with b1
      subst b1
      obtain ⟨-, -, p1, Fr1, Fq1, S1, hF1⟩ := found_of_advance (srhd T) (inflow s.time) method z theta s1 s2 _ hm hn hn3 hmn _ (b3 ▸ hr) (b4 ▸ hq) b5 a2
      obtain ⟨t', u', e2, e3, e4, e5, e6, e7⟩ := budget_second_order T inflow method z theta cfl s hme hm hn hn3 hmn u hr hq hu hV p Fr Fq S p1 Fr1 Fq1 S1 _ rfl hF hF1
      rw [h] at e2
      injection e2 with e2
      subst e2
      exact ⟨e3, e4, e5, u', _, _, e6, passes_of_found hF, fun h => absurd h h1, fun _ => ⟨_, _, _, ⟨s1, a1, b5⟩, passes_of_found hF1, e7⟩⟩
    · rw [if_neg h2] at h'
      cases h'

/-- **C91, runs.** After any number of steps the rest mass and energy in the grid are those at the start, and what has passed the inner and the outer sphere in the time of each step. -/
theorem run_budget (T : ℝ) (inflow : ℝ → ℝ → Vec 5 ℝ) (method : Int) (z : Nat → Fin 5 → Bool) (theta cfl : ℝ)
    (hm : 1 ≤ m) (hn : 2 ≤ n) (hn3 : method = 1 ∨ 3 ≤ n) (hmn : (m + 2) * (n + 1) < 2 ^ 31) (sol : Nat → Solution)
    (hr : Line (sol 0).radial (m + 1) r) (hq : Line (sol 0).polar (n + 1) q) {u0 : Nat → Nat → Vec 5 ℝ} (hu : Grid (sol 0).conserved m n u0) (N : Nat)
    (hsteps : ∀ k, k < N → nextSolution (srhd T) inflow method (z k) theta cfl 1 (sol k) = .ok (sol (k + 1))) :
    ∃ (u : Nat → Nat → Nat → Vec 5 ℝ) (inner outer : Nat → Fin 5 → ℝ), u 0 = u0 ∧ (∀ k, k ≤ N → Grid (sol k).conserved m n (u k)
        ∧ (sol k).radial = (sol 0).radial ∧ (sol k).polar = (sol 0).polar ∧ (sol k).time = (sol 0).time + k * ((r 1 - r 0) * cfl))
      ∧ (∀ k, k < N → Passes T (inflow (sol k).time) method (z k) theta m n r q (u k) (inner k) (outer k))
      ∧ ∀ a, a = 0 ∨ a = 4 → content m n (u N) a = content m n u0 a
        + (r 1 - r 0) * cfl * ∑ k ∈ Finset.range N, (inner k a - outer k a) := by
  induction N with
  | zero =>
    refine ⟨fun _ => u0, fun _ _ => 0, fun _ _ => 0, rfl, fun k hk => ?_, fun k hk => by omega, fun a _ => by simp⟩
    obtain rfl : k = 0 := by omega
    exact ⟨hu, rfl, rfl, by simp⟩
  | succ N ih =>
    obtain ⟨u, inner, outer, h0, h1, h2, h3⟩ := ih fun k hk => hsteps k (by omega)
    obtain ⟨g1, g2, g3, g4⟩ := h1 N le_rfl
    obtain ⟨c1, c2, c3, u', i', o', c4, c5, c6, -⟩ := step_budget T inflow method (z N) theta cfl 1 hm hn hn3 hmn (g2 ▸ hr) (g3 ▸ hq) g1 (hsteps N (by omega))
    refine ⟨fun k => if k = N + 1 then u' else u k, fun k => if k = N then i' else inner k, fun k => if k = N then o' else outer k, ?_, fun k hk => ?_, fun k hk => ?_, fun a ha => ?_⟩
    · dsimp only
      rw [if_neg (by omega), h0]
    · dsimp only
      by_cases e : k = N + 1
      · subst e
        rw [if_pos rfl]
        refine ⟨c4, c2.trans g2, c3.trans g3, ?_⟩
        rw [c1, g4]
        push_cast
        ring
      · rw [if_neg e]
        exact h1 k (by omega)
    · dsimp only
      rw [if_neg (by omega)]
      by_cases e : k = N
      · subst e
        rw [if_pos rfl, if_pos rfl]
        exact c5
      · rw [if_neg e, if_neg e]
        exact h2 k (by omega)
    · dsimp only
      rw [if_pos rfl, Finset.sum_range_succ, if_pos rfl, if_pos rfl, c6 rfl a ha, h3 a ha, mul_add, ← add_assoc]
      congr 3
      refine Finset.sum_congr rfl fun k hk => ?_
      have := Finset.mem_range.1 hk
      rw [if_neg (by omega), if_neg (by omega)]

/-- The hypotheses of `step_budget` are met by gas at rest. -/
example (z : Fin 5 → Bool) : ∃ t u' inner outer, nextSolution (srhd 0) (fun _ _ => Example.rest) 2 z (6 / 5) (2 / 5) 1 Example.start = .ok t ∧ Grid t.conserved 2 3 u'
    ∧ Passes 0 (fun _ => Example.rest) 2 z (6 / 5) 2 3 Example.radius Example.angle
      (fun i j a => Srhd.toConserved Example.rest (4 / 3) a * wedge (Example.radius i) (Example.radius (i + 1)) (Example.angle j) (Example.angle (j + 1))) inner outer := by
  obtain ⟨t, h⟩ := Example.start_steps z
  obtain ⟨-, -, -, u', i', o', h4, h5, -⟩ := step_budget (m := 2) (n := 3) (r := Example.radius) (q := Example.angle) 0 (fun _ _ => Example.rest) 2 z (6 / 5) (2 / 5) 1
    (by norm_num) (by norm_num) (.inr le_rfl) (by norm_num) ⟨rfl, fun _ _ => rfl⟩ ⟨rfl, fun _ _ => rfl⟩ ⟨rfl, rfl, fun _ _ _ _ => rfl⟩ h
  exact ⟨t, u', i', o', h, h4, h5⟩

/-- The hypotheses of `run_budget`, with one step. -/
example (z : Fin 5 → Bool) : ∃ (sol : Nat → Solution) (u : Nat → Nat → Nat → Vec 5 ℝ), sol 0 = Example.start
    ∧ nextSolution (srhd 0) (fun _ _ => Example.rest) 2 z (6 / 5) (2 / 5) 1 (sol 0) = .ok (sol 1) ∧ Grid (sol 1).conserved 2 3 (u 1) := by
  obtain ⟨t, h⟩ := Example.start_steps z
  obtain ⟨u, -, -, -, h1, -⟩ := run_budget (m := 2) (n := 3) (r := Example.radius) (q := Example.angle) 0 (fun _ _ => Example.rest) 2 (fun _ => z) (6 / 5) (2 / 5)
    (by norm_num) (by norm_num) (.inr le_rfl) (by norm_num) (fun k => if k = 0 then Example.start else t) ⟨rfl, fun _ _ => rfl⟩ ⟨rfl, fun _ _ => rfl⟩
    ⟨rfl, rfl, fun _ _ _ _ => rfl⟩ 1 (fun k hk => by
      have hk0 : k = 0 := by omega
      rw [hk0]
      exact h)
  have h2 := (h1 1 (Nat.le_refl 1)).1
  exact ⟨fun k => if k = 0 then Example.start else t, u, if_pos rfl, h, h2⟩

end Verif.Cloud
