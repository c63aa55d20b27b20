import Verif.Lemmas.RunsExist
import Verif.Lemmas.Counted
import Verif.Props.Schedule
import Verif.Props.SedovSeries
import Verif.Props.CloudGas
import Mathlib.Algebra.Order.Floor.Semiring
import Mathlib.Algebra.Order.Archimedean.Real.Basic

/-!
# The end of a run

C119.  The boilerplate, sedov and cloud programs advance the clock by the same amount in every step.  In exact arithmetic, a run therefore comes
to its end, after a known number of steps and with a known number of files, unless a step fails.
-/

namespace Verif.Runs.App
open Verif Verif.Text Verif.Config Verif.Sched

variable {σ D : Type}

/-- Adding a number repeatedly. -/
theorem iterate_add (dt t : ℝ) (i : Nat) : (fun t => t + dt)^[i] t = t + i * dt := by
  induction i with
  | zero => simp
  | succ i ih =>
    rw [Function.iterate_succ_apply', ih]
    push_cast
    ring

/-- The number of steps. -/
theorem steps_spec {dt t tf : ℝ} (hd : 0 < dt) :
    (∀ i < ⌈(tf - t) / dt⌉₊, (fun t => t + dt)^[i] t < tf) ∧ tf ≤ (fun t => t + dt)^[⌈(tf - t) / dt⌉₊] t := by
  constructor
  · intro i hi
    rw [iterate_add]
    have := Nat.lt_ceil.1 hi
    rw [lt_div_iff₀ hd] at this
    linarith
  · rw [iterate_add]
    have := Nat.le_ceil ((tf - t) / dt)
    rw [div_le_iff₀ hd] at this
    linarith

theorem go_eq {e : Env σ ℝ D} {k : Kind} {cfg : Config ℝ} {w : World σ ℝ D} (h : Ready k cfg w.1) {tf : ℝ} (ht : cfg.getDouble kTfinal = .ok tf) :
    shouldContinue e w.1 = .ok (decide (e.time w.1.solution < tf)) := by
  rw [shouldContinue, h.config, ht, Outcome.map_ok]

/-- **C119**: a program whose steps all take the clock on by `dt` comes to its end with the first step, if any, that fails; if there is none, the loop is
left after exactly as many passes as there are steps in the time that was to be simulated, rounded up, and one more step is taken after it. -/
theorem finish_cases {e : Env σ ℝ D} {k : Kind} {cfg : Config ℝ} {w : World σ ℝ D} (hw : Ready k cfg w.1) {tf dt : ℝ} (hd : 0 < dt)
    (ht : cfg.getDouble kTfinal = .ok tf) (Inv : σ → Prop) (h0 : Inv w.1.solution)
    (hstep : ∀ s s', Inv s → e.advance cfg s = .ok s' → Inv s' ∧ e.time s' = e.time s + dt) :
    ∃ (v : Nat → World σ ℝ D) (j : Nat), v 0 = w ∧ (∀ i < j, body e k (v i) = .ok (v (i + 1))) ∧
      (∀ i ≤ j, e.time (v i).1.solution = e.time w.1.solution + i * dt) ∧
      (j = ⌈(tf - e.time w.1.solution) / dt⌉₊ + 1 ∧ finish e k w = .ok (⌈(tf - e.time w.1.solution) / dt⌉₊, v j) ∨
        j ≤ ⌈(tf - e.time w.1.solution) / dt⌉₊ ∧ (∀ w', body e k (v j) ≠ .ok w') ∧ finish e k w = (body e k (v j)).map fun w' => (j, w')) := by
  obtain ⟨n1, n2⟩ := steps_spec (t := e.time w.1.solution) (tf := tf) hd
  have hb : ∀ w w' : World σ ℝ D, Ready k cfg w.1 ∧ Inv w.1.solution → body e k w = .ok w' →
      (Ready k cfg w'.1 ∧ Inv w'.1.solution) ∧ e.time w'.1.solution = e.time w.1.solution + dt := by
    intro w w' h he
    obtain ⟨a, b⟩ := body_ready h.1 he
    obtain ⟨c, d⟩ := hstep _ _ h.2 b
    exact ⟨⟨a, c⟩, d⟩
  obtain ⟨v, j, v0, vb, vp, hv⟩ := Loop.counted_cases (body := body e k) (fun w : World σ ℝ D => Ready k cfg w.1 ∧ Inv w.1.solution)
    (fun w => e.time w.1.solution) (fun t => t + dt) tf (fun w h => go_eq (e := e) h.1 ht) hb ⟨hw, h0⟩ n1 n2
  have vt : ∀ i ≤ j, e.time (v i).1.solution = e.time w.1.solution + i * dt := fun i hi => by
    rw [← iterate_add]
    exact (vp i hi).2
  rcases hv with ⟨hj, hc⟩ | ⟨hj, hf, hc⟩
  · by_cases hl : ∃ w', body e k (v j) = .ok w'
    · obtain ⟨w', hl⟩ := hl
      refine ⟨fun i => if i ≤ j then v i else w', j + 1, by simpa using v0, fun i hi => ?_, fun i hi => ?_, Or.inl ⟨by rw [hj], ?_⟩⟩
      · beta_reduce
        rw [if_pos (by omega : i ≤ j)]
        rcases (show i < j ∨ i = j by omega) with h | rfl
        · rw [if_pos (by omega), vb i h]
        · rw [if_neg (by omega), hl]
      · by_cases h : i ≤ j
        · simp only [if_pos h]
          exact vt i h
        · obtain rfl : i = j + 1 := by omega
          simp only [if_neg h]
          rw [(hb _ _ (vp j le_rfl).1 hl).2, vt j le_rfl]
          push_cast
          ring
      · rw [finish, hc, Outcome.bind_ok, ← hj]
        dsimp only
        rw [hl, Outcome.map_ok, if_neg (by omega)]
    · refine ⟨v, j, v0, vb, vt, Or.inr ⟨hj.le, fun w' h => hl ⟨w', h⟩, ?_⟩⟩
      rw [finish, hc, Outcome.bind_ok, ← hj]
  · refine ⟨v, j, v0, vb, vt, Or.inr ⟨hj.le, hf, ?_⟩⟩
    rw [finish, hc]
    cases hx : body e k (v j) with
    | ok w' => exact absurd hx (hf w')
    | throws _ => rfl
    | ub => rfl
    | diverges => rfl

/-- **C119**: a run that comes to its end has made exactly that number of steps. -/
theorem finish_count {e : Env σ ℝ D} {k : Kind} {cfg : Config ℝ} {w : World σ ℝ D} (hw : Ready k cfg w.1) {tf dt : ℝ} (hd : 0 < dt)
    (ht : cfg.getDouble kTfinal = .ok tf) (Inv : σ → Prop) (h0 : Inv w.1.solution)
    (hstep : ∀ s s', Inv s → e.advance cfg s = .ok s' → Inv s' ∧ e.time s' = e.time s + dt) {N : Nat} {w' : World σ ℝ D}
    (h : finish e k w = .ok (N, w')) :
    N = ⌈(tf - e.time w.1.solution) / dt⌉₊ ∧ e.time w'.1.solution = e.time w.1.solution + (N + 1) * dt := by
  obtain ⟨v, j, v0, vb, vt, ⟨hj, hf⟩ | ⟨hj, hf, hc⟩⟩ := finish_cases hw hd ht Inv h0 hstep
  · rw [hf] at h
    obtain ⟨rfl, rfl⟩ := Prod.mk.inj (Outcome.ok.inj h)
    refine ⟨rfl, ?_⟩
    rw [vt j le_rfl, hj]
    push_cast
    ring
  · rw [hc] at h
    obtain ⟨x, hx, _⟩ := Outcome.map_eq_ok.1 h
    exact absurd hx (hf x)

/-- **C119**: a run does not go on for ever unless a step does. -/
theorem finish_ends {e : Env σ ℝ D} {k : Kind} {cfg : Config ℝ} {w : World σ ℝ D} (hw : Ready k cfg w.1) {tf dt : ℝ} (hd : 0 < dt)
    (ht : cfg.getDouble kTfinal = .ok tf) (hint : ∀ p ∈ cadences k, ∃ x, cfg.getDouble p.2 = .ok x)
    (hout : k ≠ .boilerplate → ∃ d, cfg.getString kOutdir = .ok d) (Inv : σ → Prop) (h0 : Inv w.1.solution)
    (hstep : ∀ s s', Inv s → e.advance cfg s = .ok s' → Inv s' ∧ e.time s' = e.time s + dt) (hne : ∀ s, Inv s → e.advance cfg s ≠ .diverges) :
    finish e k w ≠ .diverges := by
  have hI : ∀ w w' : World σ ℝ D, Ready k cfg w.1 ∧ Inv w.1.solution → body e k w = .ok w' → Ready k cfg w'.1 ∧ Inv w'.1.solution := by
    intro w w' h he
    obtain ⟨a, b⟩ := body_ready h.1 he
    exact ⟨a, (hstep _ _ h.2 b).1⟩
  have hb : ∀ w : World σ ℝ D, Ready k cfg w.1 ∧ Inv w.1.solution → body e k w ≠ .diverges := by
    intro w h he
    have hn := hne _ h.2
    cases ha : e.advance cfg w.1.solution with
    | ok s =>
      obtain ⟨w', hw'⟩ := body_exists h.1 hint hout ha
      rw [he] at hw'
      cases hw'
    | throws x =>
      rw [body, next, h.1.config, ha] at he
      cases he
    | ub =>
      rw [body, next, h.1.config, ha] at he
      cases he
    | diverges => exact hn ha
  obtain ⟨v, j, v0, vb, vt, ⟨hj, hf⟩ | ⟨hj, hf, hc⟩⟩ := finish_cases hw hd ht Inv h0 hstep
  · rw [hf]
    simp
  · have hall : ∀ i ≤ j, Ready k cfg (v i).1 ∧ Inv (v i).1.solution := by
      intro i
      induction i with
      | zero => exact fun _ => v0 ▸ ⟨hw, h0⟩
      | succ i ih => exact fun hi => hI _ _ (ih (by omega)) (vb i hi)
    rw [hc]
    cases hx : body e k (v j) with
    | ok w' => exact absurd hx (hf w')
    | throws _ => exact nofun
    | ub => exact nofun
    | diverges => exact absurd hx (hb _ (hall j le_rfl))

/-- **C119**: a new run whose steps succeed and all take the clock on by `dt` comes to its end.  It makes exactly as many steps as the time to be simulated
has, rounded up, and one more.  Of each kind of output whose interval is not less than a step there is then one, and one more for every whole interval
in the time from zero to that before the last step. -/
theorem main_ends {stod : Str → Outcome ℝ} {t : Template ℝ} {fresh : Config ℝ → Outcome σ} {e : Env σ ℝ D} {k : Kind}
    {fs : Str → Option (Checkpoint σ ℝ Unit)} {args : SMap Str} {cfg : Config ℝ} {sol : σ} {tf dt : ℝ}
    (hcfg : createRunConfig stod t fs k.configRead args = .ok cfg) (hr : cfg.getString kRestart = .ok [])
    (ht : cfg.getDouble kTfinal = .ok tf) (hint : ∀ p ∈ cadences k, ∃ x, cfg.getDouble p.2 = .ok x)
    (hout : k ≠ .boilerplate → ∃ d, cfg.getString kOutdir = .ok d) (hs : fresh cfg = .ok sol) (hd : 0 < dt) (Inv : σ → Prop) (h0 : Inv sol)
    (hstep : ∀ s, Inv s → ∃ s', e.advance cfg s = .ok s' ∧ Inv s' ∧ e.time s' = e.time s + dt) :
    ∃ w N, main stod t fresh e k fs args = .ok (N, w) ∧ N = ⌈(tf - e.time sol) / dt⌉₊ ∧ Inv w.1.solution ∧
      e.time w.1.solution = e.time sol + (N + 1) * dt ∧
      ∀ name key x, (name, key) ∈ cadences k → cfg.getDouble key = .ok x → dt ≤ x → 0 ≤ e.time sol → e.time sol < x →
        performed w.1.schedule name = ⌊(e.time sol + N * dt) / x⌋₊ + 1 := by
  obtain ⟨s0, c1, c2, c3⟩ := createState_ready (k := k) (fs := fs) hr hs
  obtain ⟨w0, e0⟩ := runTasks_exists (e := e) (f := []) c2 hout
  obtain ⟨r0, r1⟩ := runTasks_ready (w := (s0, [])) c2 e0
  have r1 : w0.1.solution = sol := r1.trans c3
  obtain ⟨n1, n2⟩ := steps_spec (t := e.time w0.1.solution) (tf := tf) hd
  obtain ⟨v, v0, vb, vp, hv⟩ := Loop.counted_ok (body := body e k) (fun w : World σ ℝ D => Ready k cfg w.1 ∧ Inv w.1.solution)
    (fun w => e.time w.1.solution) (fun t => t + dt) tf (fun w h => go_eq (e := e) h.1 ht) (fun w h => by
      obtain ⟨s', a, b, c⟩ := hstep _ h.2
      obtain ⟨w', hw'⟩ := body_exists h.1 hint hout a
      obtain ⟨f, g⟩ := body_ready h.1 hw'
      have := Outcome.ok.inj (a.symm.trans g)
      subst this
      exact ⟨w', hw', ⟨f, b⟩, c⟩) ⟨r0, r1 ▸ h0⟩ n1 n2
  rw [r1] at hv vp
  have vt : ∀ i, e.time (v i).1.solution = e.time sol + i * dt := fun i => by
    rw [← iterate_add]
    exact (vp i).2
  refine ⟨v (⌈(tf - e.time sol) / dt⌉₊ + 1), _, ?_, rfl, (vp _).1.2, by rw [vt]; push_cast; ring, ?_⟩
  · rw [main, begin, hcfg, Outcome.bind_ok, c1, Outcome.bind_ok, e0, Outcome.bind_ok, finish, hv, Outcome.bind_ok]
    dsimp only
    rw [vb, Outcome.map_ok]
  · intro name key x hk hx hdx t0 t0'
    have hx0 : 0 < x := hd.trans_le hdx
    obtain ⟨c, g1, g2, g3⟩ := app_cadence (w := v) (n := ⌈(tf - e.time sol) / dt⌉₊ + 1) hr c1 (by rw [v0]; exact e0) (fun i _ => vb i) hk hx
      (by rw [vt]; simpa using t0) (by rw [vt]; simpa using t0')
      (fun i _ => by
        rw [vt, vt]
        push_cast
        constructor <;> linarith) ⌈(tf - e.time sol) / dt⌉₊ (by omega)
    rw [g1, ← vt]
    congr 1
    refine ((Nat.floor_eq_iff (div_nonneg ?_ hx0.le)).2 ⟨?_, ?_⟩).symm
    · rw [vt]
      positivity
    · rw [le_div_iff₀ hx0]
      exact g2
    · rw [div_lt_iff₀ hx0]
      exact g3

/-! ### The programs -/

open Verif.Nd Verif.Sedov

theorem newAdvection_ok (initial : ℝ → ℝ) (n : Nat) (hn : n < 2 ^ 30) :
    ∃ st u, newAdvection initial n = .ok st ∧ st.time = 0 ∧ Line st.vertices (n + 1) (fun k => (k : ℝ) / n) ∧ Line st.solution n u := by
  have hw1 : w (n + 1) = n + 1 := by
    unfold w
    omega
  have hw2 : wsub (n + 1) 1 = n := by
    unfold wsub
    omega
  have hlin : Line (linspace (0 : ℝ) 1 (w (n + 1))) (n + 1) (fun k => (k : ℝ) / n) := by
    rw [hw1]
    refine ⟨rfl, fun k _ => ?_⟩
    unfold linspace
    dsimp only
    rw [hw2]
    exact congrArg _ (by ring)
  obtain ⟨xc, e1, hxc⟩ := hlin.midpoint (by omega)
  obtain ⟨v, e2, hv⟩ := hlin.evaluate (by omega)
  obtain ⟨u0, e3, hu0⟩ := (hxc.map initial).evaluate (by omega)
  refine ⟨⟨0, v, u0⟩, _, ?_, rfl, hv, hu0⟩
  unfold newAdvection
  dsimp only
  rw [e1, Outcome.bind_ok, e2, Outcome.bind_ok, e3, Outcome.bind_ok]

/-- **C119** for the boilerplate program with `n` cells: it always comes to its end.  The loop is passed `4 (n + 1) tfinal` times, rounded up, and there
are as many checkpoints, besides the first, as there are whole intervals in the time passed. -/
theorem boilerplate_ends {D : Type} {stod : Str → Outcome ℝ} {t : Template ℝ} {fs : Str → Option (Checkpoint (Advection ℝ) ℝ Unit)}
    {args : SMap Str} {cfg : Config ℝ} {tf cpi : ℝ} (out : Advection ℝ → D) (initial : ℝ → ℝ) (n : Nat) (h1 : 1 ≤ n) (hn : n < 2 ^ 30)
    (hcfg : createRunConfig stod t fs kRunConfig args = .ok cfg) (hr : cfg.getString kRestart = .ok [])
    (ht : cfg.getDouble kTfinal = .ok tf) (hc : cfg.getDouble kCpi = .ok cpi) (hcpi : 1 / (4 * (n + 1)) ≤ cpi) :
    ∃ w N, main stod t (fun _ => newAdvection initial n) ⟨fun _ => nextAdvection, Advection.time, out, out⟩ .boilerplate fs args = .ok (N, w) ∧
      N = ⌈4 * (n + 1) * tf⌉₊ ∧ w.1.solution.time = (N + 1) / (4 * (n + 1)) ∧
      performed w.1.schedule kCheckpoint = ⌊N / (4 * (n + 1)) / cpi⌋₊ + 1 := by
  have hn0 : (0 : ℝ) < n := by exact_mod_cast h1
  have hd : (0 : ℝ) < 1 / (4 * (n + 1)) := by positivity
  obtain ⟨st, u, e, t0, hv, hu⟩ := newAdvection_ok initial n hn
  obtain ⟨w, N, m1, m2, -, m4, m5⟩ := main_ends (e := ⟨fun _ => nextAdvection, Advection.time, out, out⟩) (k := .boilerplate)
    (fresh := fun _ => newAdvection initial n) hcfg hr ht
    (fun p hp => by
      simp only [cadences, List.mem_cons, List.not_mem_nil, or_false] at hp
      subst hp
      exact ⟨cpi, hc⟩) (fun h => absurd rfl h) e hd
    (fun s => Line s.vertices (n + 1) (fun k => (k : ℝ) / n) ∧ ∃ u, Line s.solution n u) ⟨hv, u, hu⟩
    (fun s ⟨hv, u, hu⟩ => by
      obtain ⟨s', g1, g2, g3, g4⟩ := advection_step s n h1 (by omega) _ u hv hu fun k _ => by
        push_cast
        rw [add_div, add_sub_cancel_left]
        positivity
      refine ⟨s', g1, ⟨by rw [g2]; exact hv, _, g4⟩, ?_⟩
      show s'.time = s.time + 1 / (4 * (n + 1))
      rw [g3]
      push_cast
      rw [div_div])
  have t0' : st.time = 0 := t0
  dsimp only at m2 m4 m5
  rw [t0'] at m2 m4 m5
  refine ⟨w, N, m1, ?_, ?_, ?_⟩
  · rw [m2]
    congr 1
    field_simp
    ring
  · rw [m4]
    ring
  · rw [m5 kCheckpoint kCpi cpi (by simp [cadences]) hc hcpi le_rfl (hd.trans_le hcpi)]
    congr 2
    ring_nf

/-- A step of the sedov program that succeeds leaves the grid, and takes the clock on by `cfl` times the width of the first zone. -/
theorem sedov_clock {m : Nat} {P : Type} [Inhabited P] {H : Hydro m ℝ P} {cfl : ℝ} {s s' : Sedov.State m ℝ} {n : Nat} (h1 : 1 ≤ n) (hn : n < 2 ^ 31)
    {r : Nat → ℝ} (hv : Line s.vertices (n + 1) r) (h : Sedov.nextSolution H cfl s = .ok s') :
    s'.vertices = s.vertices ∧ s'.time = s.time + cfl * (r 1 - r 0) := by
  obtain ⟨D, e1, hD⟩ := hv.difference (by omega)
  have e2 : D.get (fun _ => 0) = .ok (r 1 - r 0) := hD.2 0 (by omega)
  unfold Sedov.nextSolution Sedov.nextSolutionBy at h
  rw [e1, Outcome.bind_ok, e2, Outcome.bind_ok] at h
  simp only [Outcome.bind_eq_ok, Outcome.ok.injEq] at h
  obtain ⟨_, _, _, _, _, _, _, _, _, _, _, _, _, _, _, _, _, _, _, _, _, _, _, _, _, _, _, _, _, _, rfl⟩ := h
  exact ⟨rfl, rfl⟩

/-- **C119** for the sedov program, on its own grid of `m` zones and with either system of equations: a run that comes to its end has passed the loop as many
times as it takes, in steps of 0.4 times the width of the first zone, to get to the final time. -/
theorem sedov_steps {D P : Type} [Inhabited P] {H : Hydro 5 ℝ P} {stod : Str → Outcome ℝ} {t : Template ℝ}
    {fs : Str → Option (Checkpoint (Sedov.State 5 ℝ) ℝ Unit)} {args : SMap Str} {cfg : Config ℝ} {tf : ℝ} (diag series : Sedov.State 5 ℝ → D)
    (toC : Vec 5 ℝ → Vec 5 ℝ) (c : RunConfig) (m : Nat) (ho : 1 < c.outerRadius) (hnr : 0 < c.nr)
    (hm1 : (m : ℝ) ≤ Real.logb 10 c.outerRadius * c.nr) (hm2 : Real.logb 10 c.outerRadius * c.nr < m + 1) (h1 : 1 ≤ m) (hm : m + 1 < 2 ^ 31)
    (hcfg : createRunConfig stod t fs kRunConfig args = .ok cfg) (hr : cfg.getString kRestart = .ok [])
    (ht : cfg.getDouble kTfinal = .ok tf) {dt : ℝ}
    (hdt : dt = 2 / 5 * ((10 : ℝ) ^ (-1 / 2 + (Real.logb 10 c.outerRadius + 1 / 2) / m) - (10 : ℝ) ^ (-1 / 2 : ℝ))) :
    0 < dt ∧ ∀ N w, main stod t (fun _ => newSolution toC c) ⟨fun _ => Sedov.nextSolution H (2 / 5), Sedov.State.time, diag, series⟩ .sedov fs args =
      .ok (N, w) → N = ⌈tf / dt⌉₊ ∧ w.1.solution.time = (N + 1) * dt := by
  obtain ⟨st, x, e, t0, hx, hxk, hU⟩ := start_any toC c m ho hnr hm1 hm2 h1 hm
  have hm0 : (0 : ℝ) < m := by exact_mod_cast h1
  have hdec : 0 < Real.logb 10 c.outerRadius := Real.logb_pos (by norm_num) ho
  have hdx : dt = 2 / 5 * (x 1 - x 0) := by
    rw [hdt, hxk, hxk]
    congr 3
    · push_cast
      ring
    · push_cast
      ring
  have hpos : 0 < dt := by
    rw [hdt]
    have : (10 : ℝ) ^ (-1 / 2 : ℝ) < (10 : ℝ) ^ (-1 / 2 + (Real.logb 10 c.outerRadius + 1 / 2) / m) :=
      Real.rpow_lt_rpow_of_exponent_lt (by norm_num) (by
        have : 0 < (Real.logb 10 c.outerRadius + 1 / 2) / m := by positivity
        linarith)
    linarith
  refine ⟨hpos, fun N w h => ?_⟩
  obtain ⟨s0, c1, c2, c3⟩ := createState_ready (k := .sedov) (fresh := fun _ => newSolution toC c) (fs := fs) hr e
  rw [main] at h
  obtain ⟨w0, hb, hf⟩ := Outcome.bind_eq_ok.1 h
  rw [begin, show Kind.sedov.configRead = kRunConfig from rfl, hcfg, Outcome.bind_ok, c1, Outcome.bind_ok] at hb
  obtain ⟨r0, r1⟩ := runTasks_ready (w := (s0, [])) c2 hb
  have r1 : w0.1.solution = st := r1.trans c3
  have := finish_count r0 hpos ht (fun s => Line s.vertices (m + 1) x) (by rw [r1]; exact hx)
    (fun s s' hs he => by
      obtain ⟨a, b⟩ := sedov_clock h1 (by omega) hs he
      refine ⟨by rw [a]; exact hs, ?_⟩
      show s'.time = s.time + dt
      rw [b, hdx]) hf
  dsimp only at this
  rw [r1, t0, sub_zero, zero_add] at this
  exact this

/-- A step of the cloud program that succeeds leaves the grid, and takes the clock on by `cfl` times the width of the first zone. -/
theorem cloud_clock {g : Cloud.Gas} {inflow : ℝ → ℝ → Vec 5 ℝ} {method : Int} {z : Fin 5 → Bool} {theta cfl : ℝ} {rk : Int} {s s' : Cloud.Solution}
    {n : Nat} (h1 : 1 ≤ n) (hn : n < 2 ^ 31) {r : Nat → ℝ} (hv : Line s.radial (n + 1) r)
    (h : Cloud.nextSolution g inflow method z theta cfl rk s = .ok s') :
    s'.radial = s.radial ∧ s'.time = s.time + (r 1 - r 0) * cfl := by
  have adv : ∀ {f : ℝ → Vec 5 ℝ} {a b : Cloud.Solution} {dt : ℝ}, Cloud.advance g f method z theta a dt = .ok b →
      b.radial = a.radial ∧ b.time = a.time + dt := by
    intro f a b dt h
    unfold Cloud.advance at h
    by_cases hm : method = 1 ∨ method = 2
    · simp only [if_pos hm, Outcome.bind_eq_ok, Outcome.ok.injEq] at h
      obtain ⟨_, _, _, _, _, _, _, _, _, _, _, _, _, _, _, _, _, _, _, _, _, _, _, _, _, _, _, _, _, _, _, _, _, _, _, _, _, _, _, _, _, _, _, _, _, _,
        _, _, _, _, rfl⟩ := h
      exact ⟨rfl, rfl⟩
    · simp only [if_neg hm, Outcome.bind_eq_ok] at h
      obtain ⟨_, _, _, _, _, _, _, _, _, _, _, _, _, _, _, _, _, _, _, _, _, _, _, _, h⟩ := h
      cases h
  obtain ⟨D, e1, hD⟩ := hv.difference (by omega)
  have e2 : D.get (fun _ => 0) = .ok (r 1 - r 0) := hD.2 0 (by omega)
  unfold Cloud.nextSolution at h
  rw [e1, Outcome.bind_ok, e2, Outcome.bind_ok] at h
  dsimp only at h
  split_ifs at h
  · exact adv h
  · simp only [Outcome.bind_eq_ok, Outcome.ok.injEq] at h
    obtain ⟨s1, a1, s2, a2, _, _, _, _, _, _, _, _, rfl⟩ := h
    refine ⟨rfl, ?_⟩
    show s.time * (1 / 2) + s2.time * (1 / 2) = _
    rw [(adv a2).2, (adv a1).2]
    ring

/-- **C119** for the cloud program: a new run that starts on a grid of `n` radial zones and comes to its end has passed the loop as many times as it takes, in
steps of `cfl` times the width of the first zone, to get to the final time.  This is so with either order of the time integration. -/
theorem cloud_steps {D : Type} {g : Cloud.Gas} {inflow : ℝ → ℝ → Vec 5 ℝ} {method : Int} {z : Fin 5 → Bool} {theta cfl : ℝ} {rk : Int}
    {stod : Str → Outcome ℝ} {t : Template ℝ} {fs : Str → Option (Checkpoint Cloud.Solution ℝ Unit)} {args : SMap Str} {cfg : Config ℝ} {tf : ℝ}
    (diag series : Cloud.Solution → D) {fresh : Config ℝ → Outcome Cloud.Solution} {s : Cloud.Solution} (hs : fresh cfg = .ok s) {n : Nat} (h1 : 1 ≤ n)
    (hn : n < 2 ^ 31) {r : Nat → ℝ} (hv : Line s.radial (n + 1) r) (hr01 : r 0 < r 1) (hcfl : 0 < cfl)
    (hcfg : createRunConfig stod t fs kConfig args = .ok cfg) (hr : cfg.getString kRestart = .ok []) (ht : cfg.getDouble kTfinal = .ok tf)
    {N : Nat} {w : World Cloud.Solution ℝ D}
    (h : main stod t fresh ⟨fun _ => Cloud.nextSolution g inflow method z theta cfl rk, Cloud.Solution.time, diag, series⟩ .cloud fs args = .ok (N, w)) :
    N = ⌈(tf - s.time) / ((r 1 - r 0) * cfl)⌉₊ ∧ w.1.solution.time = s.time + (N + 1) * ((r 1 - r 0) * cfl) := by
  have hpos : 0 < (r 1 - r 0) * cfl := mul_pos (by linarith) hcfl
  obtain ⟨s0, c1, c2, c3⟩ := createState_ready (k := .cloud) (fs := fs) hr hs
  rw [main] at h
  obtain ⟨w0, hb, hf⟩ := Outcome.bind_eq_ok.1 h
  rw [begin, show Kind.cloud.configRead = kConfig from rfl, hcfg, Outcome.bind_ok, c1, Outcome.bind_ok] at hb
  obtain ⟨r0, r1⟩ := runTasks_ready (w := (s0, [])) c2 hb
  have r1 : w0.1.solution = s := r1.trans c3
  have := finish_count r0 hpos ht (fun s => Line s.radial (n + 1) r) (by rw [r1]; exact hv)
    (fun s s' hs he => by
      obtain ⟨a, b⟩ := cloud_clock h1 (by omega) hs he
      exact ⟨by rw [a]; exact hs, b⟩) hf
  dsimp only at this
  rw [r1] at this
  exact this

/-! ### Examples -/

/-- The boilerplate program as it comes, with 256 cells: 1028 passes of the loop and two checkpoints. -/
example (initial : ℝ → ℝ) : ∃ w, main (σ := Advection ℝ) (D := Unit) (fun _ => .throws .invalidArgument)
    [("N".toList, .int 256), (kCpi, .dbl 1), (kRestart, .str []), (kTfinal, .dbl 1)] (fun _ => newAdvection initial 256)
    ⟨fun _ => nextAdvection, Advection.time, fun _ => (), fun _ => ()⟩ .boilerplate (fun _ => none) [] = .ok (1028, w) ∧
    performed w.1.schedule kCheckpoint = 2 := by
  obtain ⟨w, N, h1, h2, -, h4⟩ := boilerplate_ends (D := Unit) (stod := fun _ => .throws .invalidArgument)
    (t := [("N".toList, .int 256), (kCpi, .dbl 1), (kRestart, .str []), (kTfinal, .dbl 1)]) (fs := fun _ => none) (args := []) (tf := 1) (cpi := 1)
    (fun _ => ()) initial 256 (by norm_num) (by norm_num) rfl rfl rfl rfl (by norm_num)
  have : N = 1028 := by
    rw [h2, show (4 : ℝ) * (((256 : Nat) : ℝ) + 1) * 1 = ((1028 : Nat) : ℝ) by norm_num, Nat.ceil_natCast]
  subst this
  refine ⟨w, h1, ?_⟩
  rw [h4, show ((1028 : Nat) : ℝ) / (4 * (((256 : Nat) : ℝ) + 1)) / 1 = ((1 : Nat) : ℝ) by norm_num, Nat.floor_natCast]

/-- A program with steps of a quarter. -/
noncomputable def exQuarter : Env ℝ ℝ ℝ := ⟨fun _ s => .ok (s + 1 / 4), id, id, id⟩

/-- Its configuration. -/
noncomputable def exQuarterTemplate : Template ℝ :=
  [(kCpi, .dbl 1), (kDfi, .dbl 2), (kOutdir, .str ".".toList), (kRestart, .str []), (kTfinal, .dbl (41 / 10)), (kTsi, .dbl (3 / 10))]

/-- The sedov program with such steps until time 4.1: 17 steps, and 5, 3 and 15 outputs. -/
example : ∃ w, main (fun _ => .throws .invalidArgument) exQuarterTemplate (fun _ => .ok 0) exQuarter .sedov (fun _ => none) [] = .ok (17, w) ∧
    w.1.solution = 9 / 2 ∧ performed w.1.schedule kCheckpoint = 5 ∧ performed w.1.schedule kDiagnostics = 3 ∧
    performed w.1.schedule kSeries = 15 := by
  obtain ⟨w, N, h1, h2, -, h4, h5⟩ := main_ends (stod := fun _ => .throws .invalidArgument) (t := exQuarterTemplate) (fresh := fun _ => .ok 0)
    (e := exQuarter) (k := .sedov) (fs := fun _ => none) (args := []) (cfg := Template.create exQuarterTemplate) (sol := 0) (tf := 41 / 10) (dt := 1 / 4)
    rfl rfl rfl
    (fun p hp => by
      simp only [cadences, List.mem_cons, List.not_mem_nil, or_false] at hp
      rcases hp with rfl | rfl | rfl <;> exact ⟨_, rfl⟩)
    (fun _ => ⟨".".toList, rfl⟩) rfl (by norm_num) (fun _ => True) trivial (fun s _ => ⟨s + 1 / 4, rfl, trivial, rfl⟩)
  have hN : N = 17 := by
    rw [h2, Nat.ceil_eq_iff (by norm_num)]
    constructor <;> norm_num [exQuarter]
  subst hN
  refine ⟨w, h1, ?_, ?_, ?_, ?_⟩
  · exact h4.trans (by norm_num [exQuarter])
  · rw [h5 kCheckpoint kCpi 1 (by decide) rfl (by norm_num) le_rfl (by norm_num [exQuarter]),
      (Nat.floor_eq_iff (n := 4) (by norm_num [exQuarter])).2 (by constructor <;> norm_num [exQuarter])]
  · rw [h5 kDiagnostics kDfi 2 (by decide) rfl (by norm_num) le_rfl (by norm_num [exQuarter]),
      (Nat.floor_eq_iff (n := 2) (by norm_num [exQuarter])).2 (by constructor <;> norm_num [exQuarter])]
  · rw [h5 kSeries kTsi (3 / 10) (by decide) rfl (by norm_num) le_rfl (by norm_num [exQuarter]),
      (Nat.floor_eq_iff (n := 14) (by norm_num [exQuarter])).2 (by constructor <;> norm_num [exQuarter])]

/-- A state in which a program is ready. -/
noncomputable def exReady : World ℝ ℝ ℝ :=
  (⟨1, [(kCheckpoint, ⟨kCheckpoint, 1, 0, false⟩), (kDiagnostics, ⟨kDiagnostics, 1, 0, false⟩), (kSeries, ⟨kSeries, 1, 0, false⟩)],
    Template.create exQuarterTemplate⟩, [])

theorem exReady_ready (k : Kind) : Ready k (Template.create exQuarterTemplate) exReady.1 := by
  refine ⟨rfl, fun p hp => ?_⟩
  cases k <;> simp only [cadences, List.mem_cons, List.not_mem_nil, or_false] at hp
  · subst hp; simp [exReady, SMap.keys]
  · rcases hp with rfl | rfl | rfl <;> simp [exReady, SMap.keys]
  · rcases hp with rfl | rfl | rfl <;> simp [exReady, SMap.keys]

/-- `finish_cases` and `finish_count`: from time 1 to 4.1 with steps of 1/4, of which the one at time 3 fails. -/
example : ∃ v : Nat → World ℝ ℝ ℝ, v 0 = exReady ∧
    finish ⟨fun _ s => if s < 3 then .ok (s + 1 / 4) else .throws .runtimeError, id, id, id⟩ .cloud exReady = .throws .runtimeError := by
  obtain ⟨v, j, v0, vb, vt, ⟨hj, hf⟩ | ⟨hj, hf, hc⟩⟩ := finish_cases
    (e := ⟨fun _ s => if s < 3 then .ok (s + 1 / 4) else .throws .runtimeError, id, id, id⟩) (exReady_ready .cloud) (tf := 41 / 10) (dt := 1 / 4)
    (by norm_num) rfl (fun _ => True) trivial (fun s s' _ h => by
      dsimp only at h
      split_ifs at h
      exact ⟨trivial, (Outcome.ok.inj h).symm⟩)
  · exfalso
    have h8 : 8 < j := by
      rw [hj]
      refine Nat.lt_succ_of_lt (Nat.lt_ceil.2 ?_)
      show ((8 : Nat) : ℝ) < (41 / 10 - 1) / (1 / 4)
      norm_num
    have h := vb 8 h8
    have ht := vt 8 h8.le
    obtain ⟨s, hs, _⟩ := Outcome.bind_eq_ok.1 h
    obtain ⟨_, h2, _⟩ := next_ok hs
    dsimp only at h2 ht
    rw [if_neg (by rw [show (v 8).1.solution = _ from ht]; norm_num [exReady])] at h2
    cases h2
  · refine ⟨v, v0, ?_⟩
    rw [hc]
    obtain ⟨hr, _⟩ : Ready .cloud (Template.create exQuarterTemplate) (v j).1 ∧ True := by
      refine ⟨?_, trivial⟩
      have : ∀ i ≤ j, Ready .cloud (Template.create exQuarterTemplate) (v i).1 := by
        intro i
        induction i with
        | zero => exact fun _ => v0 ▸ exReady_ready .cloud
        | succ i ih => exact fun hi => (body_ready (ih (by omega)) (vb i hi)).1
      exact this j le_rfl
    by_cases h3 : (v j).1.solution < 3
    · obtain ⟨w', hw'⟩ := body_exists (e := ⟨fun _ s => if s < 3 then .ok (s + 1 / 4) else .throws .runtimeError, id, id, id⟩) hr
        (fun p hp => by
          simp only [cadences, List.mem_cons, List.not_mem_nil, or_false] at hp
          rcases hp with rfl | rfl | rfl <;> exact ⟨_, rfl⟩) (fun _ => ⟨".".toList, rfl⟩) (if_pos h3)
      exact absurd hw' (hf w')
    · rw [body, next]
      dsimp only
      rw [if_neg h3]
      rfl

/-- `finish_ends`. -/
example : finish exQuarter .cloud exReady ≠ .diverges :=
  finish_ends (exReady_ready .cloud) (tf := 41 / 10) (dt := 1 / 4) (by norm_num) rfl
    (fun p hp => by
      simp only [cadences, List.mem_cons, List.not_mem_nil, or_false] at hp
      rcases hp with rfl | rfl | rfl <;> exact ⟨_, rfl⟩) (fun _ => ⟨".".toList, rfl⟩) (fun _ => True) trivial
    (fun s s' _ h => ⟨trivial, (Outcome.ok.inj h).symm⟩) (fun s _ => nofun)

/-- The sedov program as it comes, with two decades of 256 zones: the time step is positive. -/
example (toC : Vec 5 ℝ → Vec 5 ℝ) : 0 < 2 / 5 * ((10 : ℝ) ^ (-1 / 2 + (Real.logb 10 100 + 1 / 2) / ((512 : Nat) : ℝ)) - (10 : ℝ) ^ (-1 / 2 : ℝ)) := by
  have h2 : Real.logb 10 100 = 2 := by
    rw [show (100 : ℝ) = 10 ^ (2 : ℝ) by norm_num, Real.logb_rpow (by norm_num) (by norm_num)]
  exact (sedov_steps (D := Unit) (H := relativistic (4 / 3)) (stod := fun _ => .throws .invalidArgument) (t := exQuarterTemplate)
    (fs := fun _ => none) (args := []) (cfg := Template.create exQuarterTemplate) (tf := 41 / 10) (fun _ => ()) (fun _ => ()) toC
    ⟨256, 100, 1, 1, 0⟩ 512 (by norm_num) (by norm_num) (by dsimp only; rw [h2]; norm_num) (by dsimp only; rw [h2]; norm_num) (by norm_num) (by norm_num)
    rfl rfl rfl rfl).1

/-- Gas at rest in six cells. -/
noncomputable def exCloud : Cloud.Solution :=
  ⟨0, ⟨fun _ => 3, fun i => .ok (Cloud.Example.radius (i 0))⟩, ⟨fun _ => 4, fun i => .ok (Cloud.Example.angle (i 0))⟩, ⟨![2, 3], fun i => .ok fun a =>
    Srhd.toConserved Cloud.Example.rest (4 / 3) a * Cloud.wedge (Cloud.Example.radius (i 0)) (Cloud.Example.radius (i 0 + 1)) (Cloud.Example.angle (i 1)) (Cloud.Example.angle (i 1 + 1))⟩⟩

/-- A run that is asked to end no later than it starts takes one step nevertheless. -/
theorem main_late {stod : Str → Outcome ℝ} {t : Template ℝ} {fresh : Config ℝ → Outcome σ} {e : Env σ ℝ D} {k : Kind}
    {fs : Str → Option (Checkpoint σ ℝ Unit)} {args : SMap Str} {cfg : Config ℝ} {sol sol' : σ} {tf : ℝ}
    (hcfg : createRunConfig stod t fs k.configRead args = .ok cfg) (hr : cfg.getString kRestart = .ok [])
    (ht : cfg.getDouble kTfinal = .ok tf) (hint : ∀ p ∈ cadences k, ∃ x, cfg.getDouble p.2 = .ok x)
    (hout : k ≠ .boilerplate → ∃ d, cfg.getString kOutdir = .ok d) (hs : fresh cfg = .ok sol) (hle : tf ≤ e.time sol)
    (hstep : e.advance cfg sol = .ok sol') : ∃ w, main stod t fresh e k fs args = .ok (0, w) ∧ w.1.solution = sol' := by
  obtain ⟨s0, c1, c2, c3⟩ := createState_ready (k := k) (fs := fs) hr hs
  obtain ⟨w0, e0⟩ := runTasks_exists (e := e) (f := []) c2 hout
  obtain ⟨r0, r1⟩ := runTasks_ready (w := (s0, [])) c2 e0
  have r1 : w0.1.solution = sol := r1.trans c3
  obtain ⟨w, hw⟩ := body_exists r0 hint hout (sol := sol') (by rw [r1]; exact hstep)
  obtain ⟨_, r2⟩ := body_ready r0 hw
  refine ⟨w, ?_, ?_⟩
  · have hgo := go_eq (e := e) r0 ht
    rw [r1] at hgo
    have hc : Loop.counted (fun w : World σ ℝ D => shouldContinue e w.1) (body e k) w0 = .ok (0, w0) := by
      rw [Loop.counted, Loop.whileLoop_unfold]
      simp [hgo, not_lt.2 hle]
    rw [main, begin, hcfg, Outcome.bind_ok, c1, Outcome.bind_ok, e0, Outcome.bind_ok, finish, hc, Outcome.bind_ok]
    dsimp only
    rw [hw, Outcome.map_ok]
  · rw [r1] at r2
    exact Outcome.ok.inj (r2.symm.trans hstep)

/-- The configuration of a run until time zero. -/
noncomputable def exLate : Template ℝ :=
  [(kCpi, .dbl 1), (kDfi, .dbl 2), (kOutdir, .str ".".toList), (kRestart, .str []), (kTfinal, .dbl 0), (kTsi, .dbl (3 / 10))]

/-- The cloud program with its default reconstruction, asked to run until time zero: it takes one step. -/
example (z : Fin 5 → Bool) : ∃ w, main (D := Unit) (fun _ => .throws .invalidArgument) exLate (fun _ => .ok exCloud)
      ⟨fun _ => Cloud.nextSolution (Cloud.srhd 0) (fun _ _ => Cloud.Example.rest) 2 z (6 / 5) (2 / 5) 1, Cloud.Solution.time, fun _ => (), fun _ => ()⟩ .cloud
      (fun _ => none) [] = .ok (0, w) ∧ w.1.solution.time = (Cloud.Example.radius 1 - Cloud.Example.radius 0) * (2 / 5) := by
  obtain ⟨s', u', dt, hdt, g1, _, _, _, _, _⟩ := Cloud.budget_first_order (m := 2) (n := 3) (r := Cloud.Example.radius) (q := Cloud.Example.angle) 0
      (fun _ _ => Cloud.Example.rest) 2 z
      (6 / 5) (2 / 5) exCloud (Or.inr rfl) (by omega) (by omega) (Or.inr (by omega)) (by norm_num) _ ⟨rfl, fun _ _ => rfl⟩ ⟨rfl, fun _ _ => rfl⟩
      ⟨rfl, rfl, fun _ _ _ _ => rfl⟩ (fun i _ j hj => (Cloud.Example.wedge_pos i j hj).ne') _ _ _ _ (Cloud.Example.rest_found 2 z (6 / 5))
  have hrad : Cloud.Example.radius 0 < Cloud.Example.radius 1 := by
    unfold Cloud.Example.radius
    norm_num
  have hv : Line exCloud.radial (2 + 1) Cloud.Example.radius := ⟨rfl, fun _ _ => rfl⟩
  have ht : exCloud.time = 0 := rfl
  generalize hs : exCloud = s at g1 hv ht ⊢
  clear hs
  obtain ⟨w, hm, -⟩ := main_late (D := Unit) (stod := fun _ => .throws .invalidArgument) (t := exLate) (fresh := fun _ => .ok s)
    (e := ⟨fun _ => Cloud.nextSolution (Cloud.srhd 0) (fun _ _ => Cloud.Example.rest) 2 z (6 / 5) (2 / 5) 1, Cloud.Solution.time, fun _ => (), fun _ => ()⟩)
    (k := .cloud) (fs := fun _ => none) (args := []) (cfg := Template.create exLate) (tf := 0) rfl rfl rfl
    (fun p hp => by
      simp only [cadences, List.mem_cons, List.not_mem_nil, or_false] at hp
      rcases hp with rfl | rfl | rfl <;> exact ⟨_, rfl⟩) (fun _ => ⟨".".toList, rfl⟩) rfl ht.ge g1
  refine ⟨w, hm, ?_⟩
  obtain ⟨-, h⟩ := cloud_steps (fun _ => ()) (fun _ => ()) (fresh := fun _ => .ok s) (s := s) (n := 2) (cfg := Template.create exLate) (tf := 0) rfl (by norm_num)
    (by norm_num) (r := Cloud.Example.radius) hv hrad (by norm_num) rfl rfl rfl hm
  rw [h, ht]
  push_cast
  ring

end Verif.Runs.App
