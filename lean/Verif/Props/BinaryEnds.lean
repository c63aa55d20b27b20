import Verif.Lemmas.RunsExist
import Verif.Lemmas.Counted
import Verif.Props.BinarySeries

/-!
# The end of a run of the binary program

C119 for the binary program.  With a fixed time step, every step takes the clock on by that or, when the step had to be made again in safe mode, by a
tenth of it.
-/

namespace Verif.Runs.Binary
open Verif Verif.Text Verif.Config Verif.Sched

variable {σ τ μ D : Type}

/-- The loop with its count is the relation that other properties are stated with. -/
theorem finish_iff [Add τ] [Sub τ] [Mul τ] [Div τ] [LinearOrder τ] {e : Env σ τ μ D} {w w' : World σ τ μ D} {n : Nat} :
    finish e w = .ok (n, w') ↔ Finishes e w n w' := by
  have hunf : ∀ (k : Nat) (w : World σ τ μ D), Loop.whileLoop (Loop.cstep (fun w : World σ τ μ D => shouldContinue e w.1) (body e)) (k, w) =
      (shouldContinue e w.1).bind fun c => if c then (body e w).bind fun v =>
        Loop.whileLoop (Loop.cstep (fun w : World σ τ μ D => shouldContinue e w.1) (body e)) (k + 1, v) else .ok (k, w) := by
    intro k w
    rw [Loop.whileLoop_unfold, Loop.cstep]
    cases hc : shouldContinue e w.1 with
    | ok c =>
      simp only [hc, Outcome.bind_ok]
      cases c with
      | true =>
        simp only [if_true]
        cases body e w <;> rfl
      | false => rfl
    | throws x => simp only [hc]; rfl
    | ub => simp only [hc]; rfl
    | diverges => simp only [hc]; rfl
  constructor
  · intro h
    rw [finish] at h
    obtain ⟨⟨k, v⟩, h1, h2⟩ := Outcome.bind_eq_ok.1 h
    obtain ⟨w'', h3, h4⟩ := Outcome.map_eq_ok.1 h2
    obtain ⟨rfl, rfl⟩ := Prod.mk.inj h4
    rw [Loop.counted_eq, Loop.whileLoop_eq_ok_iff] at h1
    obtain ⟨j, hj⟩ := h1
    suffices key : ∀ (j i : Nat) (w : World σ τ μ D), Loop.run (Loop.cstep (fun w : World σ τ μ D => shouldContinue e w.1) (body e)) j (i, w) = .ok (k, v) →
        ∃ m, k = i + m ∧ Finishes e w m w'' by
      obtain ⟨m, rfl, hm⟩ := key j 0 w hj
      rwa [Nat.zero_add]
    intro j
    induction j with
    | zero => exact fun _ _ h => nomatch h
    | succ j ih =>
      intro i w h
      rw [Loop.run, Loop.cstep] at h
      dsimp only at h
      cases hc : shouldContinue e w.1 with
      | ok c =>
        rw [hc, Outcome.bind_ok] at h
        cases c with
        | true =>
          rw [if_pos rfl] at h
          cases hb : body e w with
          | ok w1 =>
            rw [hb, Outcome.map_ok] at h
            obtain ⟨m, rfl, hm⟩ := ih _ _ h
            exact ⟨m + 1, by omega, .loop hc hb hm⟩
          | throws x => rw [hb] at h; cases h
          | ub => rw [hb] at h; cases h
          | diverges => rw [hb] at h; cases h
        | false =>
          cases h
          exact ⟨0, rfl, .exit hc h3⟩
      | throws x => rw [hc] at h; cases h
      | ub => rw [hc] at h; cases h
      | diverges => rw [hc] at h; cases h
  · intro h
    suffices key : ∀ k, (Loop.whileLoop (Loop.cstep (fun w : World σ τ μ D => shouldContinue e w.1) (body e)) (k, w)).bind
        (fun p => (body e p.2).map fun w' => (p.1, w')) = .ok (k + n, w') by
      have := key 0
      rw [Nat.zero_add] at this
      exact this
    induction h with
    | exit hc hb =>
      intro k
      rw [hunf, hc, Outcome.bind_ok, if_neg (by decide), Outcome.bind_ok]
      dsimp only
      rw [hb, Outcome.map_ok, Nat.add_zero]
    | loop hc hb _ ih =>
      intro k
      rw [hunf, hc, Outcome.bind_ok, if_pos rfl, hb, Outcome.bind_ok, ih, Nat.add_assoc, Nat.add_comm 1]

section
variable {e : Env σ ℝ μ D} {cfg : Config ℝ} {w w' : World σ ℝ μ D} {tf lo hi : ℝ} {n : Nat}

theorem go_eq (hp : 0 < e.twoPi) (h : Ready cfg w.1) (ht : cfg.getDouble kTfinal = .ok tf) :
    shouldContinue e w.1 = .ok (decide (e.time w.1.solution < tf * e.twoPi)) := by
  rw [shouldContinue, h.config, ht, Outcome.map_ok]
  simp only [div_lt_iff₀ hp]

/-- **C119** for the binary program: if every step takes the clock on by at least `lo` and at most `hi`, a run that comes to its end makes at least as many passes
as there are intervals `hi` in the time to be simulated, and less than the number of intervals `lo` in it and one more.  There is one step more after the loop. -/
theorem finish_count (hp : 0 < e.twoPi) (hw : Ready cfg w.1) (ht : cfg.getDouble kTfinal = .ok tf) (hlo : 0 < lo) (Inv : σ → Prop) (h0 : Inv w.1.solution)
    (hstep : ∀ s s', Inv s → e.advance cfg s = .ok s' → Inv s' ∧ e.time s + lo ≤ e.time s' ∧ e.time s' ≤ e.time s + hi) (h : Finishes e w n w') :
    tf * e.twoPi - e.time w.1.solution ≤ n * hi ∧ (n = 0 ∨ (n - 1) * lo < tf * e.twoPi - e.time w.1.solution) ∧
    e.time w.1.solution + (n + 1) * lo ≤ e.time w'.1.solution ∧ e.time w'.1.solution ≤ e.time w.1.solution + (n + 1) * hi ∧
    tf * e.twoPi + lo ≤ e.time w'.1.solution ∧ (n = 0 ∨ e.time w'.1.solution < tf * e.twoPi + 2 * hi) := by
  rw [← finish_iff, finish] at h
  obtain ⟨⟨k, v⟩, h1, h2⟩ := Outcome.bind_eq_ok.1 h
  obtain ⟨w'', h3, h4⟩ := Outcome.map_eq_ok.1 h2
  obtain ⟨rfl, rfl⟩ := Prod.mk.inj h4
  have hbody : ∀ s s' : World σ ℝ μ D, Ready cfg s.1 ∧ Inv s.1.solution → body e s = .ok s' → (Ready cfg s'.1 ∧ Inv s'.1.solution) ∧
      e.time s.1.solution + lo ≤ e.time s'.1.solution ∧ e.time s'.1.solution ≤ e.time s.1.solution + hi := by
    intro s s' h he
    obtain ⟨a, b⟩ := body_ready h.1 he
    obtain ⟨c, d, f⟩ := hstep _ _ h.2 b
    exact ⟨⟨a, c⟩, d, f⟩
  obtain ⟨c1, c2, c3, c4, c5⟩ := Loop.counted_range (fun s : World σ ℝ μ D => Ready cfg s.1 ∧ Inv s.1.solution) (fun s => e.time s.1.solution) (tf * e.twoPi) lo hi hlo
    (fun s hs => go_eq hp hs.1 ht) hbody ⟨hw, h0⟩ h1
  obtain ⟨-, d1, d2⟩ := hbody _ _ c1 h3
  dsimp only at *
  refine ⟨by linarith, ?_, by linarith, by linarith, by linarith, ?_⟩
  · rcases c5 with c | ⟨c, -⟩
    · exact .inl c
    · exact .inr (by linarith)
  · rcases c5 with c | ⟨-, c⟩
    · exact .inl c
    · exact .inr (by linarith)

/-- **C119** for the binary program: a run does not go on for ever unless a step or an output does. -/
theorem finish_ends (hp : 0 < e.twoPi) (hw : Ready cfg w.1) (ht : cfg.getDouble kTfinal = .ok tf) (hlo : 0 < lo)
    (hint : ∀ key ∈ [kCpi, kDfi, kTsi], ∃ x, cfg.getDouble key = .ok x) {d : Str} (hout : cfg.getString kOutdir = .ok d) (Inv : σ → Prop)
    (h0 : Inv w.1.solution) (hstep : ∀ s, Inv s → (∃ s' x y, e.advance cfg s = .ok s' ∧ Inv s' ∧ e.time s + lo ≤ e.time s' ∧ e.sample cfg s' = .ok x ∧ e.diag cfg s' = .ok y) ∨
      (∃ x, e.advance cfg s = .throws x) ∨ e.advance cfg s = .ub) : finish e w ≠ .diverges := by
  have hb : ∀ s : World σ ℝ μ D, Ready cfg s.1 ∧ Inv s.1.solution → body e s ≠ .diverges ∧
      ∀ s', body e s = .ok s' → (Ready cfg s'.1 ∧ Inv s'.1.solution) ∧ e.time s.1.solution + lo ≤ e.time s'.1.solution := by
    intro s hs
    rcases hstep _ hs.2 with ⟨r, x, y, a1, a2, a3, a4, a5⟩ | ⟨x, hx⟩ | hx
    · obtain ⟨v, hv⟩ := body_exists hs.1 hint hout a1 ⟨x, a4⟩ ⟨y, a5⟩
      refine ⟨by rw [hv]; exact nofun, fun s' hs' => ?_⟩
      obtain ⟨b1, b2⟩ := body_ready hs.1 hs'
      have := Outcome.ok.inj (a1.symm.trans b2)
      subst this
      exact ⟨⟨b1, a2⟩, a3⟩
    · have : body e s = .throws x := by
        rw [body, nextState, hs.1.config, hx]
        rfl
      rw [this]
      exact ⟨nofun, nofun⟩
    · have : body e s = .ub := by
        rw [body, nextState, hs.1.config, hx]
        rfl
      rw [this]
      exact ⟨nofun, nofun⟩
  have hloop := Loop.counted_ends (body := body e) (fun s : World σ ℝ μ D => Ready cfg s.1 ∧ Inv s.1.solution) (fun s => e.time s.1.solution) (tf * e.twoPi) lo hlo
    (fun s hs => go_eq hp hs.1 ht) (fun s s' hs => (hb s hs).2 s') (fun s hs => (hb s hs).1) ⟨hw, h0⟩
  rw [finish]
  cases hc : Loop.counted (fun w : World σ ℝ μ D => shouldContinue e w.1) (body e) w with
  | ok p =>
    rw [Outcome.bind_ok]
    obtain ⟨k, v⟩ := p
    have hP : Ready cfg v.1 ∧ Inv v.1.solution := by
      rw [Loop.counted_eq] at hc
      obtain ⟨⟨n, u⟩, h1, h5⟩ := Loop.whileLoop_invariant _ (fun p : ℕ × World σ ℝ μ D => Ready cfg p.2.1 ∧ Inv p.2.1.solution)
        (fun p q hp' hq => by
          rw [Loop.cstep, go_eq hp hp'.1 ht, Outcome.bind_ok] at hq
          split_ifs at hq
          · obtain ⟨r, hr, hq⟩ := Outcome.map_eq_ok.1 hq
            cases hq
            exact ((hb _ hp').2 _ hr).1
          · cases hq) ⟨hw, h0⟩ hc
      rw [Loop.cstep, go_eq hp h1.1 ht, Outcome.bind_ok] at h5
      split_ifs at h5
      · obtain ⟨r, _, hq⟩ := Outcome.map_eq_ok.1 h5
        cases hq
      · cases h5
        exact h1
    have := (hb v hP).1
    cases hv : body e v with
    | diverges => exact absurd hv this
    | ok x => exact nofun
    | throws x => exact nofun
    | ub => exact nofun
  | throws x => exact nofun
  | ub => exact nofun
  | diverges => exact absurd hc hloop

end

/-! ### Examples -/

/-- A program with steps of 1 or 1/4, of which those at times of 3 and more fail. -/
noncomputable def exUneven : Env ℝ ℝ ℝ Unit :=
  ⟨fun _ s => if s < 1 then .ok (s + 1 / 4) else if s < 3 then .ok (s + 1) else .throws .runtimeError, id, fun _ s => .ok s, fun _ _ => .ok (), 2⟩

/-- A configuration with a final time of `x` orbits. -/
noncomputable def exOptions (x : ℝ) : Config ℝ :=
  Template.create [(kCpi, .dbl 1), (kDfi, .dbl 1), (kOutdir, .str ".".toList), (kRestart, .str []), (kTfinal, .dbl x), (kTsi, .dbl 1)]

theorem exUneven_step {s s' : ℝ} (h : exUneven.advance c s = .ok s') : s + 1 / 4 ≤ s' ∧ s' ≤ s + 1 := by
  dsimp only [exUneven] at h
  split_ifs at h <;> cases h <;> constructor <;> linarith

/-- `finish_count` and `finish_ends`: to a time of 1.9, which takes between 2 and 8 passes, if it comes to an end at all. -/
example (w : World ℝ ℝ ℝ Unit) (hw : Ready (exOptions (19 / 20)) w.1) (h0 : w.1.solution = 0) : finish exUneven w ≠ .diverges ∧
    ∀ n w', Finishes exUneven w n w' → 2 ≤ n ∧ n ≤ 8 := by
  have ht : (exOptions (19 / 20)).getDouble kTfinal = .ok (19 / 20) := rfl
  constructor
  · refine finish_ends (lo := 1 / 4) (by norm_num [exUneven]) hw ht (by norm_num) (fun key hk => ?_) (d := ".".toList) rfl (fun _ => True) trivial fun s _ => ?_
    · simp only [List.mem_cons, List.not_mem_nil, or_false] at hk
      rcases hk with rfl | rfl | rfl <;> exact ⟨_, rfl⟩
    · by_cases h1 : s < 1
      · exact .inl ⟨_, _, _, if_pos h1, trivial, le_rfl, rfl, rfl⟩
      · by_cases h3 : s < 3
        · exact .inl ⟨s + 1, _, _, by simp [exUneven, h1, h3], trivial, by norm_num [exUneven], rfl, rfl⟩
        · exact .inr (.inl ⟨.runtimeError, by simp [exUneven, h1, h3]⟩)
  · intro n w' h
    obtain ⟨a, b, -⟩ := finish_count (lo := 1 / 4) (hi := 1) (by norm_num [exUneven]) hw ht (by norm_num) (fun _ => True) trivial
      (fun s s' _ h => ⟨trivial, exUneven_step h⟩) h
    have a : 19 / 20 * 2 - w.1.solution ≤ (n : ℝ) * 1 := a
    have b : n = 0 ∨ ((n : ℝ) - 1) * (1 / 4) < 19 / 20 * 2 - w.1.solution := b
    rw [h0] at a b
    constructor
    · have : (1 : ℝ) < n := by linarith
      exact_mod_cast this
    · rcases b with b | b
      · omega
      · have : (n : ℝ) < 9 := by linarith
        have : n < 9 := by exact_mod_cast this
        omega

/-- Such a state. -/
example : ∃ (s0 : State ℝ ℝ ℝ) (w : World ℝ ℝ ℝ Unit), createState (fun _ => .ok 0) (fun _ => none) (exOptions (19 / 20)) = .ok s0 ∧
    runTasks exUneven (s0, []) = .ok w ∧ Ready (exOptions (19 / 20)) w.1 ∧ w.1.solution = 0 := by
  obtain ⟨s0, a, b, c⟩ := createState_ready (μ := ℝ) (fresh := fun _ => .ok (0 : ℝ)) (fs := fun _ => none) (cfg := exOptions (19 / 20)) rfl rfl
  obtain ⟨w, hw⟩ := runTasks_exists (e := exUneven) (w := (s0, [])) b (d := ".".toList) rfl ⟨_, rfl⟩ ⟨_, rfl⟩
  obtain ⟨d, e⟩ := runTasks_ready (w := (s0, [])) b hw
  exact ⟨s0, w, a, hw, d, e.trans c⟩

end Verif.Runs.Binary

namespace Verif.Binary
open Verif Verif.Nd Verif.Tree Iso2d TwoBody

variable {sh : Nat → Outcome Nat}

theorem attempt_clock {fuel : Nat} {z : Fin 9 → Bool} {m : SolverData} {s s1 : Solution} {dt : ℝ} {safe : Bool}
    (h : attempt sh fuel z m s dt safe = .ok s1) : s1.time = s.time + dt := by
  unfold attempt at h
  split at h
  · exact (advance_clock h).1
  split at h
  · obtain ⟨a, ha, h⟩ := Outcome.bind_eq_ok.1 h
    obtain ⟨b, hb, h⟩ := Outcome.bind_eq_ok.1 h
    obtain ⟨h0, eh0, h⟩ := Outcome.bind_eq_ok.1 h
    obtain ⟨h2, eh2, h⟩ := Outcome.bind_eq_ok.1 h
    obtain ⟨ta, _⟩ := advance_clock ha
    obtain ⟨tb, _⟩ := advance_clock hb
    obtain ⟨_, t0, _⟩ := scale_cons eh0 m.conserveLinear
    obtain ⟨_, t2, _⟩ := scale_cons eh2 m.conserveLinear
    obtain ⟨_, t1, _⟩ := add_cons h m.conserveLinear
    rw [t1, t0, t2, tb, ta]
    push_cast
    ring
  · cases h

/-- With a fixed step, the clock goes on by that, or by a tenth of it. -/
theorem fixed_clock {fuel : Nat} {z : Fin 9 → Bool} {m : SolverData} {s s1 : Solution} (hf : m.fixedDt = true) (h : nextSolution sh fuel z m s = .ok s1) :
    s1.time = s.time + m.recommendedStep ∨ s1.time = s.time + m.recommendedStep / 10 := by
  unfold nextSolution at h
  rw [if_pos hf, Outcome.bind_ok] at h
  cases ha : attempt sh fuel z m s m.recommendedStep false with
  | throws e =>
    rw [ha] at h
    right
    rw [attempt_clock h]
    ring
  | ok s2 =>
    rw [ha] at h
    cases h
    exact .inl (attempt_clock ha)
  | ub => rw [ha] at h; cases h
  | diverges => rw [ha] at h; cases h

/-- **C119** for the binary program with a fixed time step `dt`, from time `t` to `tf` orbits: a run that comes to its end makes at least `(2 π tf - t) / dt` passes,
and less than ten times that and one more.  It is then beyond the final time, by less than two steps. -/
theorem fixed_run {D : Type} {fuel : Nat} {z : Fin 9 → Bool} {m : SolverData} {diag : Config.Config ℝ → Solution → Outcome D} (hf : m.fixedDt = true)
    (hd : 0 < m.recommendedStep) {cfg : Config.Config ℝ} {w w' : Runs.Binary.World Solution ℝ Row D} (hw : Runs.Binary.Ready cfg w.1) {tf : ℝ}
    (ht : cfg.getDouble Runs.kTfinal = .ok tf) {n : Nat} (h : Runs.Binary.Finishes (env sh fuel z m diag) w n w') :
    (2 * Real.pi * tf - w.1.solution.time) / m.recommendedStep ≤ n ∧
    (n = 0 ∨ (n : ℝ) < 10 * ((2 * Real.pi * tf - w.1.solution.time) / m.recommendedStep) + 1) ∧
    2 * Real.pi * tf < w'.1.solution.time ∧ (n = 0 ∨ w'.1.solution.time < 2 * Real.pi * tf + 2 * m.recommendedStep) := by
  obtain ⟨h1, h2, -, -, h5, h6⟩ := Runs.Binary.finish_count (e := env sh fuel z m diag) (lo := m.recommendedStep / 10) (hi := m.recommendedStep)
    (show (0 : ℝ) < 2 * Real.pi by have := Real.pi_pos; linarith) hw ht (by linarith) (fun _ => True) trivial
    (fun s s' _ he => by
      refine ⟨trivial, ?_⟩
      show s.time + m.recommendedStep / 10 ≤ s'.time ∧ s'.time ≤ s.time + m.recommendedStep
      rcases fixed_clock hf he with e | e <;> rw [e] <;> constructor <;> linarith) h
  have h1 : tf * (2 * Real.pi) - w.1.solution.time ≤ n * m.recommendedStep := h1
  have h2 : n = 0 ∨ (n - 1) * (m.recommendedStep / 10) < tf * (2 * Real.pi) - w.1.solution.time := h2
  have h5 : tf * (2 * Real.pi) + m.recommendedStep / 10 ≤ w'.1.solution.time := h5
  have h6 : n = 0 ∨ w'.1.solution.time < tf * (2 * Real.pi) + 2 * m.recommendedStep := h6
  refine ⟨?_, ?_, by linarith, ?_⟩
  · rw [div_le_iff₀ hd]
    linarith
  · rcases h2 with h2 | h2
    · exact .inl h2
    · right
      have : ((n : ℝ) - 1) / 10 < (2 * Real.pi * tf - w.1.solution.time) / m.recommendedStep := by
        rw [lt_div_iff₀ hd]
        linarith
      linarith
  · rcases h6 with h6 | h6
    · exact .inl h6
    · exact .inr (by linarith)

/-! ### Examples -/

/-- `fixed_run`: the run of `run_exists`, to a final time of no orbits, in both modes. -/
example (lin : Bool) (z : Fin 9 → Bool) : ∃ (m : SolverData) (w1 w2 : Runs.Binary.World Solution ℝ Row Unit), m.fixedDt = true ∧ 0 < m.recommendedStep ∧
    Runs.Binary.Ready runOptions w1.1 ∧ Runs.Binary.Finishes (env exShift 1 z m fun _ _ => .ok ()) w1 0 w2 ∧ 0 < w2.1.solution.time := by
  obtain ⟨x, n0, m, s0, st, w1, w2, hx, hcr, hst, h1, h2, -⟩ := run_exists lin z
  dsimp only at hcr hst
  have hc : Sensible { defaults with conserveLinear := lin, cflNumber := x, fixedDt := true, rkOrder := 1 } := by constructor <;> norm_num [defaults]
  obtain ⟨n1, m', s', b, hcr', _, _, _, _, _, _, _, _, _, ht0, _, _, h, hpos, _, _, _, v, hv, hrec⟩ :=
    start_partial exShift_total hc defaultFocus (.inl (by norm_num [defaults]))
  obtain ⟨e1, e2⟩ := hcr (max n0 n1) (le_max_left _ _)
  obtain ⟨e1', e2'⟩ := hcr' (max n0 n1) (le_max_right _ _)
  have := Outcome.ok.inj (e1.symm.trans e1')
  subst this
  have := Outcome.ok.inj (e2.symm.trans e2')
  subst this
  have hpos' : 0 < m.recommendedStep := by
    rw [hrec]
    exact mul_pos (div_pos hpos (by linarith)) hx
  have hfix : m.fixedDt = true := by
    unfold createSolverData at e1
    iterate 8 obtain ⟨_, _, e1⟩ := Outcome.bind_eq_ok.1 e1
    dsimp only at e1
    split at e1
    · cases e1
      rfl
    · cases e1
  obtain ⟨s1, c1, c2, c3⟩ := Runs.Binary.createState_ready (fs := fun _ => none) (cfg := runOptions) (fresh := fun _ => createSolution exShift defaultFocus (max n0 n1)
    { defaults with conserveLinear := lin, cflNumber := x, fixedDt := true, rkOrder := 1 }) (μ := Row)
    (show runOptions.getString Runs.kRestart = .ok [] from rfl) e2
  have := Outcome.ok.inj (c1.symm.trans (hst _ (le_max_left _ _)))
  subst this
  obtain ⟨r1, r2⟩ := Runs.Binary.runTasks_ready (w := (s1, [])) c2 h1
  have h3 := (fixed_run hfix hpos' r1 (tf := 0) rfl h2).2.2.1
  rw [mul_zero] at h3
  exact ⟨m, w1, w2, hfix, hpos', r1, h2, h3⟩

end Verif.Binary
