import Verif.Model.AmrSandRun
import Verif.Props.AmrSand
import Mathlib.Data.Real.Archimedean
import Mathlib.Algebra.Order.Floor.Semiring

/-!
# C146: which files the program for adaptive meshes writes
-/

namespace Verif.Runs.Sand
open Verif Verif.Text Verif.Sched Verif.Config Verif.Runs

variable {σ D : Type}

/-- The steps of a run with a constant time step: the states `s 0`, `s 1`, … at the times `0`, `dt`, … -/
structure Steps (e : Env σ D) (dt : ℝ) (s : Nat → σ) : Prop where
  advance : ∀ i, e.advance (s i) = .ok (s (i + 1))
  time : ∀ i, e.time (s i) = i * dt

/-- The number of the step that file `k` is written after: the one after the first that is not before `k` intervals, but no more than one file for each step. -/
noncomputable def stop (d dt : ℝ) (k : Nat) : Nat := if k = 0 then 0 else max k ⌈k * d / dt⌉₊ + 1

/-- The name of file `k`. -/
def fileName (outdir : Str) (k : Nat) : Str := Path.join [outdir, Path.numbered "diagnostics".toList k "h5".toList]

open Classical in
/-- The number of files after `i` steps. -/
noncomputable def count (d dt : ℝ) : Nat → Nat
  | 0 => 1
  | i + 1 => if (count d dt i : ℝ) * d ≤ i * dt then count d dt i + 1 else count d dt i

theorem count_pos (d dt : ℝ) (i : Nat) : 1 ≤ count d dt i := by
  induction i with
  | zero => exact le_rfl
  | succ i ih =>
    unfold count
    split <;> omega

theorem count_ahead {d dt : ℝ} (h0 : 0 < dt) (h : dt ≤ d) (i : Nat) : ((i : ℝ) - 1) * dt < count d dt i * d := by
  induction i with
  | zero =>
    unfold count
    push_cast
    nlinarith
  | succ i ih =>
    unfold count
    push_cast
    split
    · push_cast
      nlinarith
    · next hn =>
      push Not at hn
      linarith

theorem stop_slow {d dt : ℝ} (h0 : 0 < dt) (h : dt ≤ d) {k : Nat} (hk : 0 < k) : stop d dt k = ⌈k * d / dt⌉₊ + 1 := by
  unfold stop
  rw [if_neg (by omega), max_eq_right]
  have : (k : ℝ) ≤ k * d / dt := by
    rw [le_div_iff₀ h0]
    exact mul_le_mul_of_nonneg_left h (by positivity)
  exact_mod_cast this.trans (Nat.le_ceil _)

theorem stop_fast {d dt : ℝ} (h0 : 0 < dt) (h : d ≤ dt) {k : Nat} (hk : 0 < k) : stop d dt k = k + 1 := by
  unfold stop
  rw [if_neg (by omega), max_eq_left]
  rw [Nat.ceil_le, div_le_iff₀ h0]
  exact mul_le_mul_of_nonneg_left h (by positivity)

theorem stop_count_slow {d dt : ℝ} (h0 : 0 < dt) (h : dt ≤ d) {i : Nat} (hi : (count d dt i : ℝ) * d ≤ i * dt) : stop d dt (count d dt i) = i + 1 := by
  have hp := count_pos d dt i
  have ha := count_ahead h0 h i
  rw [stop_slow h0 h hp]
  congr 1
  apply le_antisymm
  · rw [Nat.ceil_le, div_le_iff₀ h0]
    exact hi
  · by_contra hc
    push Not at hc
    have h1 : ⌈(count d dt i : ℝ) * d / dt⌉₊ ≤ i - 1 := by omega
    rw [Nat.ceil_le, div_le_iff₀ h0, Nat.cast_sub (by omega), Nat.cast_one] at h1
    linarith

theorem lt_count_slow {d dt : ℝ} (h0 : 0 < dt) (h : dt ≤ d) (i k : Nat) : k < count d dt i ↔ stop d dt k ≤ i := by
  have hd : 0 < d := by linarith
  rcases Nat.eq_zero_or_pos k with rfl | hk
  · have := count_pos d dt i
    simp only [stop, if_true]
    omega
  have hs : stop d dt k = ⌈k * d / dt⌉₊ + 1 := stop_slow h0 h hk
  rw [hs]
  induction i with
  | zero =>
    unfold count
    omega
  | succ i ih =>
    have hc : ⌈(k : ℝ) * d / dt⌉₊ ≤ i ↔ (k : ℝ) * d ≤ i * dt := by rw [Nat.ceil_le, div_le_iff₀ h0]
    rw [Nat.add_le_add_iff_right, hc]
    have ha := count_ahead h0 h i
    unfold count
    split
    · next hn =>
      constructor
      · intro hk'
        have : (k : ℝ) ≤ count d dt i := by exact_mod_cast Nat.lt_succ_iff.1 hk'
        nlinarith
      · intro hk'
        by_contra hcc
        have : ((count d dt i + 1 : Nat) : ℝ) ≤ k := by exact_mod_cast not_lt.1 hcc
        push_cast at this
        nlinarith
    · next hn =>
      push Not at hn
      constructor
      · intro hk'
        have h1 := ih.1 hk'
        have h2 : ⌈(k : ℝ) * d / dt⌉₊ ≤ i := by omega
        exact hc.1 h2
      · intro hk'
        by_contra hcc
        have : ((count d dt i : Nat) : ℝ) ≤ k := by exact_mod_cast not_lt.1 hcc
        nlinarith

theorem count_fast {d dt : ℝ} (hd : 0 < d) (h : d ≤ dt) (i : Nat) : count d dt i = max i 1 := by
  induction i with
  | zero => rfl
  | succ i ih =>
    unfold count
    rw [ih]
    rcases Nat.eq_zero_or_pos i with rfl | hi
    · rw [if_neg]
      · rfl
      · push_cast
        norm_num
        exact hd
    · rw [max_eq_left (by omega), if_pos (mul_le_mul_of_nonneg_left h (by positivity)), max_eq_left (by omega)]

theorem stop_count {d dt : ℝ} (h0 : 0 < dt) (hd : 0 < d) {i : Nat} (hi : (count d dt i : ℝ) * d ≤ i * dt) : stop d dt (count d dt i) = i + 1 := by
  rcases le_total dt d with h | h
  · exact stop_count_slow h0 h hi
  · rw [count_fast hd h] at hi ⊢
    rcases Nat.eq_zero_or_pos i with rfl | hp
    · norm_num at hi
      linarith
    · rw [max_eq_left (by omega), stop_fast h0 h hp]

theorem lt_count {d dt : ℝ} (h0 : 0 < dt) (hd : 0 < d) (i k : Nat) : k < count d dt i ↔ stop d dt k ≤ i := by
  rcases le_total dt d with h | h
  · exact lt_count_slow h0 h i k
  · rw [count_fast hd h]
    rcases Nat.eq_zero_or_pos k with rfl | hk
    · simp only [stop, if_true]
      omega
    · rw [stop_fast h0 h hk]
      omega

/-- The files after `i` steps. -/
noncomputable def files (e : Env σ D) (s : Nat → σ) (outdir : Str) (d dt : ℝ) (c : Nat) : List (Str × D) :=
  (List.range c).map fun k => (fileName outdir k, e.diag (s (stop d dt k)))

/-- The state after `i` steps. -/
noncomputable def world (e : Env σ D) (s : Nat → σ) (cfg : Config ℝ) (outdir : Str) (d dt : ℝ) (i : Nat) : World σ D :=
  (⟨s i, [(kDiagnostics, ⟨kDiagnostics, count d dt i, (count d dt i - 1) * d, false⟩)], cfg⟩, files e s outdir d dt (count d dt i))

section
variable {e : Env σ D} {s : Nat → σ} {cfg : Config ℝ} {outdir : Str} {d dt tf : ℝ}

theorem body_world (hs : Steps e dt s) (h0 : 0 < dt) (hp : 0 < d) (ho : cfg.getString kOutdir = .ok outdir) (hd : cfg.getDouble kDfi = .ok d) (i : Nat) :
    body e (world e s cfg outdir d dt i) = .ok (world e s cfg outdir d dt (i + 1)) := by
  unfold body next nextSchedule world
  simp only [hs.advance, hs.time, hd, Outcome.bind_ok, Schedule.lastPerformed, Schedule.at', SMap.get?, if_true, Outcome.map_ok]
  by_cases hc : (count d dt i : ℝ) * d ≤ i * dt
  · have hc' : (i : ℝ) * dt - (count d dt i - 1) * d ≥ d := by linarith
    have hn : count d dt (i + 1) = count d dt i + 1 := by
      conv_lhs => unfold count
      rw [if_pos hc]
    rw [if_pos hc', hn]
    simp only [Schedule.markAsDue, Schedule.at', SMap.get?, SMap.set, if_true, Outcome.bind_ok, Outcome.map_ok, runTasks, Schedule.isDue, writeDiagnostics, ho,
      Schedule.numTimesPerformed, Schedule.markAsCompleted]
    unfold files
    rw [List.range_succ, List.map_append, List.map_singleton, stop_count h0 hp hc]
    have : ((count d dt i : ℝ) - 1) * d + d = (((count d dt i + 1 : Nat) : ℝ) - 1) * d := by
      push_cast
      ring
    rw [this]
    rfl
  · have hc' : ¬ (i : ℝ) * dt - (count d dt i - 1) * d ≥ d := by
      intro hx
      exact hc (by linarith)
    have hn : count d dt (i + 1) = count d dt i := by
      conv_lhs => unfold count
      rw [if_neg hc]
    rw [if_neg hc', hn]
    simp only [Outcome.bind_ok, Outcome.map_ok, runTasks, Schedule.isDue, Schedule.at', SMap.get?, if_true, Bool.false_eq_true, if_false]

/-- **C146.** The run ends after the first step that reaches the final time.  The files are numbered from zero, file 0 has the state at the start, and file `k` the state one step after the first
that is not before `k` intervals of output (but no more than one file for each step); those are the files up to one step after the end. -/
theorem run_files (hs : Steps e dt s) (h0 : 0 < dt) (hp : 0 < d) {fresh : Config ℝ → Outcome σ} (hf : fresh cfg = .ok (s 0)) (ho : cfg.getString kOutdir = .ok outdir)
    (hd : cfg.getDouble kDfi = .ok d) (ht : cfg.getDouble kTfinal = .ok tf) : ∃ c, runMain e fresh cfg = .ok (⌈tf / dt⌉₊, files e s outdir d dt c) ∧
    ∀ k, k < c ↔ stop d dt k ≤ ⌈tf / dt⌉₊ + 1 := by
  refine ⟨count d dt (⌈tf / dt⌉₊ + 1), ?_, fun k => lt_count h0 hp _ k⟩
  have start : runTasks e (⟨s 0, [(kDiagnostics, ⟨kDiagnostics, 0, 0 + 0, true⟩)], cfg⟩, []) = .ok (world e s cfg outdir d dt 0) := by
    simp only [runTasks, Schedule.isDue, Schedule.at', SMap.get?, if_true, Outcome.map_ok, Outcome.bind_ok, writeDiagnostics, ho, Schedule.numTimesPerformed, Schedule.markAsCompleted, SMap.set,
      world, count, files]
    norm_num [List.range_succ, stop, fileName]
  have loop : ∀ j i, i + j = ⌈tf / dt⌉₊ → Loop.whileLoop (fun p : ℕ × World σ D => (shouldContinue e p.2.1).bind fun c => if c then (body e p.2).map fun s' => .inl (p.1 + 1, s') else .ok (.inr p))
      (i, world e s cfg outdir d dt i) = .ok (⌈tf / dt⌉₊, world e s cfg outdir d dt ⌈tf / dt⌉₊) := by
    intro j
    induction j with
    | zero =>
      intro i hi
      have hi : i = ⌈tf / dt⌉₊ := by omega
      rw [Loop.whileLoop_unfold]
      have : ¬ e.time (s i) < tf := by
        rw [hs.time, not_lt, ← div_le_iff₀ h0, ← Nat.ceil_le]
        omega
      have : shouldContinue e (world e s cfg outdir d dt i).1 = .ok false := by
        show (cfg.getDouble kTfinal).map _ = _
        rw [ht]
        show Outcome.ok (decide (e.time (s i) < tf)) = _
        rw [decide_eq_false this]
      simp only [this, Outcome.bind_ok, Bool.false_eq_true, if_false]
      rw [hi]
    | succ j ih =>
      intro i hi
      rw [Loop.whileLoop_unfold]
      have : e.time (s i) < tf := by
        rw [hs.time, ← lt_div_iff₀ h0, ← Nat.lt_ceil]
        omega
      have : shouldContinue e (world e s cfg outdir d dt i).1 = .ok true := by
        show (cfg.getDouble kTfinal).map _ = _
        rw [ht]
        show Outcome.ok (decide (e.time (s i) < tf)) = _
        rw [decide_eq_true this]
      simp only [this, Outcome.bind_ok, if_true, body_world hs h0 hp ho hd, Outcome.map_ok]
      exact ih (i + 1) (by omega)
  unfold runMain createState
  rw [hf]
  simp only [Outcome.bind_ok, Schedule.createAndMarkAsDue, Schedule.create, Schedule.markAsDue, Schedule.at', SMap.get?, SMap.set, if_true, Outcome.map_ok, start]
  unfold Loop.counted
  rw [loop _ 0 (Nat.zero_add _)]
  simp only [Outcome.bind_ok, body_world hs h0 hp ho hd, Outcome.map_ok]
  rfl

/-- **C146, violated: the files are late.** The state in each file after the first is at least a time step later than it was due. -/
theorem late_violated (h0 : 0 < dt) (hs : Steps e dt s) {k : Nat} (hk : 0 < k) : k * d + dt ≤ e.time (s (stop d dt k)) := by
  rw [hs.time]
  unfold stop
  rw [if_neg (by omega)]
  have h1 : (k : ℝ) * d / dt ≤ (max k ⌈(k : ℝ) * d / dt⌉₊ : Nat) := (Nat.le_ceil _).trans (by exact_mod_cast le_max_right _ _)
  have := (div_le_iff₀ h0).1 h1
  rw [Nat.cast_add, Nat.cast_one]
  linarith

/-- **C146.** It is less than two time steps late, if the interval is not smaller than a time step. -/
theorem not_later (h0 : 0 < dt) (h : dt ≤ d) (hs : Steps e dt s) (k : Nat) : e.time (s (stop d dt k)) < k * d + 2 * dt := by
  rw [hs.time]
  have hd : 0 < d := by linarith
  rcases Nat.eq_zero_or_pos k with rfl | hk
  · simp only [stop, if_true]
    push_cast
    linarith
  · rw [stop_slow h0 h hk]
    have := Nat.ceil_lt_add_one (a := (k : ℝ) * d / dt) (by positivity)
    have e1 : (k : ℝ) * d / dt * dt = k * d := div_mul_cancel₀ _ h0.ne'
    push_cast
    nlinarith

/-- **C146, violated: falling behind.** With an interval smaller than a time step the files are later and later: file `k` by `k` times the difference, and a time step. -/
theorem behind_violated (h0 : 0 < dt) (h : d < dt) (hs : Steps e dt s) {k : Nat} (hk : 0 < k) : e.time (s (stop d dt k)) = k * d + (k * (dt - d) + dt) := by
  rw [hs.time, stop_fast h0 h.le hk]
  push_cast
  ring

/-- **C146, violated: restarting.** The option `restart` is there, but has no effect: with any two values of it the same files are written. -/
theorem restart_violated (hs : Steps e dt s) (h0 : 0 < dt) (hp : 0 < d) {fresh : Config ℝ → Outcome σ} {cfg' : Config ℝ} (hf : fresh cfg = .ok (s 0)) (hf' : fresh cfg' = .ok (s 0))
    (ho : cfg.getString kOutdir = .ok outdir) (hd : cfg.getDouble kDfi = .ok d) (ht : cfg.getDouble kTfinal = .ok tf)
    (ho' : cfg'.getString kOutdir = .ok outdir) (hd' : cfg'.getDouble kDfi = .ok d) (ht' : cfg'.getDouble kTfinal = .ok tf) :
    runMain e fresh cfg = runMain e fresh cfg' := by
  obtain ⟨c, a, b⟩ := run_files hs h0 hp hf ho hd ht
  obtain ⟨c', a', b'⟩ := run_files hs h0 hp hf' ho' hd' ht'
  have : c = c' := by
    by_contra hne
    rcases Nat.lt_or_gt_of_ne hne with hl | hl
    · exact absurd ((b c).2 ((b' c).1 hl)) (lt_irrefl _)
    · exact absurd ((b' c').2 ((b c').1 hl)) (lt_irrefl _)
  rw [a, a', this]
end

/-! ### An example: quarters of a unit of time, with output at every unit -/

/-- The solution is the number of the step. -/
noncomputable def exEnv : Env Nat Nat := ⟨fun i => .ok (i + 1), fun i => i * (1 / 4), id⟩

theorem exSteps : Steps exEnv (1 / 4) id := ⟨fun _ => rfl, fun _ => rfl⟩

/-- The options, with a value of `restart`. -/
noncomputable def exConfig (restart : Str) : Config ℝ := Template.create [(kDfi, .dbl 1), (kOutdir, .str ".".toList), (kRestart, .str restart), (kTfinal, .dbl (5 / 2))]

/-- Up to 2.5, with files for 0, 1 and 2: these have the times 0, 1.25 and 2.25. -/
theorem exFiles (restart : Str) : ∃ c, runMain exEnv (fun _ => .ok 0) (exConfig restart) = .ok (10, files exEnv id ".".toList 1 (1 / 4) c) ∧ c = 3 ∧ ∀ k, 0 < k → stop 1 (1 / 4) k = 4 * k + 1 := by
  obtain ⟨c, a, b⟩ := run_files (cfg := exConfig restart) (fresh := fun _ => .ok 0) (tf := 5 / 2) exSteps (by norm_num) (by norm_num : (0 : ℝ) < 1) rfl rfl rfl rfl
  have n10 : ⌈(5 / 2 / (1 / 4) : ℝ)⌉₊ = 10 := by
    rw [show (5 / 2 / (1 / 4) : ℝ) = (10 : ℕ) by norm_num]
    exact Nat.ceil_natCast 10
  rw [n10] at a b
  have st : ∀ k : Nat, 0 < k → stop 1 (1 / 4) k = 4 * k + 1 := by
    intro k hk
    rw [stop_slow (by norm_num) (by norm_num) hk, show (k * 1 / (1 / 4) : ℝ) = ((4 * k : ℕ) : ℝ) by push_cast; ring, Nat.ceil_natCast]
  refine ⟨c, a, ?_, st⟩
  have h2 := (b 2).2 (by rw [st 2 (by norm_num)]; norm_num)
  have h3 : ¬ 3 < c := fun h => absurd ((b 3).1 h) (by rw [st 3 (by norm_num)]; norm_num)
  omega

/-- **C146, violated: the end.** The state at the final time is in no file, though the program goes one step beyond it and asks for output once more. -/
theorem last_violated : ∃ f, runMain exEnv (fun _ => .ok 0) (exConfig []) = .ok (10, f) ∧ ∀ p ∈ f, p.2 ≠ exEnv.diag 10 := by
  obtain ⟨c, a, -, st⟩ := exFiles []
  refine ⟨_, a, fun p hp => ?_⟩
  unfold files at hp
  obtain ⟨k, -, rfl⟩ := List.mem_map.1 hp
  show stop 1 (1 / 4) k ≠ 10
  rcases Nat.eq_zero_or_pos k with rfl | hk
  · unfold stop
    norm_num
  · rw [st k hk]
    omega

example (k : Nat) : exEnv.time (id (stop 1 (1 / 4) k)) < k * 1 + 2 * (1 / 4) := not_later (e := exEnv) (s := id) (by norm_num) (by norm_num) exSteps k
example : exEnv.time (id (stop (1 / 8) (1 / 4) 8)) = ((8 : Nat) : ℝ) * (1 / 8) + (((8 : Nat) : ℝ) * (1 / 4 - 1 / 8) + 1 / 4) :=
  behind_violated (e := exEnv) (s := id) (by norm_num) (by norm_num) exSteps (by norm_num)
example : ((1 : Nat) : ℝ) * 1 + 1 / 4 ≤ exEnv.time (id (stop 1 (1 / 4) 1)) := late_violated (e := exEnv) (s := id) (by norm_num) exSteps (by norm_num)

example : runMain exEnv (fun _ => .ok 0) (exConfig []) = runMain exEnv (fun _ => .ok 0) (exConfig "chkpt.0001.h5".toList) :=
  restart_violated (s := id) (tf := 5 / 2) exSteps (by norm_num) (by norm_num : (0 : ℝ) < 1) rfl rfl rfl rfl rfl rfl rfl rfl

/-! ### The program itself -/

open Verif.AmrSand Verif.Tree Verif.Binary in
/-- The steps of the program from its start. -/
theorem program_steps {sh : Nat → Outcome Nat} (hs : TotalShift sh) {N D : Nat} (hN : 1 ≤ N) (hb : (N + 2) * (N + 2) < 2 ^ 31) (hD : D ≤ 30) :
    ∃ n s0, (∀ fuel, n ≤ fuel → createSolution sh N D fuel = .ok s0) ∧ ∀ fuel, ∃ r : Nat → AmrSand.Solution, r 0 = s0 ∧ Steps (env sh (fuel + 2)) (dt s0 N) r ∧
      ∀ i, Between s0.vertices D N 0 1 (r i) := by
  classical
  obtain ⟨n, s, e, h0, _, hm, _, hf⟩ := start_ok hs hN hb hD
  refine ⟨n, s, e, fun fuel => ?_⟩
  have hstart : Between s.vertices D N 0 1 s := ⟨rfl, hm, _, hf, fun i c _ x _ y _ => ⟨(Real.exp_pos _).le, by
    rw [Real.exp_le_one_iff]
    nlinarith [sq_nonneg (cellCenter 1 N i x y).1, sq_nonneg (cellCenter 1 N i x y).2]⟩⟩
  have hstep : ∀ r, Between s.vertices D N 0 1 r → ∃ r', nextSolution sh (fuel + 2) r = .ok r' ∧ r'.time = r.time + dt s N ∧
      Between s.vertices D N 0 1 r' := by
    intro r hr
    obtain ⟨f, hf, hb⟩ := hr.values
    have hv := hr.vertices
    rw [← hv] at hf hb
    obtain ⟨r', g, e, h1, h2, _, h4, h5⟩ := maximum_principle_partial hs hr.mesh hf hb fuel
    refine ⟨r', e, ?_, h1.trans hv, ⟨?_, ?_⟩, g, hv ▸ h4, hv ▸ h5⟩
    · rw [h2]
      unfold AmrSand.dt
      rw [hv]
    · rw [h1]
      exact hr.mesh.shaped
    · rw [h1]
      exact hr.mesh.vertices
  choose! f hf1 hf2 hf3 using hstep
  have hB : ∀ i, Between s.vertices D N 0 1 (f^[i] s) := by
    intro i
    induction i with
    | zero => exact hstart
    | succ i ih =>
      rw [Function.iterate_succ_apply']
      exact hf3 _ ih
  refine ⟨fun i => f^[i] s, rfl, ⟨fun i => ?_, fun i => ?_⟩, hB⟩
  · rw [Function.iterate_succ_apply']
    exact hf1 _ (hB i)
  · show (f^[i] s).time = _
    induction i with
    | zero =>
      rw [Nat.cast_zero, zero_mul]
      exact h0
    | succ i ih =>
      rw [Function.iterate_succ_apply', hf2 _ (hB i), ih]
      push_cast
      ring

open Verif.AmrSand Verif.Tree Verif.Binary in
/-- **C146.** The whole program, from the options to the files.  For any block size and depth within the range of the types, and any interval of output: it comes
to its end, and file `k` has the state at the time `stop k` steps after the start, with values between zero and one. -/
theorem program_files {sh : Nat → Outcome Nat} (hs : TotalShift sh) {N D : Nat} (hN : 1 ≤ N) (hb : (N + 2) * (N + 2) < 2 ^ 31) (hD : D ≤ 30) {cfg : Config ℝ} {outdir : Str} {d tf : ℝ} (hp : 0 < d)
    (hbs : cfg.getInt kBlockSize = .ok N) (hdp : cfg.getInt kDepth = .ok D) (ho : cfg.getString kOutdir = .ok outdir) (hd : cfg.getDouble kDfi = .ok d) (ht : cfg.getDouble kTfinal = .ok tf) :
    ∃ n s0, (∀ fuel, n ≤ fuel → createSolution sh N D fuel = .ok s0) ∧ (∀ fuel, n ≤ fuel + 2 →
      ∃ (r : Nat → AmrSand.Solution) (c : Nat), runMain (env sh (fuel + 2)) (fresh sh (fuel + 2)) cfg = .ok (⌈tf / dt s0 N⌉₊,
          (List.range c).map fun k => (fileName outdir k, ((r (stop d (dt s0 N) k)).time, (r (stop d (dt s0 N) k)).vertices, (r (stop d (dt s0 N) k)).conserved))) ∧
        (∀ k, k < c ↔ stop d (dt s0 N) k ≤ ⌈tf / dt s0 N⌉₊ + 1) ∧ r 0 = s0 ∧ (∀ i, (r i).time = i * dt s0 N) ∧ ∀ i, Between s0.vertices D N 0 1 (r i)) := by
  obtain ⟨n, s0, e, h⟩ := program_steps hs hN hb hD
  refine ⟨n, s0, e, fun fuel hfu => ?_⟩
  obtain ⟨r, r0, hst, hB⟩ := h fuel
  have hf : fresh sh (fuel + 2) cfg = .ok (r 0) := by
    unfold fresh
    rw [hbs, Outcome.bind_ok, hdp, Outcome.bind_ok, r0]
    have : N < 2 ^ 31 := by nlinarith
    have e1 : ((N : Int) % 2 ^ 64).toNat = N := by omega
    have e2 : ((D : Int) % 2 ^ 64).toNat = D := by omega
    rw [e1, e2]
    exact e _ hfu
  obtain ⟨c, a, b⟩ := run_files hst (dt_pos s0 N) hp hf ho hd ht
  exact ⟨r, c, a, b, r0, hst.time, hB⟩

/-- The default values (subprog_amrsand.cpp:128-138). -/
noncomputable def defaults : Config ℝ :=
  Template.create [(kBlockSize, .int 16), (kDepth, .int 4), (kDfi, .dbl 1), (kOutdir, .str "data".toList), (kRestart, .str []), (kTfinal, .dbl 1)]

open Verif.AmrSand Verif.Tree Verif.Binary in
example : ∃ n s0, (∀ fuel, n ≤ fuel → createSolution exShift 16 4 fuel = .ok s0) ∧ ∀ fuel, n ≤ fuel + 2 → ∃ p, runMain (env exShift (fuel + 2)) (fresh exShift (fuel + 2)) defaults = .ok p := by
  obtain ⟨n, s0, e, h⟩ := program_files (sh := exShift) exShift_total (N := 16) (D := 4) (by norm_num) (by norm_num) (by norm_num) (cfg := defaults) one_pos rfl rfl rfl rfl rfl
  refine ⟨n, s0, e, fun fuel hf => ?_⟩
  obtain ⟨r, c, a, -⟩ := h fuel hf
  exact ⟨_, a⟩

end Verif.Runs.Sand
