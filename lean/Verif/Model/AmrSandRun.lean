import Verif.Model.Runs
import Verif.Model.AmrSand
import Mathlib.Data.Real.Basic

/-!
# The program for adaptive meshes as a whole: schedule and output (`subprog_amrsand.cpp`)

The start and the step of the solution are those of `Model/AmrSand.lean`; they are parameters of the run, and put in at the end.
-/

namespace Verif.Runs.Sand
open Verif Verif.Text Verif.Sched Verif.Config Verif.Runs

/-- What is left open: the step (subprog_amrsand.cpp:243-300), the time of a solution, and what `diagnostics_t::write` puts in a file (118-123, 183-191). -/
structure Env (σ D : Type) where
  advance : σ → Outcome σ
  time : σ → ℝ
  diag : σ → D

/-- subprog_amrsand.cpp:71-76 `app_state_t`. -/
structure State (σ : Type) where
  solution : σ
  schedule : Schedule ℝ
  config : Config ℝ

/-- A state, and the files written so far, in order. -/
abbrev World (σ D : Type) := State σ × List (Str × D)

variable {σ D : Type}

/-- subprog_amrsand.cpp:215-222 `write_diagnostics`. -/
def writeDiagnostics (e : Env σ D) (s : State σ) : Outcome (List (Str × D)) :=
  (s.config.getString kOutdir).bind fun outdir =>
  (s.schedule.numTimesPerformed kDiagnostics).bind fun count =>
  .ok [(Path.join [outdir, Path.numbered "diagnostics".toList count "h5".toList], e.diag s.solution)]

/-- subprog_amrsand.cpp:310-321 `run_tasks`. -/
def runTasks (e : Env σ D) (w : World σ D) : Outcome (World σ D) :=
  (w.1.schedule.isDue kDiagnostics).bind fun due =>
  if due then
    (writeDiagnostics e w.1).bind fun f =>
    (w.1.schedule.markAsCompleted kDiagnostics).map fun sch => ({ w.1 with schedule := sch }, w.2 ++ f)
  else .ok w

/-- subprog_amrsand.cpp:233-241 `next_schedule`. -/
noncomputable def nextSchedule (sch : Schedule ℝ) (cfg : Config ℝ) (time : ℝ) : Outcome (Schedule ℝ) :=
  (cfg.getDouble kDfi).bind fun dfi =>
  (sch.lastPerformed kDiagnostics).bind fun last =>
  if time - last ≥ dfi then sch.markAsDue kDiagnostics dfi else .ok sch

/-- subprog_amrsand.cpp:302-309 `next`.  The schedule is made with the time before the step. -/
noncomputable def next (e : Env σ D) (s : State σ) : Outcome (State σ) :=
  (e.advance s.solution).bind fun sol =>
  (nextSchedule s.schedule s.config (e.time s.solution)).map fun sch => ⟨sol, sch, s.config⟩

/-- subprog_amrsand.cpp:334 the composition of the step and the tasks. -/
noncomputable def body (e : Env σ D) (w : World σ D) : Outcome (World σ D) := (next e w.1).bind fun s => runTasks e (s, w.2)

/-- subprog_amrsand.cpp:224-227 `simulation_should_continue`. -/
noncomputable def shouldContinue (e : Env σ D) (s : State σ) : Outcome Bool := (s.config.getDouble kTfinal).map fun tf => decide (e.time s.solution < tf)

/-- subprog_amrsand.cpp:166-181 `create_schedule`, `create_app_state`; `fresh` is `create_solution_state` (142-164). -/
def createState (fresh : Config ℝ → Outcome σ) (cfg : Config ℝ) : Outcome (State σ) :=
  (fresh cfg).bind fun sol =>
  (Schedule.createAndMarkAsDue [] kDiagnostics).map fun sch => ⟨sol, sch, cfg⟩

/-- subprog_amrsand.cpp:331-351 `run_main`, without the messages and the making of the output directory.  The result is the number of passes through the loop, and the files; the state after the
last call (349) is not kept. -/
noncomputable def runMain (e : Env σ D) (fresh : Config ℝ → Outcome σ) (cfg : Config ℝ) : Outcome (Nat × List (Str × D)) :=
  (createState fresh cfg).bind fun s =>
  (runTasks e (s, [])).bind fun w =>
  (Loop.counted (fun w : World σ D => shouldContinue e w.1) (body e) w).bind fun p =>
  (body e p.2).map fun w' => (p.1, w'.2)

def kBlockSize : Str := "block_size".toList
def kDepth : Str := "depth".toList

/-- subprog_amrsand.cpp:142-149: the start, from the options.  The numbers are converted to `size_t`. -/
noncomputable def fresh (sh : Nat → Outcome Nat) (fuel : Nat) (cfg : Config ℝ) : Outcome AmrSand.Solution :=
  (cfg.getInt kBlockSize).bind fun b =>
  (cfg.getInt kDepth).bind fun d =>
  AmrSand.createSolution sh (b % 2 ^ 64).toNat (d % 2 ^ 64).toNat fuel

/-- What `diagnostics_t` has (subprog_amrsand.cpp:82-88, 183-191): time, vertices and cells. -/
abbrev Diagnostics := ℝ × Binary.Quad (ℝ × ℝ) × Binary.Quad ℝ

/-- The program itself. -/
noncomputable def env (sh : Nat → Outcome Nat) (fuel : Nat) : Env AmrSand.Solution Diagnostics :=
  ⟨AmrSand.nextSolution sh fuel, fun s => s.time, fun s => (s.time, s.vertices, s.conserved)⟩

end Verif.Runs.Sand
