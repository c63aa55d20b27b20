import Verif.Model.Config
import Verif.Model.Schedule
import Verif.Model.Path
import Verif.Model.Loop

/-!
# Runs, checkpoints and restarts of the sub-programs

The files written by a run are recorded in the order of writing, with their contents.  Reading and
writing of the solution itself is taken to be lossless (for trees see `TreeSerialize`), as is that of
`double`s.  The numerical scheme, the diagnostics and the samples are parameters.
-/

namespace Verif.Runs
open Verif Verif.Text Verif.Config Verif.Sched

variable {σ τ μ D : Type}

def kCheckpoint : Str := "write_checkpoint".toList
def kDiagnostics : Str := "write_diagnostics".toList
def kRecord : Str := "record_time_series".toList
def kSeries : Str := "write_time_series".toList
def kSolution : Str := "solution".toList
def kSchedule : Str := "schedule".toList
def kTimeSeries : Str := "time_series".toList
def kRunConfig : Str := "run_config".toList
def kConfig : Str := "config".toList
def kRestart : Str := "restart".toList
def kOutdir : Str := "outdir".toList
def kCpi : Str := "cpi".toList
def kDfi : Str := "dfi".toList
def kTsi : Str := "tsi".toList
def kTfinal : Str := "tfinal".toList

/-- A member of the root group of a checkpoint file. -/
inductive Item (σ τ μ : Type) where
  | solution (s : σ)
  | schedule (g : SMap (StoredTask τ))
  | series (l : List μ)
  | config (g : SMap (Dataset τ))

/-- A checkpoint file. -/
abbrev Checkpoint (σ τ μ : Type) := SMap (Item σ τ μ)

/-- Contents of an output file: a checkpoint, diagnostics with the configuration stored in them (if any),
or the row of a time series. -/
inductive Content (σ τ μ D : Type) where
  | checkpoint (c : Checkpoint σ τ μ)
  | diagnostics (d : D) (cfg : SMap (Dataset τ))
  | row (n : Nat) (d : D)

/-- The files written, in order; opening a file for writing truncates it, so the last one of a name
counts. -/
abbrev Files (σ τ μ D : Type) := List (Str × Content σ τ μ D)

/-- `open_group` and reading of the solution; failing HDF5 calls throw (core_hdf5.hpp:90-104). -/
def openSolution (c : Checkpoint σ τ μ) (name : Str) : Outcome σ :=
  match c.get? name with
  | some (.solution s) => .ok s
  | _ => .throws .invalidArgument

/-- `open_group` and reading of the schedule. -/
def openSchedule (c : Checkpoint σ τ μ) (name : Str) : Outcome (Schedule τ) :=
  match c.get? name with
  | some (.schedule g) => .ok (readSchedule g)
  | _ => .throws .invalidArgument

/-- `open_dataset` and reading of the time series. -/
def openSeries (c : Checkpoint σ τ μ) (name : Str) : Outcome (List μ) :=
  match c.get? name with
  | some (.series l) => .ok l
  | _ => .throws .invalidArgument

/-- `open_group` for the configuration and `read_config`. -/
def openConfig (c : Checkpoint σ τ μ) (name : Str) : Outcome (SMap (Param τ)) :=
  match c.get? name with
  | some (.config g) => .ok (readConfig g)
  | _ => .throws .invalidArgument

/-- `create_run_config`: subprog_binary.cpp:155-164, subprog_boilerplate.cpp:174-188,
subprog_sedov.cpp:465-479, subprog_cloud.cpp:738-752.  `fs` has the checkpoint files by name, `group` is
the name of the group which the program opens. -/
def createRunConfig (stod : Str → Outcome τ) (t : Template τ) (fs : Str → Option (Checkpoint σ τ μ))
    (group : Str) (args : SMap Str) : Outcome (Config τ) :=
  match args.get? kRestart with
  | some f =>
    match fs f with
    | none => .throws .invalidArgument
    | some c =>
      (openConfig c group).bind fun m =>
      ((Template.create t).update m).bind fun cfg => cfg.updateText stod args
  | none => (Template.create t).updateText stod args

/-! ### The binary program -/

namespace Binary

/-- What is left abstract of the binary program: the step (subprog_binary.cpp:258-293, with the solver
data made from the configuration), the time of a solution, the sample taken by `record_time_series`
(360-375), the diagnostics (351) and the constant `2 * M_PI`. -/
structure Env (σ τ μ D : Type) where
  advance : Config τ → σ → Outcome σ
  time : σ → τ
  sample : Config τ → σ → Outcome μ
  diag : Config τ → σ → Outcome D
  twoPi : τ

/-- `subprog_binary.hpp:165-176` `state_t`.  The time series has the newest sample first. -/
structure State (σ τ μ : Type) where
  solution : σ
  schedule : Schedule τ
  series : List μ
  config : Config τ

/-- A state, and the files written so far. -/
abbrev World (σ τ μ D : Type) := State σ τ μ × Files σ τ μ D

/-- `app_schedule.hpp:149-155` `complete_task_in`. -/
def complete (s : State σ τ μ) (name : Str) : Outcome (State σ τ μ) :=
  (s.schedule.markAsCompleted name).map fun sch => { s with schedule := sch }

/-- `subprog_binary_io.cpp:150-158` writing a state. -/
def writeState (s : State σ τ μ) : Checkpoint σ τ μ :=
  [(kSolution, .solution s.solution),
   (kSchedule, .schedule (writeSchedule s.schedule)),
   (kTimeSeries, .series s.series.reverse),
   (kRunConfig, .config (writeConfig s.config))]

/-- `subprog_binary_io.cpp:193-201` reading a state, with the configuration then put in place
(subprog_binary.cpp:251). -/
def readState (c : Checkpoint σ τ μ) (cfg : Config τ) : Outcome (State σ τ μ) :=
  (openSolution c kSolution).bind fun sol =>
  (openSeries c kTimeSeries).bind fun ser =>
  (openSchedule c kSchedule).bind fun sch =>
  .ok ⟨sol, sch, ser.reverse, cfg⟩

/-- `subprog_binary.cpp:331-341` `write_checkpoint`. -/
def writeCheckpoint (w : World σ τ μ D) : Outcome (World σ τ μ D) :=
  (w.1.config.getString kOutdir).bind fun outdir =>
  (w.1.schedule.numTimesPerformed kCheckpoint).bind fun count =>
  (complete w.1 kCheckpoint).bind fun next =>
  .ok (next, w.2 ++ [(Path.join [outdir, Path.numbered "chkpt".toList count "h5".toList],
    .checkpoint (writeState next))])

/-- `subprog_binary.cpp:345-354` `write_diagnostics`. -/
def writeDiagnostics (e : Env σ τ μ D) (w : World σ τ μ D) : Outcome (World σ τ μ D) :=
  (w.1.config.getString kOutdir).bind fun outdir =>
  (w.1.schedule.numTimesPerformed kDiagnostics).bind fun count =>
  (e.diag w.1.config w.1.solution).bind fun d =>
  (complete w.1 kDiagnostics).bind fun next =>
  .ok (next, w.2 ++ [(Path.join [outdir, Path.numbered "diagnostics".toList count "h5".toList],
    .diagnostics d (writeConfig w.1.config))])

/-- `subprog_binary.cpp:358-379` `record_time_series`. -/
def recordTimeSeries (e : Env σ τ μ D) (w : World σ τ μ D) : Outcome (World σ τ μ D) :=
  (e.sample w.1.config w.1.solution).bind fun x =>
  (complete { w.1 with series := x :: w.1.series } kRecord).map fun next => (next, w.2)

/-- `subprog_binary.cpp:326-386` `run_tasks`. -/
def runTasks (e : Env σ τ μ D) (w : World σ τ μ D) : Outcome (World σ τ μ D) :=
  runScheduledTasks (fun w : World σ τ μ D => w.1.schedule) w
    [(kDiagnostics, writeDiagnostics e), (kRecord, recordTimeSeries e), (kCheckpoint, writeCheckpoint)]

/-- `subprog_binary.cpp:295-301` `next_schedule`. -/
def nextSchedule [Add τ] [Sub τ] [Mul τ] [LinearOrder τ] (e : Env σ τ μ D) (s : State σ τ μ) : Outcome (Schedule τ) :=
  (s.config.getDouble kCpi).bind fun cpi =>
  (s.config.getDouble kDfi).bind fun dfi =>
  (s.config.getDouble kTsi).bind fun tsi =>
  markTasks s.schedule (e.time s.solution)
    [(kCheckpoint, cpi * e.twoPi), (kDiagnostics, dfi * e.twoPi), (kRecord, tsi * e.twoPi)]

/-- `subprog_binary.cpp:303-311` `next_state`. -/
def nextState [Add τ] [Sub τ] [Mul τ] [LinearOrder τ] (e : Env σ τ μ D) (s : State σ τ μ) : Outcome (State σ τ μ) :=
  (e.advance s.config s.solution).bind fun sol =>
  (nextSchedule e s).bind fun sch =>
  .ok ⟨sol, sch, s.series, s.config⟩

/-- `subprog_binary.cpp:317-320` `simulation_should_continue`. -/
def shouldContinue [Div τ] [LinearOrder τ] (e : Env σ τ μ D) (s : State σ τ μ) : Outcome Bool :=
  (s.config.getDouble kTfinal).map fun tf => decide (e.time s.solution / e.twoPi < tf)

/-- `subprog_binary.cpp:430` the body of the loop, `compose(tasks, next)`. -/
def body [Add τ] [Sub τ] [Mul τ] [LinearOrder τ] (e : Env σ τ μ D) (w : World σ τ μ D) : Outcome (World σ τ μ D) :=
  (nextState e w.1).bind fun s => runTasks e (s, w.2)

/-- `subprog_binary.cpp:428-434`: from before the loop to the end of the program, with the number of
times the body of the loop is run. -/
inductive Finishes [Add τ] [Sub τ] [Mul τ] [Div τ] [LinearOrder τ] (e : Env σ τ μ D) :
    World σ τ μ D → Nat → World σ τ μ D → Prop
  | exit {w w'} : shouldContinue e w.1 = .ok false → body e w = .ok w' → Finishes e w 0 w'
  | loop {w w' n w''} : shouldContinue e w.1 = .ok true → body e w = .ok w' → Finishes e w' n w'' →
      Finishes e w (n + 1) w''

/-- `subprog_binary.cpp:428-434`: the loop, with a count of its passes, and the body once more after it.  The result is the number of
passes and the last state.  (The state after the body at 434 is not kept by the program, its files are.) -/
noncomputable def finish [Add τ] [Sub τ] [Mul τ] [Div τ] [LinearOrder τ] (e : Env σ τ μ D) (w : World σ τ μ D) :
    Outcome (Nat × World σ τ μ D) :=
  (Loop.counted (fun w : World σ τ μ D => shouldContinue e w.1) (body e) w).bind fun p =>
  (body e p.2).map fun w' => (p.1, w')

/-- `subprog_binary.cpp:229-236` `create_schedule`. -/
def createSchedule [Zero τ] [Add τ] : Outcome (Schedule τ) :=
  (Schedule.createAndMarkAsDue [] kCheckpoint).bind fun s =>
  (s.createAndMarkAsDue kDiagnostics).bind fun s =>
  s.createAndMarkAsDue kRecord

/-- `subprog_binary.cpp:238-252` `create_state`; `fresh` is `create_solution` (196-227). -/
def createState [Zero τ] [Add τ] (fresh : Config τ → Outcome σ) (fs : Str → Option (Checkpoint σ τ μ))
    (cfg : Config τ) : Outcome (State σ τ μ) :=
  (cfg.getString kRestart).bind fun restart =>
  if restart.isEmpty then
    (fresh cfg).bind fun sol => createSchedule.bind fun sch => .ok ⟨sol, sch, [], cfg⟩
  else
    match fs restart with
    | none => .throws .invalidArgument
    | some c => readState c cfg

/-- `subprog_binary.cpp:416-426`: the program up to the first `tasks(state)`. -/
def begin [Zero τ] [Add τ] (stod : Str → Outcome τ) (t : Template τ) (fresh : Config τ → Outcome σ)
    (e : Env σ τ μ D) (fs : Str → Option (Checkpoint σ τ μ)) (args : SMap Str) :
    Outcome (World σ τ μ D) :=
  (createRunConfig stod t fs kRunConfig args).bind fun cfg =>
  (createState fresh fs cfg).bind fun s => runTasks e (s, [])

end Binary

/-! ### The boilerplate, sedov and cloud programs -/

namespace App

/-- Which program. -/
inductive Kind where
  | boilerplate
  | sedov
  | cloud
deriving DecidableEq

/-- What is left abstract: the step, the time of a solution, diagnostics and rows of the time series. -/
structure Env (σ τ D : Type) where
  advance : Config τ → σ → Outcome σ
  time : σ → τ
  diag : σ → D
  series : σ → D

/-- `subprog_boilerplate.cpp:194-199` `app_state_t`, likewise in sedov and cloud. -/
structure State (σ τ : Type) where
  solution : σ
  schedule : Schedule τ
  config : Config τ

/-- A state, and the files written so far. -/
abbrev World (σ τ D : Type) := State σ τ × Files σ τ Unit D

/-- The group that `write_checkpoint` stores the configuration in: subprog_boilerplate.cpp:207,
subprog_sedov.cpp:492, subprog_cloud.cpp:764. -/
def Kind.configWritten : Kind → Str
  | .boilerplate => kRunConfig
  | .sedov => kConfig
  | .cloud => kConfig

/-- The group that `create_run_config` opens: subprog_boilerplate.cpp:185, subprog_sedov.cpp:476,
subprog_cloud.cpp:749. -/
def Kind.configRead : Kind → Str
  | .boilerplate => kRunConfig
  | .sedov => kRunConfig
  | .cloud => kConfig

/-- The path of an output file; boilerplate has no output directory (subprog_boilerplate.cpp:204). -/
def Kind.path (k : Kind) (c : Config τ) (name : Str) : Outcome Str :=
  match k with
  | .boilerplate => .ok name
  | _ => (c.getString kOutdir).map fun outdir => Path.join [outdir, name]

/-- `write_checkpoint`: subprog_boilerplate.cpp:201-210, subprog_sedov.cpp:486-495,
subprog_cloud.cpp:758-767. -/
def writeCheckpoint (k : Kind) (s : State σ τ) : Outcome (Files σ τ Unit D) :=
  (s.schedule.numTimesPerformed kCheckpoint).bind fun count =>
  (k.path s.config (Path.numbered "chkpt".toList count "h5".toList)).bind fun f =>
  .ok [(f, .checkpoint
    [(kSolution, .solution s.solution),
     (kSchedule, .schedule (writeSchedule s.schedule)),
     (k.configWritten, .config (writeConfig s.config))])]

/-- `write_diagnostics`: subprog_sedov.cpp:498-515, subprog_cloud.cpp:769-799. -/
def writeDiagnostics (e : Env σ τ D) (k : Kind) (s : State σ τ) : Outcome (Files σ τ Unit D) :=
  (s.schedule.numTimesPerformed kDiagnostics).bind fun count =>
  (k.path s.config (Path.numbered "diagnostics".toList count "h5".toList)).bind fun f =>
  .ok [(f, .diagnostics (e.diag s.solution) [])]

/-- `write_time_series`: subprog_sedov.cpp:518-530; that of cloud (801-803) is empty. -/
def writeTimeSeries (e : Env σ τ D) (k : Kind) (s : State σ τ) : Outcome (Files σ τ Unit D) :=
  match k with
  | .cloud => .ok []
  | _ =>
    (k.path s.config "time_series.h5".toList).bind fun f =>
    (s.schedule.numTimesPerformed kSeries).bind fun count =>
    .ok [(f, .row count (e.series s.solution))]

/-- The tasks, in the order of `run_tasks`. -/
def taskList (e : Env σ τ D) (k : Kind) : List (Str × (State σ τ → Outcome (Files σ τ Unit D))) :=
  match k with
  | .boilerplate => [(kCheckpoint, writeCheckpoint k)]
  | _ => [(kCheckpoint, writeCheckpoint k), (kDiagnostics, writeDiagnostics e k),
      (kSeries, writeTimeSeries e k)]

/-- The statements of `run_tasks`: every task is asked for and performed with the original state, and
marked as completed in the next state. -/
def taskLoop (s : State σ τ) : List (Str × (State σ τ → Outcome (Files σ τ Unit D))) → World σ τ D →
    Outcome (World σ τ D)
  | [], w => .ok w
  | (name, f) :: tasks, w =>
    (s.schedule.isDue name).bind fun d =>
    if d then
      (f s).bind fun files =>
      (w.1.schedule.markAsCompleted name).bind fun sch =>
      taskLoop s tasks ({ w.1 with schedule := sch }, w.2 ++ files)
    else taskLoop s tasks w

/-- `run_tasks`: subprog_boilerplate.cpp:236-246, subprog_sedov.cpp:560-581, subprog_cloud.cpp:829-850.
(Sedov and cloud get the output directory before the first `if`, which matters only when there is no such
parameter.) -/
def runTasks (e : Env σ τ D) (k : Kind) (w : World σ τ D) : Outcome (World σ τ D) :=
  taskLoop w.1 (taskList e k) w

/-- The intervals: subprog_boilerplate.cpp:161, subprog_sedov.cpp:450-452, subprog_cloud.cpp:723-725. -/
def intervals (k : Kind) (c : Config τ) : Outcome (List (Str × τ)) :=
  (c.getDouble kCpi).bind fun cpi =>
  match k with
  | .boilerplate => .ok [(kCheckpoint, cpi)]
  | _ =>
    (c.getDouble kDfi).bind fun dfi =>
    (c.getDouble kTsi).bind fun tsi =>
    .ok [(kCheckpoint, cpi), (kDiagnostics, dfi), (kSeries, tsi)]

/-- `next_schedule`: subprog_boilerplate.cpp:158-168, subprog_sedov.cpp:446-459, subprog_cloud.cpp:720-732;
their `if`s are those of `mark_tasks_in`. -/
def nextSchedule [Add τ] [Sub τ] [LinearOrder τ] (e : Env σ τ D) (k : Kind) (s : State σ τ) :
    Outcome (Schedule τ) :=
  (intervals k s.config).bind fun iv => markTasks s.schedule (e.time s.solution) iv

/-- `next`: subprog_boilerplate.cpp:221-227, subprog_sedov.cpp:542-549, subprog_cloud.cpp:814-820. -/
def next [Add τ] [Sub τ] [LinearOrder τ] (e : Env σ τ D) (k : Kind) (s : State σ τ) : Outcome (State σ τ) :=
  (e.advance s.config s.solution).bind fun sol =>
  (nextSchedule e k s).bind fun sch =>
  .ok ⟨sol, sch, s.config⟩

/-- The body of the loop: subprog_boilerplate.cpp:281, subprog_sedov.cpp:640, subprog_cloud.cpp:931. -/
def body [Add τ] [Sub τ] [LinearOrder τ] (e : Env σ τ D) (k : Kind) (w : World σ τ D) : Outcome (World σ τ D) :=
  (next e k w.1).bind fun s => runTasks e k (s, w.2)

/-- `simulation_should_continue`: subprog_boilerplate.cpp:229-234, subprog_sedov.cpp:552-557, subprog_cloud.cpp:822-827. -/
def shouldContinue [LinearOrder τ] (e : Env σ τ D) (s : State σ τ) : Outcome Bool :=
  (s.config.getDouble kTfinal).map fun tf => decide (e.time s.solution < tf)

/-- From the loop to the end of the program: subprog_boilerplate.cpp:279-285, subprog_sedov.cpp:638-644, subprog_cloud.cpp:929-935.
The result is the number of passes through the loop and the last state.  (The state after the last call of the body is not kept by the
programs, its files are.) -/
noncomputable def finish [Add τ] [Sub τ] [LinearOrder τ] (e : Env σ τ D) (k : Kind) (w : World σ τ D) : Outcome (Nat × World σ τ D) :=
  (Loop.counted (fun w : World σ τ D => shouldContinue e w.1) (body e k) w).bind fun p =>
  (body e k p.2).map fun w' => (p.1, w')

/-- `new_schedule`: subprog_boilerplate.cpp:142-148, subprog_sedov.cpp:427-435, subprog_cloud.cpp:703-710. -/
def newSchedule [Zero τ] [Add τ] (k : Kind) : Outcome (Schedule τ) :=
  (Schedule.createAndMarkAsDue [] kCheckpoint).bind fun s =>
  match k with
  | .boilerplate => .ok s
  | _ => (s.createAndMarkAsDue kDiagnostics).bind fun s => s.createAndMarkAsDue kSeries

/-- `create_app_state`: subprog_boilerplate.cpp:113-119, 150-156, 212-219; subprog_sedov.cpp:385-392,
437-444, 532-540; subprog_cloud.cpp:668-674, 712-718, 805-812.  `fresh` is `new_solution`. -/
def createState [Zero τ] [Add τ] (k : Kind) (fresh : Config τ → Outcome σ)
    (fs : Str → Option (Checkpoint σ τ Unit)) (cfg : Config τ) : Outcome (State σ τ) :=
  (cfg.getString kRestart).bind fun restart =>
  if restart.isEmpty then
    (fresh cfg).bind fun sol => (newSchedule k).bind fun sch => .ok ⟨sol, sch, cfg⟩
  else
    match fs restart with
    | none => .throws .invalidArgument
    | some c =>
      (openSolution c kSolution).bind fun sol =>
      (openSchedule c kSchedule).bind fun sch =>
      .ok ⟨sol, sch, cfg⟩

/-- The program up to the loop: subprog_boilerplate.cpp:272-277, subprog_sedov.cpp:631-636, 650,
subprog_cloud.cpp:921-927. -/
def begin [Zero τ] [Add τ] (stod : Str → Outcome τ) (t : Template τ) (fresh : Config τ → Outcome σ)
    (e : Env σ τ D) (k : Kind) (fs : Str → Option (Checkpoint σ τ Unit)) (args : SMap Str) :
    Outcome (World σ τ D) :=
  (createRunConfig stod t fs k.configRead args).bind fun cfg =>
  (createState k fresh fs cfg).bind fun s => runTasks e k (s, [])

/-- The program from its arguments to its end (see `begin` and `finish`). -/
noncomputable def main [Zero τ] [Add τ] [Sub τ] [LinearOrder τ] (stod : Str → Outcome τ) (t : Template τ)
    (fresh : Config τ → Outcome σ) (e : Env σ τ D) (k : Kind) (fs : Str → Option (Checkpoint σ τ Unit)) (args : SMap Str) :
    Outcome (Nat × World σ τ D) :=
  (begin stod t fresh e k fs args).bind (finish e k)

end App
end Verif.Runs
