import Verif.Model.StdMap
import Mathlib.Algebra.Field.Defs
import Mathlib.Order.Defs.LinearOrder

/-!
# Schedules (`app_schedule.hpp`) and their storage (`app_serialize.hpp`)

`τ` is the type of `double`s.  Only the operations that the code uses are required of it, so that it can be an ordered field or the rounded
arithmetic of `Model/Double.lean`.
-/

namespace Verif.Sched
open Verif Verif.Text

variable {τ S : Type}

/-- `app_schedule.hpp:62-68` `task_t`.  The count is an `int`; its overflow is not modelled. -/
structure TaskRec (τ : Type) where
  name : Str
  num : Nat
  last : τ
  due : Bool
deriving DecidableEq

/-- `app_schedule.hpp:142` `std::map<std::string, task_t>`. -/
abbrev Schedule (τ : Type) := SMap (TaskRec τ)

namespace Schedule

/-- `app_schedule.hpp:75-84, 101-110` `at`. -/
def at' (s : Schedule τ) (name : Str) : Outcome (TaskRec τ) :=
  match s.get? name with
  | none => .throws .outOfRange
  | some t => .ok t

/-- `app_schedule.hpp:86-89` -/
def numTimesPerformed (s : Schedule τ) (name : Str) : Outcome Nat := (s.at' name).map (·.num)

/-- `app_schedule.hpp:91-94` -/
def lastPerformed (s : Schedule τ) (name : Str) : Outcome τ := (s.at' name).map (·.last)

/-- `app_schedule.hpp:96-99` -/
def isDue (s : Schedule τ) (name : Str) : Outcome Bool := (s.at' name).map (·.due)

/-- `app_schedule.hpp:112-115` `insert` -/
def insert (s : Schedule τ) (t : TaskRec τ) : Schedule τ := s.set t.name t

/-- `app_schedule.hpp:117-120` `create` -/
def create [Zero τ] (s : Schedule τ) (name : Str) : Schedule τ := s.set name ⟨name, 0, 0, false⟩

/-- `app_schedule.hpp:122-126` `mark_as_due` -/
def markAsDue [Add τ] (s : Schedule τ) (name : Str) (amount : τ) : Outcome (Schedule τ) :=
  (s.at' name).bind fun t => .ok (s.set name { t with due := true, last := t.last + amount })

/-- `app_schedule.hpp:128-132` `create_and_mark_as_due` -/
def createAndMarkAsDue [Zero τ] [Add τ] (s : Schedule τ) (name : Str) : Outcome (Schedule τ) :=
  (s.create name).markAsDue name 0

/-- `app_schedule.hpp:134-138` `mark_as_completed` -/
def markAsCompleted (s : Schedule τ) (name : Str) : Outcome (Schedule τ) :=
  (s.at' name).bind fun t => .ok (s.set name { t with due := false, num := t.num + 1 })

end Schedule

/-- `app_schedule.hpp:166-173`: the loop, with the original state's schedule and the `next` state. -/
def runLoop (sched : Schedule τ) : List (Str × (S → Outcome S)) → S → Outcome S
  | [], next => .ok next
  | (name, f) :: tasks, next =>
    (sched.isDue name).bind fun d =>
    if d then (f next).bind fun next' => runLoop sched tasks next' else runLoop sched tasks next

/-- `app_schedule.hpp:161-174` `run_scheduled_tasks`; `schedule` is the data member of the state. -/
def runScheduledTasks (schedule : S → Schedule τ) (state : S) (tasks : List (Str × (S → Outcome S))) :
    Outcome S :=
  runLoop (schedule state) tasks state

/-- `app_schedule.hpp:185-194`: the loop, with the original schedule and the next one. -/
def markLoop [Add τ] [Sub τ] [LinearOrder τ] (orig : Schedule τ) (time : τ) :
    List (Str × τ) → Schedule τ → Outcome (Schedule τ)
  | [], next => .ok next
  | (name, interval) :: tasks, next =>
    (orig.lastPerformed name).bind fun l =>
    if time - l ≥ interval then
      (next.markAsDue name interval).bind fun next' => markLoop orig time tasks next'
    else markLoop orig time tasks next

/-- `app_schedule.hpp:180-196` `mark_tasks_in`, on the schedule of the state. -/
def markTasks [Add τ] [Sub τ] [LinearOrder τ] (s : Schedule τ) (time : τ) (intervals : List (Str × τ)) :
    Outcome (Schedule τ) :=
  markLoop s time intervals s

/-! ### In files -/

/-- What a file stores of a task: `num_times_performed` and `last_performed` (and the name, which is
not read back).  `app_serialize.hpp:73-76`. -/
structure StoredTask (τ : Type) where
  name : Str
  num : Nat
  last : τ
deriving DecidableEq

/-- `app_serialize.hpp:69-78` `write_schedule` to an empty group. -/
def writeSchedule (s : Schedule τ) : SMap (StoredTask τ) :=
  s.map fun p => (p.1, ⟨p.2.name, p.2.num, p.2.last⟩)

/-- `app_serialize.hpp:84-92`: the loop. -/
def readLoop (s : Schedule τ) : SMap (StoredTask τ) → Schedule τ
  | [] => s
  | (k, t) :: g => readLoop (s.insert ⟨k, t.num, t.last, false⟩) g

/-- `app_serialize.hpp:80-94` `read_schedule`. -/
def readSchedule (g : SMap (StoredTask τ)) : Schedule τ := readLoop [] g

end Verif.Sched
