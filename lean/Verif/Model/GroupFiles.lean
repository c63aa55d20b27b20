import Verif.Model.Groups
import Verif.Model.Schedule
import Verif.Model.Config

/-!
# Schedules and configurations in groups of HDF5 files (`app_serialize.hpp`)

The functions of `app_serialize.hpp:69-123` with the groups of `Model/Groups.lean`: they make groups and datasets one after the other, and go through what there is in the
order of HDF5.  (`Model/Schedule.lean` and `Model/Config.lean` have them with finite maps for groups.)
-/

namespace Verif.Groups
open Verif Verif.Text

variable {δ : Type}

/-- The types of datasets: `int`, `double`, or a string of fixed size. -/
inductive Ty
  | int | dbl
  | chars (size : Nat)
deriving DecidableEq

/-- Values in files. -/
inductive Val (δ : Type)
  | int (i : Int)
  | dbl (x : δ)
  | chars (s : Str)

/-- A file; all data spaces are scalar. -/
abbrev Store (δ : Type) := File Ty Unit (Val δ)

/-- core_hdf5.hpp:434-484 `make_datatype_for`. -/
def Val.type : Val δ → Ty
  | .int _ => .int
  | .dbl _ => .dbl
  | .chars s => .chars s.length

/-- core_hdf5.hpp:473-484: a string as it is written; the size of the type is at least one, so that the terminating null character of an empty string is stored. -/
def ofStr (s : Str) : Val δ := .chars (if s.isEmpty then [Char.ofNat 0] else s)

/-- `group.write(name, value)`. -/
def put (f : Store δ) (loc : Path) (name : Str) (v : Val δ) : Outcome (Store δ) := write f loc name v.type () v

/-- `group.read<int>(name)`; fill values are zero. -/
def getInt (f : Store δ) (loc : Path) (name : Str) : Outcome Int := (read f loc name .int).bind fun
  | none => .ok 0
  | some (.int i) => .ok i
  | some _ => .ub

/-- `group.read<double>(name)`. -/
def getDbl [Zero δ] (f : Store δ) (loc : Path) (name : Str) : Outcome δ := (read f loc name .dbl).bind fun
  | none => .ok 0
  | some (.dbl x) => .ok x
  | some _ => .ub

/-- "name" -/
def nameKey : Str := ['n', 'a', 'm', 'e']
/-- "num_times_performed" -/
def numKey : Str := ['n', 'u', 'm', '_', 't', 'i', 'm', 'e', 's', '_', 'p', 'e', 'r', 'f', 'o', 'r', 'm', 'e', 'd']
/-- "last_performed" -/
def lastKey : Str := ['l', 'a', 's', 't', '_', 'p', 'e', 'r', 'f', 'o', 'r', 'm', 'e', 'd']

/-- app_serialize.hpp:73-76: the body of the loop. -/
def writeTask (f : Store δ) (loc : Path) (k : Str) (t : Sched.TaskRec δ) : Outcome (Store δ) :=
  (requireGroup f loc k).bind fun g =>
  (put g.1 g.2 nameKey (ofStr t.name)).bind fun f =>
  (put f g.2 numKey (.int t.num)).bind fun f =>
  put f g.2 lastKey (.dbl t.last)

/-- app_serialize.hpp:69-78 `write_schedule`. -/
def writeTasks (f : Store δ) (loc : Path) : Sched.Schedule δ → Outcome (Store δ)
  | [] => .ok f
  | (k, t) :: rest => (writeTask f loc k t).bind fun f => writeTasks f loc rest

/-- app_serialize.hpp:86-91: the body of the loop. -/
def readTask [Zero δ] (f : Store δ) (loc : Path) (s : Sched.Schedule δ) (k : Str) : Outcome (Sched.Schedule δ) :=
  (openGroup f loc k).bind fun g =>
  (getInt f g numKey).bind fun n =>
  (getDbl f g lastKey).bind fun x =>
  .ok (s.insert ⟨k, n.toNat, x, false⟩)

/-- app_serialize.hpp:84-92: the loop. -/
def readTaskLoop [Zero δ] (f : Store δ) (loc : Path) (s : Sched.Schedule δ) : List Str → Outcome (Sched.Schedule δ)
  | [] => .ok s
  | k :: rest => (readTask f loc s k).bind fun s => readTaskLoop f loc s rest

/-- app_serialize.hpp:80-94 `read_schedule`. -/
def readTasks [Zero δ] (order : List Str → List Str) (f : Store δ) (loc : Path) : Outcome (Sched.Schedule δ) :=
  (iterate order f loc).bind (readTaskLoop f loc [])

/-- app_serialize.hpp:293-316, 338-347: a parameter as it is written. -/
def ofParam : Config.Param δ → Val δ
  | .int i => .int i
  | .dbl x => .dbl x
  | .str s => ofStr s

/-- app_serialize.hpp:100-106 `write_config`. -/
def writeParams (f : Store δ) (loc : Path) : SMap (Config.Param δ) → Outcome (Store δ)
  | [] => .ok f
  | (k, v) :: rest => (put f loc k (ofParam v)).bind fun f => writeParams f loc rest

/-- app_serialize.hpp:317-337: a parameter is read as what the type of the dataset says. -/
def readParam [Zero δ] (f : Store δ) (loc : Path) (k : Str) : Outcome (Config.Param δ) :=
  (openDataset f loc k).bind fun d => match d.2.type with
  | .int => (getInt f loc k).map .int
  | .dbl => (getDbl f loc k).map .dbl
  | .chars n => (read f loc k (.chars n)).bind fun
    | none => .ok (.str (List.replicate n (Char.ofNat 0)))
    | some (.chars s) => .ok (.str s)
    | some _ => .ub

/-- app_serialize.hpp:112-120: the loop; exceptions are printed, and the item is left out. -/
def readParamLoop [Zero δ] (f : Store δ) (loc : Path) (m : SMap (Config.Param δ)) : List Str → Outcome (SMap (Config.Param δ))
  | [] => .ok m
  | k :: rest => match readParam f loc k with
    | .ok v => readParamLoop f loc (m.set k v) rest
    | .throws _ => readParamLoop f loc m rest
    | .ub => .ub
    | .diverges => .diverges

/-- app_serialize.hpp:108-123 `read_config`. -/
def readParams [Zero δ] (order : List Str → List Str) (f : Store δ) (loc : Path) : Outcome (SMap (Config.Param δ)) :=
  (iterate order f loc).bind (readParamLoop f loc [])

end Verif.Groups
