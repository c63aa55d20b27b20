import Verif.Model.Outcome
import Verif.Model.Text

/-!
# Files and directories (`app_filesystem.hpp`)

The file system is a list of what there is below the working directory, in the order in which `readdir` reports it.  Every operation that POSIX allows
succeeds (there are no missing permissions, and no other program changes the files).  `.` and `..` do not occur in paths, empty components are dropped
as POSIX does.  Symbolic links lead to paths below the working directory.
-/

namespace Verif.Files
open Verif Verif.Text

/-- The components of a path. -/
abbrev Path := List Str

/-- What there can be: the types of `sys/stat.h`. -/
inductive Kind
  | fifo | chr | dir | blk | reg | sock
  | link (target : Path)
deriving DecidableEq

/-- What there is. -/
abbrev FS := List (Path × Kind)

/-- What there is at a path, links not followed (`lstat`). -/
def kindAt (fs : FS) (p : Path) : Option Kind := if p = [] then some .dir else (fs.find? fun x => decide (x.1 = p)).map (·.2)

/-- POSIX path resolution: all links are followed, at most `fuel` of them. -/
def walk (fs : FS) : Nat → Path → Path → Option Path
  | _, done, [] => some done
  | fuel, done, n :: rest => match kindAt fs (done ++ [n]) with
    | none => none
    | some (.link t) => match fuel with
      | 0 => none
      | fuel + 1 => walk fs fuel [] (t ++ rest)
    | some .dir => walk fs fuel (done ++ [n]) rest
    | some _ => if rest = [] then some (done ++ [n]) else none
termination_by fuel _ todo => (fuel, todo.length)

/-- Linux follows at most 40 links (`ELOOP`). -/
def resolve (fs : FS) (p : Path) : Option Path := walk fs 40 [] p

/-- `stat`. -/
def stat (fs : FS) (p : Path) : Option Kind := (resolve fs p).bind (kindAt fs)

/-- Where an entry is: links are followed but for the last component. -/
def place (fs : FS) (p : Path) : Option Path := p.getLast?.bind fun n => (resolve fs p.dropLast).map (· ++ [n])

/-- The names in a directory, without `.` and `..`. -/
def entries (fs : FS) (p : Path) : List Str := fs.filterMap fun x => x.1.getLast?.bind fun n => if x.1.dropLast = p then some n else none

/-- `opendir`, and what `readdir` then reports: what there was when the directory was opened, which POSIX allows. -/
def openDir (fs : FS) (p : Path) : Option (List Str) :=
  (resolve fs p).bind fun d => if kindAt fs d = some .dir then some (entries fs d) else none

/-- Without one entry. -/
def erase (fs : FS) (p : Path) : FS := fs.filter fun x => decide (x.1 ≠ p)

/-- `unlink`. -/
def unlink (fs : FS) (p : Path) : FS × Int :=
  match place fs p with
  | none => (fs, -1)
  | some q => match kindAt fs q with
    | none => (fs, -1)
    | some .dir => (fs, -1)
    | some _ => (erase fs q, 0)

/-- `rmdir`. -/
def rmdir (fs : FS) (p : Path) : FS × Int :=
  match place fs p with
  | none => (fs, -1)
  | some q => if kindAt fs q = some .dir ∧ entries fs q = [] then (erase fs q, 0) else (fs, -1)

/-- `mkdir`. -/
def mkdir (fs : FS) (p : Path) : FS × Int :=
  match place fs p with
  | none => (fs, -1)
  | some q => if kindAt fs q = none ∧ kindAt fs q.dropLast = some .dir then (fs ++ [(q, .dir)], 0) else (fs, -1)

/-- The type bits of `st_mode` in `sys/stat.h`. -/
def Kind.mode : Kind → Nat
  | .fifo => 0o010000
  | .chr => 0o020000
  | .dir => 0o040000
  | .blk => 0o060000
  | .reg => 0o100000
  | .link _ => 0o120000
  | .sock => 0o140000

/-- `app_filesystem.hpp:67-86` `listdir`. -/
def listdir (fs : FS) (p : Path) : Outcome (List Str) :=
  match openDir fs p with
  | none => .throws .invalidArgument
  | some names => .ok (names.filter fun n => decide (n.head? ≠ some '.'))

/-- `app_filesystem.hpp:137-146` `require_dir`; the results of `mkdir` are not looked at. -/
def requireLoop (fs : FS) (done : Path) : Path → FS
  | [] => fs
  | n :: rest => requireLoop (mkdir fs (done ++ [n])).1 (done ++ [n]) rest

def requireDir (fs : FS) (p : Path) : FS := requireLoop fs [] p

/-- `app_filesystem.hpp:181-197`: one entry in the loop of `remove_recurse`. -/
def removeOne (remove : FS → Path → Outcome (FS × Int)) (fs : FS) (p : Path) : Outcome (FS × Int) :=
  match stat fs p with
  | none => .ok (fs, -1)
  | some .dir => remove fs p
  | some _ => .ok (unlink fs p)

/-- `app_filesystem.hpp:174-199`: the loop of `remove_recurse`. -/
def removeEach (remove : FS → Path → Outcome (FS × Int)) (fs : FS) (p : Path) : List Str → Outcome (FS × Int)
  | [] => .ok (fs, 0)
  | n :: rest =>
    (removeOne remove fs (p ++ [n])).bind fun x =>
    if x.2 = 0 then removeEach remove x.1 p rest else .ok x

/-- `app_filesystem.hpp:153-208` `remove_recurse`, with at most `fuel` calls inside of each other. -/
def removeRecurse : Nat → FS → Path → Outcome (FS × Int)
  | 0, _, _ => .diverges
  | fuel + 1, fs, p =>
    (match openDir fs p with
      | none => Outcome.ok (fs, -1)
      | some names => removeEach (removeRecurse fuel) fs p names).bind fun x =>
    .ok (if x.2 = 0 then rmdir x.1 p else x)

/-- `app_filesystem.hpp:210-219` `isfile`. -/
def isFile (fs : FS) (p : Path) : Bool :=
  match stat fs p with
  | none => false
  | some k => decide (k.mode &&& Kind.reg.mode ≠ 0)

/-- `app_filesystem.hpp:221-230` `isdir`. -/
def isDir (fs : FS) (p : Path) : Bool :=
  match stat fs p with
  | none => false
  | some k => decide (k.mode &&& Kind.dir.mode ≠ 0)

end Verif.Files
