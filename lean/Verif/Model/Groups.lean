import Verif.Model.Outcome
import Verif.Model.Text
import Mathlib.Data.List.SplitOn

/-!
# Groups of HDF5 files (`core_hdf5.hpp`: `Link`, `Location`, `Group`, `File`)

HDF5 by its contract: a file is a list of objects with their paths from the root, in the order of creation; nothing is removed, renamed or linked twice.
An identifier of a group or dataset is the path it was opened with.  `H5Lexists` reports an error (a negative number) if the group that should have the
link does not exist.  Types, data spaces and values are any data; the creation properties are the lengths of the chunks, or none.
-/

namespace Verif.Groups
open Verif Verif.Text

abbrev Path := List Str

/-- A dataset: type, data space, chunks and the values, if any were written. -/
structure Data (τ σ ν : Type) where
  type : τ
  space : σ
  chunk : Option (List Nat)
  value : Option ν

/-- What there can be at a path. -/
inductive Node (τ σ ν : Type)
  | group
  | data (d : Data τ σ ν)

/-- `info.type == H5O_TYPE_GROUP`. -/
def Node.isGroup {τ σ ν : Type} : Node τ σ ν → Bool
  | .group => true
  | .data _ => false

/-- An open file: whether it was opened for writing, and what it holds. -/
structure File (τ σ ν : Type) where
  writable : Bool
  objects : List (Path × Node τ σ ν)

variable {τ σ ν : Type}

/-- What there is at a path from the root. -/
def objectAt (f : File τ σ ν) (p : Path) : Option (Node τ σ ν) :=
  if p = [] then some .group else (f.objects.find? fun x => decide (x.1 = p)).map (·.2)

/-- Whether there is a group at a path. -/
def groupAt (f : File τ σ ν) (p : Path) : Bool := (objectAt f p).any Node.isGroup

/-- What `name.data()` is to a function of C: the characters before the first null character. -/
def cstr (s : Str) : Str := s.takeWhile (· ≠ Char.ofNat 0)

/-- HDF5 names: components are separated by slashes; empty ones and `.` are dropped. -/
def components (s : Str) : Path := ((cstr s).splitOn '/').filter fun n => decide (n ≠ [] ∧ n ≠ ['.'])

/-- The path from the root that a name stands for at a location. -/
def target (loc : Path) (name : Str) : Path := if (cstr name).head? = some '/' then components name else loc ++ components name

/-- `H5Lexists`. -/
def lexists (f : File τ σ ν) (p : Path) : Int :=
  if p = [] then 1
  else if groupAt f p.dropLast then (if (objectAt f p).isSome then 1 else 0)
  else -1

/-- `h5::Object`. -/
inductive Object
  | file | group | dataset

/-- core_hdf5.hpp:558-573 `contains`.  A negative result of `H5Lexists` counts as true, and the result of `H5Oget_info_by_name` is not looked at: `info` is
then read without a value. -/
def contains (f : File τ σ ν) (loc : Path) (name : Str) (object : Object) : Outcome Bool :=
  if lexists f (target loc name) ≠ 0 then
    match object, objectAt f (target loc name) with
    | .file, _ => .ok false
    | .group, some x => .ok x.isGroup
    | .dataset, some x => .ok (!x.isGroup)
    | _, none => .ub
  else .ok false

/-- core_hdf5.hpp:575-579, 819-822 `open_group`. -/
def openGroup (f : File τ σ ν) (loc : Path) (name : Str) : Outcome Path :=
  if groupAt f (target loc name) then .ok (target loc name) else .throws .invalidArgument

/-- What `H5Gcreate` and `H5Dcreate` do: the file must be writable, the group must be there and must not have the link. -/
def create (f : File τ σ ν) (p : Path) (x : Node τ σ ν) : Outcome (File τ σ ν × Path) :=
  if f.writable ∧ p ≠ [] ∧ groupAt f p.dropLast ∧ (objectAt f p).isNone then .ok ({ f with objects := f.objects ++ [(p, x)] }, p)
  else .throws .invalidArgument

/-- core_hdf5.hpp:581-584 `create_group`. -/
def createGroup (f : File τ σ ν) (loc : Path) (name : Str) : Outcome (File τ σ ν × Path) := create f (target loc name) .group

/-- core_hdf5.hpp:824-835 `require_group`. -/
def requireGroup (f : File τ σ ν) (loc : Path) (name : Str) : Outcome (File τ σ ν × Path) :=
  if name = ['/'] then (openGroup f loc name).map (f, ·)
  else (contains f loc name .group).bind fun b => if b then (openGroup f loc name).map (f, ·) else createGroup f loc name

/-- core_hdf5.hpp:586-589, 837-840 `open_dataset`. -/
def openDataset (f : File τ σ ν) (loc : Path) (name : Str) : Outcome (Path × Data τ σ ν) :=
  match objectAt f (target loc name) with
  | some (.data d) => .ok (target loc name, d)
  | _ => .throws .invalidArgument

/-- core_hdf5.hpp:842-861 `require_dataset`; the properties of a dataset that is there are compared with the default ones. -/
def requireDataset [DecidableEq τ] [DecidableEq σ] (f : File τ σ ν) (loc : Path) (name : Str) (t : τ) (s : σ) (chunk : Option (List Nat)) :
    Outcome (File τ σ ν × Path) :=
  (contains f loc name .dataset).bind fun b =>
  if b then
    (openDataset f loc name).bind fun d =>
    if d.2.type = t ∧ d.2.space = s ∧ d.2.chunk = none then .ok (f, d.1) else .throws .invalidArgument
  else create f (target loc name) (.data ⟨t, s, chunk, none⟩)

/-- What `H5Dwrite` of a whole dataset does. -/
def putValue (v : ν) : Node τ σ ν → Node τ σ ν
  | .group => .group
  | .data d => .data { d with value := some v }

/-- core_hdf5.hpp:688-703 `Dataset::write`, with the type and data space of the dataset. -/
def writeValue (f : File τ σ ν) (p : Path) (v : ν) : Outcome (File τ σ ν) :=
  if f.writable then .ok { f with objects := f.objects.map fun x => if x.1 = p then (x.1, putValue v x.2) else x }
  else .throws .invalidArgument

/-- core_hdf5.hpp:869-876 `write` of a location. -/
def write [DecidableEq τ] [DecidableEq σ] (f : File τ σ ν) (loc : Path) (name : Str) (t : τ) (s : σ) (v : ν) : Outcome (File τ σ ν) :=
  (requireDataset f loc name t s none).bind fun x => writeValue x.1 x.2 v

/-- core_hdf5.hpp:878-882, 705-721 `read` of a location as the type `t`. -/
def read [DecidableEq τ] (f : File τ σ ν) (loc : Path) (name : Str) (t : τ) : Outcome (Option ν) :=
  (openDataset f loc name).bind fun d => if d.2.type = t then .ok d.2.value else .throws .invalidArgument

/-- The names in a group. -/
def members (f : File τ σ ν) (loc : Path) : List Str :=
  f.objects.filterMap fun x => x.1.getLast?.bind fun n => if x.1.dropLast = loc then some n else none

/-- core_hdf5.hpp:550-556 `size`: `H5Literate` goes through all links and counts them. -/
def size (f : File τ σ ν) (loc : Path) : Nat := (members f loc).length

/-- core_hdf5.hpp:620-630 `operator*` of the iterator.  `names` are the names in the order that HDF5 calls native.  `H5Lget_name_by_idx` returns the length of
the name, and puts at most 1023 characters and a null character into the buffer.  Beyond the last link it fails; what the buffer held before is then returned, which is
here taken to be undefined. -/
def nameAt (names : List Str) (idx : Nat) : Outcome Str :=
  match names[idx]? with
  | none => .ub
  | some n => if n.length > 1024 then .throws .other else .ok (n.take 1023)

/-- The iterator from `idx`, `k` times. -/
def visit (names : List Str) : Nat → Nat → Outcome (List Str)
  | 0, _ => .ok []
  | k + 1, idx => (nameAt names idx).bind fun n => (visit names k (idx + 1)).map (n :: ·)

/-- core_hdf5.hpp:607-646, 804-812: `for (auto name : group)`. `order` is the native order of HDF5. -/
def iterate (order : List Str → List Str) (f : File τ σ ν) (loc : Path) : Outcome (List Str) := visit (order (members f loc)) (size f loc) 0

/-- The files there are. -/
abbrev Disk (τ σ ν : Type) := Str → Option (List (Path × Node τ σ ν))

/-- core_hdf5.hpp:941-959: the constructor of `File`. -/
def openFile (disk : Disk τ σ ν) (filename mode : Str) : Outcome (Disk τ σ ν × File τ σ ν) :=
  if mode = ['r'] then match disk filename with
    | none => .throws .invalidArgument
    | some o => .ok (disk, ⟨false, o⟩)
  else if mode = ['r', '+'] then match disk filename with
    | none => .throws .invalidArgument
    | some o => .ok (disk, ⟨true, o⟩)
  else if mode = ['w'] then .ok (fun n => if n = filename then some [] else disk n, ⟨true, []⟩)
  else .throws .invalidArgument

/-- core_hdf5.hpp:979-988 `filename`: `H5Fget_name` returns the length and puts at most 2047 characters into the buffer. -/
def filename (name : Str) : Outcome Str := if name.length > 2048 then .throws .invalidArgument else .ok (name.take 2047)

end Verif.Groups
