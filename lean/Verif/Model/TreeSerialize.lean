import Verif.Model.Tree
import Verif.Model.Text
import Mathlib.Data.Nat.Log

/-!
# Trees in files (`app_serialize_tree.hpp`)
-/

namespace Verif.TreeSerialize
open Verif Verif.Text Verif.Tree Verif.Seq

variable {R : Nat} {α : Type}

/-- `app_serialize_tree.hpp:83`: `int(1 + std::log10(s))` for a positive power of two `s`.  The
`double` logarithm of a power of two is an integer only for `s = 1`, where it is exact; otherwise it is
assumed accurate enough not to cross an integer. -/
def fieldWidth (s : Nat) : Nat := 1 + Nat.log 10 s

/-- `app_serialize_tree.hpp:73-87` `format_tree_index`. -/
def formatTreeIndex (sh : Nat → Outcome Nat) (i : Index R) : Outcome Str :=
  (sh i.level).bind fun s =>
  .ok (showNat i.level ++ (List.ofFn fun n : Fin R =>
    (if (n : Nat) = 0 then ':' else '-') :: pad (fieldWidth s) (showNat (i.coords n))).flatten)

/-- Conversion of an `int` to `size_t`. -/
def toSizeT (v : Int) : Nat := (v % 2 ^ 64).toNat

/-- `app_serialize_tree.hpp:115-119`: the loop over the coordinates. -/
def readCoords : (n : Nat) → Str → Outcome (Seq n Nat)
  | 0, _ => .ok Fin.elim0
  | n + 1, s =>
    (stoi (before '-' s)).bind fun v =>
    (readCoords n (eraseThrough '-' s)).bind fun vs =>
    .ok (Fin.cons (toSizeT v) vs)

/-- `app_serialize_tree.hpp:103-121` `read_tree_index`. -/
def readTreeIndex (R : Nat) (s : Str) : Outcome (Index R) :=
  if s.count '-' ≠ (R + 2 ^ 64 - 1) % 2 ^ 64 then .throws .invalidArgument
  else
    (stoi (before ':' s)).bind fun l =>
    (readCoords R (eraseThrough ':' s)).bind fun x =>
    .ok ⟨toSizeT l, x⟩

/-- An HDF5 group: its members in the order of creation.  A model of the library. -/
abbrev Group (α : Type) := List (Str × α)

/-- Writing a dataset: `require_dataset` (core_hdf5.hpp:842-861) opens an existing one, otherwise
creates it. -/
def Group.write (g : Group α) (name : Str) (v : α) : Group α :=
  match g with
  | [] => [(name, v)]
  | (n, w) :: g => if n = name then (n, v) :: g else (n, w) :: Group.write g name v

/-- Reading a dataset; a missing one makes the HDF5 call fail, which throws. -/
def Group.read (g : Group α) (name : Str) : Outcome α :=
  match g with
  | [] => .throws .invalidArgument
  | (n, w) :: g => if n = name then .ok w else Group.read g name

/-- `app_serialize_tree.hpp:167-174` `write_tree`: the function handed to `sink`. -/
def writeLeaves (sh : Nat → Outcome Nat) : List (Index R × α) → Group α → Outcome (Group α)
  | [], g => .ok g
  | (i, v) :: ps, g => (formatTreeIndex sh i).bind fun n => writeLeaves sh ps (g.write n v)

/-- `app_serialize_tree.hpp:167-174` `write_tree`. -/
def writeTree (sh : Nat → Outcome Nat) (t : Tree R α) (g : Group α) : Outcome (Group α) :=
  t.pairIndexes.bind fun p => writeLeaves sh p.sink g

/-- `app_serialize_tree.hpp:136-143` `read_tree`; the group is traversed in the given order of names.
The C++ function always parses indexes of rank 2 (line 141) and therefore compiles for `Rank = 2`
only; here the rank is that of the tree. -/
def readTree [Inhabited α] (sh : Nat → Outcome Nat) (g : Group α) :
    List Str → Tree R α → Outcome (Tree R α)
  | [], t => .ok t
  | n :: ns, t =>
    (g.read n).bind fun v =>
    (readTreeIndex R n).bind fun i =>
    (Tree.insert sh v i.level t i).bind fun t' => readTree sh g ns t'

end Verif.TreeSerialize
