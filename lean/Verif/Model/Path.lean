import Verif.Model.Text

/-!
# File names (`app_filesystem.hpp`, `app_serialize.hpp`)
-/

namespace Verif.Path
open Verif Verif.Text

/-- `app_serialize.hpp:183-188` `create_numbered_filename` for a non-negative count: `%s.%04d.%s` into a
buffer of 1024 characters, one of them for the terminating NUL. -/
def numbered (pre : Str) (count : Nat) (ext : Str) : Str :=
  (pre ++ '.' :: pad 4 (showNat count) ++ '.' :: ext).take 1023

/-- `app_filesystem.hpp:94-105`: the loop of `split`. -/
def split (path : Str) : List Str :=
  if h : '/' ∈ path then before '/' path :: split (eraseThrough '/' path) else [path]
termination_by path.length
decreasing_by
  simp only [eraseThrough, h, if_true, List.length_drop]
  have h1 : (path.dropWhile fun x => decide (x ≠ '/')).length ≤ path.length :=
    (List.dropWhile_sublist _).length_le
  have h2 : 0 < path.length := List.length_pos_of_mem h
  omega

/-- `app_filesystem.hpp:113-116`: the loop of `join`. -/
def joinLoop (res : Str) : List Str → Str
  | [] => res
  | part :: parts => joinLoop (res ++ '/' :: part) parts

/-- `app_filesystem.hpp:109-118` `join`. -/
def join (parts : List Str) : Str :=
  let res := joinLoop [] parts
  if res.isEmpty then res else res.drop 1

/-- `std::string::rfind(c)` with `substr(pos)`: the suffix from the last occurrence on. -/
def fromLast (c : Char) (s : Str) : Option Str :=
  match s with
  | [] => none
  | d :: s => match fromLast c s with
    | some r => some r
    | none => if d = c then some (d :: s) else none

/-- `std::string::find_last_of(c)` with `substr(0, pos)`; the whole string if it does not occur. -/
def beforeLast (c : Char) (s : Str) : Str :=
  match fromLast c s with
  | some r => s.take (s.length - r.length)
  | none => s

/-- `app_filesystem.hpp:120-129` `extension`. -/
def extension (path : Str) : Str := (fromLast '.' path).getD []

/-- `app_filesystem.hpp:131-135` `parent`. -/
def parent (path : Str) : Str := beforeLast '/' path

/-- `app_filesystem.hpp:141-145`: the loop of `require_dir`; the directories created, in order. -/
def requireLoop (partial_ : Str) : List Str → List Str
  | [] => []
  | d :: ds => (partial_ ++ '/' :: d) :: requireLoop (partial_ ++ '/' :: d) ds

/-- `app_filesystem.hpp:137-146` `require_dir`: the arguments of the calls of `mkdir`. -/
def requireDir (path : Str) : List Str := requireLoop ['.'] (split path)

end Verif.Path
