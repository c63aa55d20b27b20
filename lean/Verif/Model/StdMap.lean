import Verif.Model.Text

/-!
# `std::map<std::string, T>`

A model of the C++ standard library.  The entries are kept in the order in which their keys were first
inserted; the order by key of a `std::map` is not modelled, and no result depends on it.
-/

namespace Verif
open Text

/-- `std::map<std::string, α>` -/
abbrev SMap (α : Type) := List (Str × α)

namespace SMap
variable {α : Type}

/-- The value at a key, if there is one: `count(key)` is whether there is one, `at(key)` is its value. -/
def get? (m : SMap α) (k : Str) : Option α :=
  match m with
  | [] => none
  | (n, v) :: m => if n = k then some v else get? m k

/-- `m[k] = v` -/
def set (m : SMap α) (k : Str) (v : α) : SMap α :=
  match m with
  | [] => [(k, v)]
  | (n, w) :: m => if n = k then (n, v) :: m else (n, w) :: set m k v

/-- The keys, in the order of iteration. -/
def keys (m : SMap α) : List Str := m.map Prod.fst

/-- No key occurs twice: the invariant of `std::map`. -/
def WF (m : SMap α) : Prop := m.keys.Nodup

instance (m : SMap α) : Decidable m.WF := inferInstanceAs (Decidable m.keys.Nodup)

end SMap
end Verif
