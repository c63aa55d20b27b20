import Verif.Model.StdMap

/-!
# Run configuration (`app_config.hpp`) and its storage (`app_serialize.hpp`)

`τ` is the type of `double`s.
-/

namespace Verif.Config
open Verif Verif.Text

variable {τ : Type}

/-- `app_config.hpp:41` `config_parameter_t = std::variant<int, double, std::string>`. -/
inductive Param (τ : Type) where
  | int (i : Int)
  | dbl (x : τ)
  | str (s : Str)
deriving DecidableEq

/-- `std::variant::index` -/
def Param.index : Param τ → Nat
  | .int _ => 0
  | .dbl _ => 1
  | .str _ => 2

/-- `app_config.hpp:61-150` `config_t` (data members at 148-149). -/
structure Config (τ : Type) where
  params : SMap (Param τ)
  template : SMap (Param τ)

/-- `app_config.hpp:75-83` `get`, up to `std::get<ValueType>`. -/
def Config.get (c : Config τ) (key : Str) : Outcome (Param τ) :=
  match c.template.get? key with
  | none => .throws .invalidArgument
  | some _ =>
    match c.params.get? key with
    | none => .throws .outOfRange
    | some v => .ok v

/-- `app_config.hpp:71` `get_int` -/
def Config.getInt (c : Config τ) (key : Str) : Outcome Int :=
  (c.get key).bind fun v => match v with
    | .int i => .ok i
    | _ => .throws .badVariantAccess

/-- `app_config.hpp:72` `get_double` -/
def Config.getDouble (c : Config τ) (key : Str) : Outcome τ :=
  (c.get key).bind fun v => match v with
    | .dbl x => .ok x
    | _ => .throws .badVariantAccess

/-- `app_config.hpp:73` `get_string` -/
def Config.getString (c : Config τ) (key : Str) : Outcome Str :=
  (c.get key).bind fun v => match v with
    | .str s => .ok s
    | _ => .throws .badVariantAccess

/-- A `config_t` whose members have been moved out (both maps are empty). -/
def Config.movedFrom : Config τ := ⟨[], []⟩

/-- `app_config.hpp:123-136` `set(key, config_parameter_t) &&`: the result, and what is left in the
object it was called on. -/
def Config.setMove (c : Config τ) (key : Str) (v : Param τ) : Outcome (Config τ) × Config τ :=
  match c.template.get? key with
  | none => (.throws .invalidArgument, c)
  | some d =>
    if v.index ≠ d.index then (.throws .invalidArgument, c)
    else (.ok ⟨c.params.set key v, c.template⟩, Config.movedFrom)

/-- `app_config.hpp:138-141` `set(key, config_parameter_t) const &`: works on a copy. -/
def Config.set (c : Config τ) (key : Str) (v : Param τ) : Outcome (Config τ) := (c.setMove key v).1

/-- Text to a value of the type that the template has for a key: the `switch` at
`app_config.hpp:109-114`.  `stod` is the library function. -/
def parseAs (stod : Str → Outcome τ) (d : Param τ) (value : Str) : Outcome (Param τ) :=
  match d with
  | .int _ => (stoi value).map .int
  | .dbl _ => (stod value).map .dbl
  | .str _ => .ok (.str value)

/-- `app_config.hpp:103-121` `set(key, std::string)`. -/
def Config.setText (stod : Str → Outcome τ) (c : Config τ) (key value : Str) : Outcome (Config τ) :=
  match c.template.get? key with
  | none => .throws .invalidArgument
  | some d => (parseAs stod d value).bind fun v => c.set key v

/-- `app_config.hpp:85-101` `update` with a map of parameters. -/
def Config.update (c : Config τ) : SMap (Param τ) → Outcome (Config τ)
  | [] => .ok c
  | (k, v) :: m => (c.set k v).bind fun c' => c'.update m

/-- `app_config.hpp:85-101` `update` with a map of strings. -/
def Config.updateText (stod : Str → Outcome τ) (c : Config τ) : SMap Str → Outcome (Config τ)
  | [] => .ok c
  | (k, v) :: m => (c.setText stod k v).bind fun c' => c'.updateText stod m

/-- `app_config.hpp:156-186` `config_template_t` (data member at 185). -/
abbrev Template (τ : Type) := SMap (Param τ)

/-- `app_config.hpp:164-176` `item`. -/
def Template.item (t : Template τ) (key : Str) (v : Param τ) : Template τ := SMap.set t key v

/-- `app_config.hpp:178-181` `create`. -/
def Template.create (t : Template τ) : Config τ := ⟨t, t⟩

/-- `app_config.hpp:229-242`: one argument. -/
def argvStep (items : SMap Str) (arg : Str) : Outcome (SMap Str) :=
  if '=' ∈ arg then
    let key := before '=' arg
    let val := eraseThrough '=' arg
    match items.get? key with
    | some _ => .throws .invalidArgument
    | none => .ok (items.set key val)
  else .ok items

/-- `app_config.hpp:227-243`: the loop over the arguments. -/
def argvLoop (items : SMap Str) : List Str → Outcome (SMap Str)
  | [] => .ok items
  | a :: as => (argvStep items a).bind fun items' => argvLoop items' as

/-- `app_config.hpp:223-245` `argv_to_string_map`. -/
def argvToStringMap (argv : List Str) : Outcome (SMap Str) := argvLoop [] argv

/-! ### In files -/

/-- A scalar dataset in an HDF5 file; strings are stored with a fixed size.  A model of the library. -/
inductive Dataset (τ : Type) where
  | int (i : Int)
  | dbl (x : τ)
  | chars (s : Str)
  /-- any other type -/
  | other
deriving DecidableEq

/-- Writing a parameter: `app_serialize.hpp:293-316, 338-347` with `core_hdf5.hpp:473-484`.  The size of a
string type is at least one, so that the terminating NUL of an empty string is stored. -/
def writeParam : Param τ → Dataset τ
  | .int i => .int i
  | .dbl x => .dbl x
  | .str s => .chars (if s.isEmpty then ['\x00'] else s)

/-- Reading a parameter: `app_serialize.hpp:317-337`; the string read has the size of the stored type. -/
def readParam : Dataset τ → Outcome (Param τ)
  | .int i => .ok (.int i)
  | .dbl x => .ok (.dbl x)
  | .chars s => .ok (.str s)
  | .other => .throws .invalidArgument

/-- `app_serialize.hpp:100-106` `write_config` to a group that has none of the keys. -/
def writeConfig (c : Config τ) : SMap (Dataset τ) := c.params.map fun p => (p.1, writeParam p.2)

/-- `app_serialize.hpp:110-121`: the loop; an exception is printed and the item skipped. -/
def readLoop (m : SMap (Param τ)) : SMap (Dataset τ) → SMap (Param τ)
  | [] => m
  | (k, d) :: g =>
    match readParam d with
    | .ok v => readLoop (m.set k v) g
    | _ => readLoop m g

/-- `app_serialize.hpp:108-123` `read_config`. -/
def readConfig (g : SMap (Dataset τ)) : SMap (Param τ) := readLoop [] g

end Verif.Config
