import Verif.Model.TreeSerialize

/-!
# Values in HDF5 files (`core_hdf5.hpp`, `app_serialize.hpp`)

Memory is counted in numbers: an `int` or `double` takes one place, so that there is no padding.  Of the library: a dataset has a type, an extent and the values of the elements;
a failing call throws `std::invalid_argument` (core_hdf5.hpp:90-105).
-/

namespace Verif.File
open Verif Verif.Text Verif.TreeSerialize

variable {δ β : Type}

/-- A number in memory or in a file. -/
inductive Scalar (δ : Type) where
  | int (i : Int)
  | dbl (x : δ)
  deriving DecidableEq

/-- core_hdf5.hpp:190-211, 260-264 `h5::Datatype`: numbers, `as_array`, `compound`.  The size of a compound and the places of its members are those of the structure in memory. -/
inductive HType where
  | int
  | double
  | array (n : Nat) (t : HType)
  | compound (size : Nat) (members : List (Str × Nat × HType))

/-- core_hdf5.hpp:248-251 `size`. -/
def HType.size : HType → Nat
  | .int => 1
  | .double => 1
  | .array n t => n * t.size
  | .compound s _ => s

mutual
/-- Which places of an object in memory belong to the type, in the order of the file. -/
def HType.cells : HType → List Nat
  | .int => [0]
  | .double => [0]
  | .array n t => (List.range n).flatMap fun k => t.cells.map (k * t.size + ·)
  | .compound _ ms => memberCells ms

def memberCells : List (Str × Nat × HType) → List Nat
  | [] => []
  | (_, o, t) :: ms => t.cells.map (o + ·) ++ memberCells ms
end

/-- core_hdf5.hpp:282-317 `h5::Dataspace`. -/
inductive Space where
  | scalar
  | simple (dims : List Nat)
  deriving DecidableEq

/-- core_hdf5.hpp:352-355 `size`. -/
def Space.points : Space → Nat
  | .scalar => 1
  | .simple dims => dims.prod

/-- A dataset in a file. -/
structure Dataset (δ : Type) where
  type : HType
  space : Space
  data : List (Scalar δ)

/-- A member of a group: a dataset or a group. -/
inductive Node (δ : Type) where
  | data (d : Dataset δ)
  | group (members : List (Str × Node δ))

/-- The members of a group, in the order of creation. -/
abbrev Members (δ : Type) := TreeSerialize.Group (Node δ)

/-- The places of `n` elements, one after the other. -/
def offsets (n : Nat) (t : HType) : List Nat := (List.range n).flatMap fun e => t.cells.map (e * t.size + ·)

/-- What `H5Dwrite` takes out of memory. -/
def gather (mem : List (Scalar δ)) : List Nat → Outcome (List (Scalar δ))
  | [] => .ok []
  | c :: cs => match mem[c]? with
    | none => .ub
    | some v => (gather mem cs).map (v :: ·)

/-- What `H5Dread` puts into memory; other places stay as they are. -/
def scatter : List Nat → List (Scalar δ) → List (Scalar δ) → Outcome (List (Scalar δ))
  | [], _, mem => .ok mem
  | _ :: _, [], _ => .ub
  | c :: cs, v :: vs, mem => if c < mem.length then scatter cs vs (mem.set c v) else .ub

open Classical in
/-- core_hdf5.hpp:842-861, 869-876, 689-698: `write` of a group: `require_dataset`, then `H5Dwrite`.  The creation properties are always the default. -/
noncomputable def writeData (g : Members δ) (name : Str) (t : HType) (s : Space) (mem : List (Scalar δ)) : Outcome (Members δ) :=
  let put : Outcome (Members δ) := (gather mem (offsets s.points t)).map fun l => g.write name (.data ⟨t, s, l⟩)
  match g.read name with
  | .ok (.data d) => if d.type = t ∧ d.space = s then put else .throws .invalidArgument
  | .ok (.group _) => .throws .invalidArgument
  | _ => put

/-- core_hdf5.hpp:837-840 `open_dataset`. -/
def openData (g : Members δ) (name : Str) : Outcome (Dataset δ) :=
  (g.read name).bind fun
    | .data d => .ok d
    | .group _ => .throws .invalidArgument

/-- `h5::hdf5_type_info` of a type of fixed size: the type in files, a new object, its memory, and the object that has this memory. -/
structure Elem (β δ : Type) where
  type : HType
  new : β
  address : β → List (Scalar δ)
  load : List (Scalar δ) → Outcome β

open Classical in
/-- core_hdf5.hpp:711-720 `Dataset::read` into memory that was prepared, with `points` points. -/
noncomputable def Dataset.read (d : Dataset δ) (t : HType) (points : Nat) (mem : List (Scalar δ)) : Outcome (List (Scalar δ)) :=
  if d.type ≠ t then .throws .invalidArgument
  else if d.space.points ≠ points then .throws .invalidArgument
  else scatter (offsets points t) d.data mem

/-- Writing one object (`make_dataspace_for` is `scalar`). -/
noncomputable def Elem.write (E : Elem β δ) (g : Members δ) (name : Str) (v : β) : Outcome (Members δ) := writeData g name E.type .scalar (E.address v)

/-- Reading one object. -/
noncomputable def Elem.read (E : Elem β δ) (g : Members δ) (name : Str) : Outcome β :=
  (openData g name).bind fun d => (d.read E.type 1 (E.address E.new)).bind E.load

/-- Elements one after the other in memory. -/
def Elem.loadAll (E : Elem β δ) : Nat → List (Scalar δ) → Outcome (List β)
  | 0, _ => .ok []
  | n + 1, mem => (E.load mem).bind fun v => (E.loadAll n (mem.drop E.type.size)).map (v :: ·)

/-- An array that owns its memory or shares it: shape, and values in memory order (C20, C129). -/
structure Arr (β : Type) where
  shape : List Nat
  values : List β

/-- An array of the given rank whose values fill its shape: what the type `nd::shared_array<T, Rank>` guarantees. -/
def Arr.Full (rank : Nat) (a : Arr β) : Prop := a.shape.length = rank ∧ a.values.length = a.shape.prod

/-- app_serialize.hpp:194-220: the dataset of an array. -/
def Elem.arraySpace (a : Arr β) : Space := .simple a.shape

/-- app_serialize.hpp:194-220: writing an array. -/
noncomputable def Elem.writeArray (E : Elem β δ) (g : Members δ) (name : Str) (a : Arr β) : Outcome (Members δ) :=
  writeData g name E.type (Elem.arraySpace a) (a.values.flatMap E.address)

/-- app_serialize.hpp:194-220, core_ndarray.hpp:239-252: reading an array of the given rank from a dataset. -/
noncomputable def Elem.ofDataset (E : Elem β δ) (rank : Nat) (d : Dataset δ) : Outcome (Arr β) :=
  match d.space with
  | .scalar => .throws .logicError
  | .simple dims =>
    if dims.length ≠ rank then .throws .logicError
    else (d.read E.type dims.prod ((List.replicate dims.prod (E.address E.new)).flatten)).bind fun mem =>
      (E.loadAll dims.prod mem).map fun l => ⟨dims, l⟩

/-- Reading an array from a group. -/
noncomputable def Elem.readArray (E : Elem β δ) (rank : Nat) (g : Members δ) (name : Str) : Outcome (Arr β) :=
  (openData g name).bind (E.ofDataset rank)

/-- app_serialize.hpp:226-233, core_hdf5.hpp:486-497: writing a list, as a `std::vector`. -/
noncomputable def Elem.writeList (E : Elem β δ) (g : Members δ) (name : Str) (l : List β) : Outcome (Members δ) :=
  writeData g name E.type (.simple [l.length]) (l.flatMap E.address)

/-- app_serialize.hpp:226-233, core_hdf5.hpp:486-497: reading a list. -/
noncomputable def Elem.readList (E : Elem β δ) (g : Members δ) (name : Str) : Outcome (List β) :=
  (openData g name).bind fun d =>
  (d.read E.type d.space.points ((List.replicate d.space.points (E.address E.new)).flatten)).bind fun mem => E.loadAll d.space.points mem

/-! ### Types of numbers -/

/-- core_hdf5.hpp:434-445. -/
def int : Elem Int δ where
  type := .int
  new := 0
  address v := [.int v]
  load
    | .int v :: _ => .ok v
    | _ => .ub

/-- core_hdf5.hpp:460-471, and numbers with units: app_serialize.hpp:256-267. -/
def double [Zero δ] : Elem δ δ where
  type := .double
  new := 0
  address v := [.dbl v]
  load
    | .dbl v :: _ => .ok v
    | _ => .ub

/-- app_serialize.hpp:273-284 with core_rational.hpp:224-225: numerator and denominator. -/
def rational : Elem (Int × Int) δ where
  type := .array 2 .int
  new := (0, 1)
  address v := [.int v.1, .int v.2]
  load
    | .int a :: .int b :: _ => .ok (a, b)
    | _ => .ub

/-- The numbers at the start of memory. -/
def loadSeq : (n : Nat) → List (Scalar δ) → Outcome (Fin n → δ)
  | 0, _ => .ok Fin.elim0
  | n + 1, .dbl x :: mem => (loadSeq n mem).map (Fin.cons x)
  | _ + 1, _ => .ub

/-- app_serialize.hpp:239-250 `arithmetic_sequence_t` of numbers. -/
def seq [Zero δ] (n : Nat) : Elem (Fin n → δ) δ where
  type := .array n .double
  new := 0
  address v := List.ofFn fun i => .dbl (v i)
  load := loadSeq n

/-- subprog_binary_io.cpp:10-39: `conserved_per_area_t` and `conserved_angmom_per_area_t` are `std::tuple`s of three numbers, written as they are in memory.  The C++ standard
does not say in which order the members of a tuple are: it is `order`. -/
def tuple [Zero δ] (order : Equiv.Perm (Fin 3)) : Elem (Fin 3 → δ) δ where
  type := .array 3 .double
  new := 0
  address v := List.ofFn fun i => .dbl (v (order i))
  load mem := (loadSeq 3 mem).map fun w i => w (order.symm i)

/-! ### Structures -/

/-- A structure as it is declared: names and sizes of the members. `offsetof`. -/
def offsetOf (decl : List (Str × Nat)) (name : Str) : Nat := ((decl.takeWhile fun p => p.1 ≠ name).map Prod.snd).sum

/-- core_hdf5.hpp:40 `h5_compound_type_member`. -/
def member (decl : List (Str × Nat)) (name : Str) (t : HType) : Str × Nat × HType := (name, offsetOf decl name, t)

/-- core_hdf5.hpp:197-211 `compound`. -/
def compound (decl : List (Str × Nat)) (members : List (Str × HType)) : HType :=
  .compound (decl.map Prod.snd).sum (members.map fun m => member decl m.1 m.2)

end Verif.File
