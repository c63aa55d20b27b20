import Verif.Model.Outcome

/-!
# Handles of HDF5 objects (`core_hdf5.hpp`) and message requests (`core_mpi.hpp`)

The library hands out identifiers, never the same twice, and keeps the objects open until they are
closed.  A program declares, opens, copies, moves, assigns, closes and destroys handle objects; the
objects are known by numbers.
-/

namespace Verif.Handles

/-- The four ways in which the classes treat their identifier. -/
inductive Kind where
  /-- `File`, `Group`, `Dataset` with their `Link`: core_hdf5.hpp:514-548, 662-676, 779-797, 900-914, 926-966 -/
  | link
  /-- `PropertyList`: core_hdf5.hpp:133-152 -/
  | plist
  /-- `Datatype`: core_hdf5.hpp:185-236 -/
  | type
  /-- `Dataspace`: core_hdf5.hpp:279-345 -/
  | space
deriving DecidableEq

/-- What a program does with handle objects `v`, `w`. -/
inductive Op where
  /-- default construction -/
  | new (v : Nat)
  /-- construction by a function that opens or creates something -/
  | open (v : Nat)
  /-- copy construction of `v` from `w` -/
  | copy (v w : Nat)
  /-- move construction of `v` from `w` -/
  | move (v w : Nat)
  /-- copy assignment `v = w` -/
  | assign (v w : Nat)
  /-- move assignment `v = std::move(w)` -/
  | moveAssign (v w : Nat)
  /-- `v.close()` -/
  | close (v : Nat)
  /-- destruction of `v` -/
  | destroy (v : Nat)
deriving DecidableEq

/-- The handle objects that exist, with their identifiers (`none` stands for -1), and the library: the
next identifier, the open ones, and the identifiers that close functions were called with. -/
structure St where
  vars : Nat → Option (Option Nat)
  next : Nat
  isOpen : Nat → Bool
  closeLog : List Nat
  /-- an exception left a destructor -/
  terminated : Bool

/-- In the beginning. -/
def St.init : St := ⟨fun _ => none, 0, fun _ => false, [], false⟩

namespace St

/-- The object `v` gets the identifier `x`. -/
def setVar (s : St) (v : Nat) (x : Option (Option Nat)) : St :=
  { s with vars := fun u => if u = v then x else s.vars u }

/-- A new identifier. -/
def alloc (s : St) : St := { s with next := s.next + 1, isOpen := fun i => i == s.next || s.isOpen i }

/-- A close function of the library is called with the identifier `i`. -/
def libClose (s : St) (i : Nat) : St :=
  { s with isOpen := fun j => !(j == i) && s.isOpen j, closeLog := s.closeLog ++ [i] }

/-- The library is called to copy what `x` identifies: `none` if that fails. -/
def libCopy (s : St) (x : Option Nat) : Option (St × Nat) :=
  match x with
  | none => none
  | some i => if s.isOpen i then some (s.alloc, s.next) else none

/-- `close()` of an object with identifier `x`: core_hdf5.hpp:536-548 (which resets the identifier),
146-152, 223-229, 339-345 (which do not).  `none` as the second component if an exception is thrown, which
is when H5Sclose fails. -/
def closeVar (k : Kind) (s : St) (v : Nat) (x : Option Nat) : St × Bool :=
  match x with
  | none => (s, false)
  | some i =>
    match k with
    | .link => ((s.libClose i).setVar v (some none), false)
    | .plist => (s.libClose i, false)
    | .type => (s.libClose i, false)
    | .space => (s.libClose i, !s.isOpen i)

end St

open St

/-- What an operation does; `none` if the program cannot do it (the object does not exist or exists
already, or the class does not have the operation).  A thrown exception is taken to be caught, it shows in
what has been left undone. -/
def step (k : Kind) (s : St) : Op → Option St
  | .new v =>
    match s.vars v with
    | some _ => none
    | none =>
      match k with
      | .link => some (s.setVar v (some none))
      | .plist => none
      | .type => some (s.setVar v (some none))
      | .space => some (s.alloc.setVar v (some (some s.next)))
  | .open v =>
    match s.vars v with
    | some _ => none
    | none => some (s.alloc.setVar v (some (some s.next)))
  | .copy v w =>
    match s.vars v, s.vars w with
    | none, some x =>
      match k with
      | .link => none
      -- unchecked: a failed copy gives the identifier -1
      | .plist | .type =>
        match s.libCopy x with
        | some (s', i) => some (s'.setVar v (some (some i)))
        | none => some (s.setVar v (some none))
      -- checked: throws, there is no object then
      | .space =>
        match s.libCopy x with
        | some (s', i) => some (s'.setVar v (some (some i)))
        | none => some s
    | _, _ => none
  | .move v w =>
    match s.vars v, s.vars w with
    | none, some x =>
      match k with
      -- no move constructor: copies
      | .space =>
        match s.libCopy x with
        | some (s', i) => some (s'.setVar v (some (some i)))
        | none => some s
      | _ => some ((s.setVar v (some x)).setVar w (some none))
    | _, _ => none
  | .assign v w =>
    match s.vars v, s.vars w with
    | some y, some x =>
      match k with
      | .link | .plist => none
      | .type | .space =>
        let c := s.closeVar k v y
        if c.2 then some c.1
        else
          match c.1.libCopy x with
          | some (s', i) => some (s'.setVar v (some (some i)))
          | none => some c.1
    | _, _ => none
  | .moveAssign v w =>
    match s.vars v, s.vars w with
    | some _, some x =>
      match k with
      | .link => some ((s.setVar v (some x)).setVar w (some none))
      | _ => none
    | _, _ => none
  | .close v =>
    match s.vars v with
    | none => none
    | some x => some (s.closeVar k v x).1
  | .destroy v =>
    match s.vars v with
    | none => none
    | some x =>
      let c := s.closeVar k v x
      some { c.1.setVar v none with terminated := s.terminated || c.2 }

/-- A history of operations. -/
def run (k : Kind) (s : St) : List Op → Option St
  | [] => some s
  | op :: ops => (step k s op).bind fun s' => run k s' ops

end Verif.Handles
