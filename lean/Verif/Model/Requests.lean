import Verif.Model.Handles

/-!
# Message requests and communicators (`core_mpi.hpp`)
-/

namespace Verif.Requests

/-- Calls of the MPI library that concern one request. -/
inductive Call where
  /-- MPI_Isend, MPI_Irecv -/
  | start
  /-- MPI_Request_get_status -/
  | status
  /-- MPI_Wait -/
  | wait
  /-- MPI_Cancel -/
  | cancel
  /-- MPI_Request_free -/
  | free
deriving DecidableEq

/-- What a program does with request objects. -/
inductive Op where
  /-- `Request()`; also what `irecv` returns if there is no message: core_mpi.hpp:119, 551-556 -/
  | new (v : Nat)
  /-- `isend`, `irecv` (core_mpi.hpp:550-569, 594-603) -/
  | start (v : Nat)
  /-- `Request v(std::move(w))` (core_mpi.hpp:131-136) -/
  | move (v w : Nat)
  /-- `v = std::move(w)` (core_mpi.hpp:160-167) -/
  | moveAssign (v w : Nat)
  /-- `v.cancel()` (core_mpi.hpp:173-180) -/
  | cancel (v : Nat)
  /-- `v.is_ready()` (core_mpi.hpp:210-215) -/
  | ready (v : Nat)
  /-- `v.wait()`, `v.get()` (core_mpi.hpp:222-260; a `get` that throws does nothing) -/
  | wait (v : Nat)
  /-- destruction (core_mpi.hpp:144-147) -/
  | destroy (v : Nat)
deriving DecidableEq

/-- The request objects, with their requests (`none` is MPI_REQUEST_NULL), and what the library was called
with.  Requests are numbered in the order they are started; MPI gives out each of them once (a handle value
that is used again after its request has been freed counts as a new request). -/
structure St where
  vars : Nat → Option (Option Nat)
  next : Nat
  log : List (Nat × Call)

/-- In the beginning. -/
def St.init : St := ⟨fun _ => none, 0, []⟩

/-- The object `v` gets the request `x`. -/
def St.setVar (s : St) (v : Nat) (x : Option (Option Nat)) : St :=
  { s with vars := fun u => if u = v then x else s.vars u }

/-- The library is called for the request `i`. -/
def St.call (s : St) (i : Nat) (c : Call) : St := { s with log := s.log ++ [(i, c)] }

/-- `Request::cancel` (core_mpi.hpp:173-180): MPI_Request_free sets the request to null. -/
def St.cancelVar (s : St) (v : Nat) : Option Nat → St
  | none => s
  | some i => ((s.call i .cancel).call i .free).setVar v (some none)

/-- `Request::wait` (core_mpi.hpp:222-225): MPI_Wait returns at once if the request is null, and sets it to
null otherwise. -/
def St.waitVar (s : St) (v : Nat) : Option Nat → St
  | none => s
  | some i => (s.call i .wait).setVar v (some none)

/-- What an operation does; `none` if the program cannot do it. -/
def step (s : St) : Op → Option St
  | .new v =>
    match s.vars v with
    | some _ => none
    | none => some (s.setVar v (some none))
  | .start v =>
    match s.vars v with
    | some _ => none
    | none => some ({ s.call s.next .start with next := s.next + 1 }.setVar v (some (some s.next)))
  | .move v w =>
    match s.vars v, s.vars w with
    | none, some x => some ((s.setVar v (some x)).setVar w (some none))
    | _, _ => none
  | .moveAssign v w =>
    match s.vars v, s.vars w with
    | some y, some _ =>
      let s₁ := s.cancelVar v y
      -- `w` may be the same object as `v`
      match s₁.vars w with
      | some x => some ((s₁.setVar v (some x)).setVar w (some none))
      | none => none
    | _, _ => none
  | .cancel v =>
    match s.vars v with
    | none => none
    | some x => some (s.cancelVar v x)
  | .ready v =>
    match s.vars v with
    | none => none
    | some none => some s
    | some (some i) => some (s.call i .status)
  | .wait v =>
    match s.vars v with
    | none => none
    | some x => some (s.waitVar v x)
  | .destroy v =>
    match s.vars v with
    | none => none
    | some x => some ((s.cancelVar v x).setVar v none)

/-- A history of operations. -/
def run (s : St) : List Op → Option St
  | [] => some s
  | op :: ops => (step s op).bind fun s' => run s' ops

/-! ## Buffers

The text of a `std::string` of up to `sso` characters (15 in libstdc++, 22 in libc++) is inside of the object,
that of a longer one in a block of memory of its own, which moving the string hands over. -/

/-- Where the bytes of a message are. -/
inductive Loc where
  /-- in the parameter or local variable `buf` of the function that started request `i`; it ceases to exist
  when the function returns -/
  | param (i : Nat)
  /-- in the block of memory `b` -/
  | heap (b : Nat)
deriving DecidableEq

/-- Requests with their buffers: the block that the string in object `v` has, if any, and where the bytes of
request `i` are that MPI was told of. -/
structure BSt where
  base : St
  block : Nat → Option Nat
  told : Nat → Loc

/-- In the beginning. -/
def BSt.init : BSt := ⟨St.init, fun _ => none, fun i => .param i⟩

/-- Operations, where a start says how long the message is. -/
inductive BOp where
  | start (v : Nat) (len : Nat)
  | other (op : Op)

/-- core_mpi.hpp:550-569 `irecv`, 594-603 `isend`: MPI is told the address `&buf[0]`, then the string is
moved into the request object.  Blocks are numbered by the request they are allocated for.  Moves of requests
(131-136, 160-167) move the string. -/
def bstep (sso : Nat) (s : BSt) : BOp → Option BSt
  | .start v len =>
    (step s.base (.start v)).map fun base =>
      let i := s.base.next
      if len ≤ sso then
        ⟨base, fun u => if u = v then none else s.block u, fun j => if j = i then .param i else s.told j⟩
      else
        ⟨base, fun u => if u = v then some i else s.block u, fun j => if j = i then .heap i else s.told j⟩
  | .other (.start _) => none
  | .other op =>
    (step s.base op).map fun base =>
      match op with
      | .move v w | .moveAssign v w =>
        ⟨base, fun u => if u = w then none else if u = v then s.block w else s.block u, s.told⟩
      | .new v | .destroy v => ⟨base, fun u => if u = v then none else s.block u, s.told⟩
      | _ => ⟨base, s.block, s.told⟩

/-- A history of operations. -/
def brun (sso : Nat) (s : BSt) : List BOp → Option BSt
  | [] => some s
  | op :: ops => (bstep sso s op).bind fun s' => brun sso s' ops

/-- The memory at `l` exists: a block exists as long as the string of some object has it. -/
def BSt.live (s : BSt) : Loc → Prop
  | .param _ => False
  | .heap b => ∃ v, s.base.vars v ≠ none ∧ s.block v = some b

/-! ## Communicators -/

open Verif.Handles (St.setVar St.alloc St.libClose)

/-- What a program does with communicator objects. -/
inductive COp where
  /-- `Communicator()` (core_mpi.hpp:363-365) -/
  | new (v : Nat)
  /-- `comm_world()` (core_mpi.hpp:831-836), which duplicates MPI_COMM_WORLD -/
  | world (v : Nat)
  /-- copy construction -/
  | copy (v w : Nat)
  /-- move construction -/
  | move (v w : Nat)
  /-- copy assignment -/
  | assign (v w : Nat)
  /-- move assignment -/
  | moveAssign (v w : Nat)
  /-- `close` -/
  | close (v : Nat)
  /-- destruction -/
  | destroy (v : Nat)
deriving DecidableEq

/-- `Communicator::close` (core_mpi.hpp:435-442). -/
def closeComm (s : Handles.St) (v : Nat) : Option Nat → Handles.St
  | none => s
  | some i => (s.libClose i).setVar v (some none)

/-- MPI_Comm_dup into the object `v`, unless null; if the communicator is not open the library is misused,
which `terminated` records. -/
def dupComm (s : Handles.St) (v : Nat) : Option Nat → Handles.St
  | none => s.setVar v (some none)
  | some i => { s.alloc.setVar v (some (some s.next)) with terminated := s.terminated || !s.isOpen i }

/-- What an operation on communicators does: core_mpi.hpp:363-442. -/
def commStep (s : Handles.St) : COp → Option Handles.St
  | .new v =>
    match s.vars v with
    | some _ => none
    | none => some (s.setVar v (some none))
  | .world v =>
    match s.vars v with
    | some _ => none
    | none => some (s.alloc.setVar v (some (some s.next)))
  | .copy v w =>
    match s.vars v, s.vars w with
    | none, some x => some (dupComm s v x)
    | _, _ => none
  | .move v w =>
    match s.vars v, s.vars w with
    | none, some x => some ((s.setVar v (some x)).setVar w (some none))
    | _, _ => none
  | .assign v w =>
    match s.vars v, s.vars w with
    | some y, some _ =>
      let s₁ := closeComm s v y
      match s₁.vars w with
      | some x => some (dupComm s₁ v x)
      | none => none
    | _, _ => none
  | .moveAssign v w =>
    match s.vars v, s.vars w with
    | some y, some _ =>
      let s₁ := closeComm s v y
      match s₁.vars w with
      | some x => some ((s₁.setVar v (some x)).setVar w (some none))
      | none => none
    | _, _ => none
  | .close v =>
    match s.vars v with
    | none => none
    | some x => some (closeComm s v x)
  | .destroy v =>
    match s.vars v with
    | none => none
    | some x => some ((closeComm s v x).setVar v none)

/-- A history of operations. -/
def commRun (s : Handles.St) : List COp → Option Handles.St
  | [] => some s
  | op :: ops => (commStep s op).bind fun s' => commRun s' ops

end Verif.Requests
