import Verif.Model.Outcome
import Mathlib.Logic.Function.Basic

/-!
# The memory of arrays (`core_ndarray.hpp`: `buffer_t`, `unique_provider_t`, `shared_provider_t`)

Memory is a set of blocks.  Using a block that is not there (never allocated, or deleted) and reading or writing outside of a block or through a null pointer are
undefined behaviour.  Addresses are not used again after a block is deleted, so that every use of a deleted block shows.  Of the shape of an array there is only the number
of its elements, and elements are named by their offset (C20).  Not modelled: exceptions of the elements, failure of allocation, default-constructed shared providers.
-/

namespace Verif.Buffers

variable {α : Type}

/-- The blocks in use, and the next address. -/
structure Heap (α : Type) where
  blocks : Nat → Option (List α)
  next : Nat

/-- `new ValueType[n]`, and the elements that the loop after it writes (core_ndarray.hpp:1317-1325, 1328-1335). -/
def Heap.new (h : Heap α) (l : List α) : Heap α := ⟨Function.update h.blocks h.next (some l), h.next + 1⟩

/-- `delete [] memory`. -/
def Heap.delete (h : Heap α) : Option Nat → Outcome (Heap α)
  | none => .ok h
  | some a => match h.blocks a with
    | none => .ub
    | some _ => .ok ⟨Function.update h.blocks a none, h.next⟩

/-- core_ndarray.hpp:1379-1380: the members of `buffer_t`. -/
structure Buffer where
  count : Nat
  memory : Option Nat

/-- A buffer after it was moved from (core_ndarray.hpp:1313-1314, 1343-1344). -/
def Buffer.null : Buffer := ⟨0, none⟩

/-- core_ndarray.hpp:1352-1353: the elements from `begin()` to `end()`. -/
def Heap.range (h : Heap α) (b : Buffer) : Outcome (List α) :=
  match b.memory with
  | none => if b.count = 0 then .ok [] else .ub
  | some a => match h.blocks a with
    | none => .ub
    | some l => if b.count ≤ l.length then .ok (l.take b.count) else .ub

/-- Where a `buffer_t` is: in the array of a variable, or held by `std::shared_ptr`s. -/
inductive Place where
  | var (x : Nat)
  | held (c : Nat)
  deriving DecidableEq

/-- The memory, the buffers that exist, the sizes of the unique arrays (core_ndarray.hpp:1287), the reference counts, and of each shared array its size and which buffer it refers to
(1240-1242). -/
structure State (α : Type) where
  heap : Heap α
  buffers : Place → Option Buffer
  sizes : Nat → Option Nat
  counts : Nat → Nat
  shared : Nat → Option (Nat × Nat)
  next : Nat

def State.empty : State α := ⟨⟨fun _ => none, 0⟩, fun _ => none, fun _ => none, fun _ => 0, fun _ => none, 0⟩

/-- What a program can do with arrays `x`, `y` that own their memory and arrays `s`, `t` that share it. -/
inductive Op (α : Type) where
  | make (x n : Nat) (v : α)
  | move (x y : Nat)
  | assign (x y : Nat)
  | write (x i : Nat) (v : α)
  | destroy (x : Nat)
  | reshapeCopy (y x n : Nat)
  | reshapeMove (y x n : Nat)
  | shareCopy (s x : Nat)
  | shareMove (s x : Nat)
  | copy (s t : Nat)
  | reshape (s t n : Nat)
  | drop (s : Nat)

section
variable (st : State α)

/-- core_ndarray.hpp:1317-1325 and 1328-1335: a constructor of `buffer_t` with these elements. -/
def State.construct (p : Place) (l : List α) : State α :=
  { st with heap := st.heap.new l, buffers := Function.update st.buffers p (some ⟨l.length, some st.heap.next⟩) }

/-- core_ndarray.hpp:1309-1315: the move constructor of `buffer_t`. -/
def State.moveConstruct (p q : Place) (b : Buffer) : State α :=
  { st with buffers := Function.update (Function.update st.buffers p (some b)) q (some .null) }

/-- core_ndarray.hpp:1304: the destructor of `buffer_t`. -/
def State.destruct (p : Place) (b : Buffer) : Outcome (State α) :=
  (st.heap.delete b.memory).map fun h => { st with heap := h, buffers := Function.update st.buffers p none }

/-- core_ndarray.hpp:1337-1346: the move assignment of `buffer_t`, statement by statement; `p` and `q` may be the same buffer. -/
def State.moveAssign (p q : Place) (b : Buffer) : Outcome (State α) :=
  (st.heap.delete b.memory).bind fun h =>
  match st.buffers q with
  | none => .ub
  | some c => .ok { st with heap := h, buffers := Function.update (Function.update st.buffers p (some c)) q (some .null) }

/-- The array of a variable: its size and buffer. Not so if there is no such array: no program can do that. -/
def State.array (x : Nat) : Outcome (Nat × Buffer) :=
  match st.sizes x, st.buffers (.var x) with
  | some n, some b => .ok (n, b)
  | _, _ => .ub

/-- Likewise for a shared array: its size, where its buffer is, and the buffer. -/
def State.sharedArray (s : Nat) : Outcome (Nat × Nat × Buffer) :=
  match st.shared s with
  | none => .ub
  | some (n, c) => match st.buffers (.held c) with
    | none => .ub
    | some b => .ok (n, c, b)

/-- core_ndarray.hpp:1228-1231, 1269 with 1354: reading the element at an offset. -/
def Heap.read (h : Heap α) (b : Buffer) (i : Nat) : Outcome α :=
  match b.memory with
  | none => .ub
  | some a => match h.blocks a with
    | none => .ub
    | some l => match l[i]? with
      | none => .ub
      | some v => .ok v

/-- Reading an array that owns its memory. -/
def State.read (x i : Nat) : Outcome α := (st.array x).bind fun a => st.heap.read a.2 i

/-- Reading a shared array. -/
def State.readShared (s i : Nat) : Outcome α := (st.sharedArray s).bind fun a => st.heap.read a.2.2 i

/-- core_ndarray.hpp:1270 with 1367: writing an element. -/
def Heap.write (h : Heap α) (b : Buffer) (i : Nat) (v : α) : Outcome (Heap α) :=
  match b.memory with
  | none => .ub
  | some a => match h.blocks a with
    | none => .ub
    | some l => if i < l.length then .ok { h with blocks := Function.update h.blocks a (some (l.set i v)) } else .ub

/-- One operation.  The result tells whether it threw `std::logic_error`.

* `make`: core_ndarray.hpp:1407-1411 `make_unique_provider`, with 1258-1267
* `move`, `assign`: the implicit move constructor and assignment of `unique_provider_t`
* `destroy`: its destructor
* `reshapeCopy`, `reshapeMove`: core_ndarray.hpp:1282-1283 `reshape` of an lvalue and of an rvalue; if the sizes differ the constructor (1258-1267) throws, and
  the buffer, a member already, is destroyed
* `shareCopy`, `shareMove`: core_ndarray.hpp:1279-1280 `shared` of an lvalue and of an rvalue; if the sizes differ the constructor (1217-1226) throws, and the
  last `shared_ptr` destroys the buffer
* `copy`, `drop`: copy and destruction of a `shared_provider_t`, and with it of the `shared_ptr`
* `reshape`: core_ndarray.hpp:1236 -/
def step : Op α → State α → Outcome (Bool × State α)
  | .make x n v, st =>
    if st.sizes x = none then
      let t := st.construct (.var x) (List.replicate n v)
      .ok (false, { t with sizes := Function.update t.sizes x (some n) })
    else .ub
  | .move x y, st =>
    if st.sizes x = none then
      (st.array y).map fun a =>
        let t := st.moveConstruct (.var x) (.var y) a.2
        (false, { t with sizes := Function.update t.sizes x (some a.1) })
    else .ub
  | .assign x y, st =>
    (st.array x).bind fun a => (st.array y).bind fun a' =>
      (st.moveAssign (.var x) (.var y) a.2).map fun t => (false, { t with sizes := Function.update t.sizes x (some a'.1) })
  | .write x i v, st => (st.array x).bind fun a => (st.heap.write a.2 i v).map fun h => (false, { st with heap := h })
  | .destroy x, st =>
    (st.array x).bind fun a => (st.destruct (.var x) a.2).map fun t => (false, { t with sizes := Function.update t.sizes x none })
  | .reshapeCopy y x n, st =>
    if st.sizes y = none then
      (st.array x).bind fun a => (st.heap.range a.2).bind fun l =>
        let t := st.construct (.var y) l
        if n ≠ l.length then (t.destruct (.var y) ⟨l.length, some st.heap.next⟩).map fun t => (true, t)
        else .ok (false, { t with sizes := Function.update t.sizes y (some n) })
    else .ub
  | .reshapeMove y x n, st =>
    if st.sizes y = none then
      (st.array x).bind fun a =>
        let t := st.moveConstruct (.var y) (.var x) a.2
        if n ≠ a.2.count then (t.destruct (.var y) a.2).map fun t => (true, t)
        else .ok (false, { t with sizes := Function.update t.sizes y (some n) })
    else .ub
  | .shareCopy s x, st =>
    if st.shared s = none then
      (st.array x).bind fun a => (st.heap.range a.2).bind fun l =>
        let t := { st.construct (.held st.next) l with next := st.next + 1 }
        if a.1 ≠ l.length then (t.destruct (.held st.next) ⟨l.length, some st.heap.next⟩).map fun t => (true, t)
        else .ok (false, { t with counts := Function.update t.counts st.next 1, shared := Function.update t.shared s (some (a.1, st.next)) })
    else .ub
  | .shareMove s x, st =>
    if st.shared s = none then
      (st.array x).bind fun a =>
        let t := { st.moveConstruct (.held st.next) (.var x) a.2 with next := st.next + 1 }
        if a.1 ≠ a.2.count then (t.destruct (.held st.next) a.2).map fun t => (true, t)
        else .ok (false, { t with counts := Function.update t.counts st.next 1, shared := Function.update t.shared s (some (a.1, st.next)) })
    else .ub
  | .copy s t, st =>
    if st.shared s = none then
      (st.sharedArray t).map fun a =>
        (false, { st with counts := Function.update st.counts a.2.1 (st.counts a.2.1 + 1), shared := Function.update st.shared s (some (a.1, a.2.1)) })
    else .ub
  | .reshape s t n, st =>
    if st.shared s = none then
      (st.sharedArray t).map fun a =>
        if n ≠ a.2.2.count then (true, st)
        else (false, { st with counts := Function.update st.counts a.2.1 (st.counts a.2.1 + 1), shared := Function.update st.shared s (some (n, a.2.1)) })
    else .ub
  | .drop s, st =>
    (st.sharedArray s).bind fun a =>
      let t := { st with counts := Function.update st.counts a.2.1 (st.counts a.2.1 - 1), shared := Function.update st.shared s none }
      if st.counts a.2.1 = 1 then (t.destruct (.held a.2.1) a.2.2).map fun t => (false, t)
      else .ok (false, t)

end

/-- A program: a list of operations, exceptions being caught after each of them. -/
def run : List (Op α) → State α → Outcome (State α)
  | [], st => .ok st
  | op :: ops, st => (step op st).bind fun r => run ops r.2

end Verif.Buffers
