import Verif.Model.Outcome

/-!
# Reference-counted list nodes (`core_linked_list.hpp`)

`mara::linked_list_t` objects hold a value and a `shared_ptr` to a heap node; heap nodes are
themselves `linked_list_t` objects.  The heap, the reference counts and the destructor are
modelled explicitly.

Simplifications: addresses are never reused (a fresh address is allocated every time, so that any
use after free is visible); the control block and the object are one cell (`make_shared`);
allocation never fails (`bad_alloc` at lines 127-130 is unreachable because `make_shared` does not
return null); one thread (line 89 says the destructor is not thread safe).
-/

namespace Verif.ListHeap
open Verif

/-- Heap address. -/
scoped notation "Ptr" => Nat

/-- `core_linked_list.hpp:382-383`: the two members of a list object.  `value = none` stands for
a default-initialised `__value` (never handed out by `head`). -/
structure Obj (α : Type) where
  value : Option α
  next : Option Ptr

/-- Life cycle of a heap cell. -/
inductive Cell (α : Type) where
  /-- never allocated -/
  | unalloc
  /-- a constructed node with its use count -/
  | live (o : Obj α) (rc : Nat)
  /-- use count dropped to zero, destructor running, its `__next` moved out -/
  | dying
  /-- storage returned -/
  | freed

/-- Node storage. -/
abbrev Heap (α : Type) := Ptr → Cell α

/-- Overwrite one cell. -/
def Heap.set {α} (h : Heap α) (p : Ptr) (c : Cell α) : Heap α := fun q => if q = p then c else h q

/-- `core_linked_list.hpp:92-107`, the loop of the destructor, after `__next` has been moved into
the local `next_node` (second argument); `rel` releases a `shared_ptr`.  `unique()` on anything
but a live cell is undefined.  The loop either stops at a shared node, in which case the local
`next_node` is released when the function returns, or takes the rest of the list out of the node
(lines 101-102), resets `next_node` (line 104) and goes on with the rest (line 105).
The `Nat` bounds the number of iterations; exceeding it is `diverges`. -/
def dtorLoop {α} (rel : Ptr → Heap α → Outcome (Heap α)) :
    Nat → Option Ptr → Heap α → Outcome (Heap α)
  | _, none, h => .ok h
  | 0, some _, _ => .diverges
  | f + 1, some p, h =>
    match h p with
    | .live o rc =>
      if rc ≠ 1 then rel p h
      else (rel p (h.set p (.live { o with next := none } rc))).bind (dtorLoop rel f o.next)
    | _ => .ub

/-- Dropping one `shared_ptr` reference (`reset`, end of scope, overwriting by assignment).  The
last owner runs the destructor of the node, which runs the loop above, and then returns the
storage.  The first `Nat` is the number of nested destructor calls the stack can take: exceeding
it is `ub` (stack overflow); the second bounds the loop. -/
def release {α} : Nat → Nat → Ptr → Heap α → Outcome (Heap α)
  | 0, _, _, _ => .ub
  | d + 1, f, p, h =>
    match h p with
    | .live o rc =>
      if rc = 0 then .ub
      else if rc = 1 then
        (dtorLoop (release d f) f o.next (h.set p .dying)).bind fun h' => .ok (h'.set p .freed)
      else .ok (h.set p (.live o (rc - 1)))
    | _ => .ub

/-- Copying a `shared_ptr`: increments the use count of the target. -/
def retain {α} (next : Option Ptr) (h : Heap α) : Outcome (Heap α) :=
  match next with
  | none => .ok h
  | some p =>
    match h p with
    | .live o rc => .ok (h.set p (.live o (rc + 1)))
    | _ => .ub

/-- Program state: the heap, the allocation frontier and the list variables.  A variable that is
not in scope is `none`. -/
structure State (α : Type) where
  heap : Heap α
  top : Ptr
  vars : List (Option (Obj α))

/-- Where a prepended value comes from: a value of the caller or `x.head()`. -/
inductive Src (α : Type) where
  | lit (a : α)
  | headOf (x : Nat)

/-- Statements of a program working with list variables (numbered). -/
inductive Op (α : Type) where
  /-- `linked_list_t t;` -/
  | declEmpty (t : Nat)
  /-- `auto t = x;` -/
  | declCopy (t x : Nat)
  /-- `auto t = x.tail();` -/
  | declTail (t x : Nat)
  /-- `auto t = x.prepend(v);` -/
  | declPrepend (t x : Nat) (v : Src α)
  /-- `t = x;` -/
  | assign (t x : Nat)
  /-- `t = x.tail();` -/
  | assignTail (t x : Nat)
  /-- `t = x.prepend(v);` -/
  | assignPrepend (t x : Nat) (v : Src α)
  /-- `t` goes out of scope -/
  | destroy (t : Nat)

section
variable {α : Type}

/-- The object bound to a variable; using a variable that is not in scope is not a C++ program
(`ub`). -/
def State.get (s : State α) (x : Nat) : Outcome (Obj α) :=
  match s.vars[x]? with
  | some (some o) => .ok o
  | _ => .ub

/-- A declaration needs a variable number that is not in scope. -/
def State.fresh (s : State α) (t : Nat) : Outcome Unit :=
  match s.vars[t]? with
  | some none => .ok ()
  | _ => .ub

/-- `core_linked_list.hpp:288-295` `head`. -/
def headObj (o : Obj α) : Outcome α :=
  match o.next with
  | none => .throws .outOfRange
  | some _ =>
    match o.value with
    | some a => .ok a
    | none => .ub

/-- `core_linked_list.hpp:305-312` `tail`: a reference to the node. -/
def tailObj (h : Heap α) (o : Obj α) : Outcome (Obj α) :=
  match o.next with
  | none => .throws .outOfRange
  | some p =>
    match h p with
    | .live n _ => .ok n
    | _ => .ub

/-- Evaluating the argument of `prepend`. -/
def State.src (s : State α) : Src α → Outcome α
  | .lit a => .ok a
  | .headOf x => (s.get x).bind headObj

/-- Number of nested destructor calls granted to a program, whatever the length of its lists.  Needing more counts as
stack overflow (`ub`). -/
def stackDepth : Nat := 2

/-- `core_linked_list.hpp:123-131, 221-224`: `prepend` copy-constructs `*this` into a fresh node
with use count one and returns an object pointing at it. -/
def prependObj (s : State α) (o : Obj α) (a : α) : Outcome (State α × Obj α) :=
  (retain o.next s.heap).bind fun h =>
  .ok ({ s with heap := h.set s.top (.live o 1), top := s.top + 1 }, ⟨some a, some s.top⟩)

/-- The implicit copy assignment of `linked_list_t` (the user-declared destructor at line 92
suppresses the implicit move): copy the value, then `shared_ptr::operator=`, which first acquires
the new pointer and then releases the old one. -/
def assignObj (s : State α) (t : Nat) (src : Obj α) : Outcome (State α) :=
  (s.get t).bind fun old =>
  (retain src.next s.heap).bind fun h =>
  Outcome.bind (match old.next with
    | none => .ok h
    | some p => release stackDepth s.top p h) fun h' =>
  .ok { s with heap := h', vars := s.vars.set t (some src) }

/-- The destructor of a variable or temporary, `core_linked_list.hpp:92-107`. -/
def destroyObj (s : State α) (o : Obj α) : Outcome (State α) :=
  (dtorLoop (release (stackDepth - 1) s.top) s.top o.next s.heap).bind fun h' =>
  .ok { s with heap := h' }

/-- One statement. -/
def step (s : State α) : Op α → Outcome (State α)
  | .declEmpty t =>
    (s.fresh t).bind fun _ => .ok { s with vars := s.vars.set t (some ⟨none, none⟩) }
  | .declCopy t x =>
    (s.fresh t).bind fun _ =>
    (s.get x).bind fun o =>
    (retain o.next s.heap).bind fun h => .ok { s with heap := h, vars := s.vars.set t (some o) }
  | .declTail t x =>
    (s.fresh t).bind fun _ =>
    (s.get x).bind fun o =>
    (tailObj s.heap o).bind fun n =>
    (retain n.next s.heap).bind fun h => .ok { s with heap := h, vars := s.vars.set t (some n) }
  | .declPrepend t x v =>
    (s.fresh t).bind fun _ =>
    (s.get x).bind fun o =>
    (s.src v).bind fun a =>
    (prependObj s o a).bind fun r => .ok { r.1 with vars := s.vars.set t (some r.2) }
  | .assign t x =>
    (s.get t).bind fun _ =>
    (s.get x).bind fun o => assignObj s t o
  | .assignTail t x =>
    (s.get t).bind fun _ =>
    (s.get x).bind fun o =>
    (tailObj s.heap o).bind fun n => assignObj s t n
  | .assignPrepend t x v =>
    (s.get t).bind fun _ =>
    (s.get x).bind fun o =>
    (s.src v).bind fun a =>
    (prependObj s o a).bind fun r =>
    (assignObj r.1 t r.2).bind fun s' =>
    -- end of the full expression: the temporary is destroyed
    destroyObj s' r.2
  | .destroy t =>
    (s.get t).bind fun o =>
    (destroyObj s o).bind fun s' => .ok { s' with vars := s'.vars.set t none }

/-- Programs: statements, sequencing, `while (! x.empty())`, and a `try`/`catch` block around a
statement (so that a program can go on after `out_of_range`). -/
inductive Cmd (α : Type) where
  | op (o : Op α)
  | tryOp (o : Op α)
  | seq (a b : Cmd α)
  | whileNonEmpty (x : Nat) (body : Cmd α)

/-- Running a program; the `Nat` bounds the number of iterations of every loop, exceeding it is
`diverges`. -/
def exec (fuel : Nat) : Cmd α → State α → Outcome (State α)
  | .op o, s => step s o
  | .tryOp o, s =>
    match step s o with
    | .throws _ => .ok s
    | r => r
  | .seq a b, s => (exec fuel a s).bind (exec fuel b)
  | .whileNonEmpty x body, s => loop fuel x (exec fuel body) s
where
  /-- The loop, given the semantics of its body. -/
  loop : Nat → Nat → (State α → Outcome (State α)) → State α → Outcome (State α)
  | 0, _, _, _ => .diverges
  | n + 1, x, body, s =>
    (s.get x).bind fun o =>
    match o.next with
    | none => .ok s
    | some _ => (body s).bind (loop n x body)

/-- Start of a program with `n` variables, none in scope. -/
def initial (n : Nat) : State α := ⟨fun _ => .unalloc, 0, List.replicate n none⟩

/-- `core_linked_list.hpp:266-277` `reverse` of variable `x` into a new variable `t`, with the
local `A` numbered `a` (`B` is constructed in the return slot). -/
def reverseCmd (t x a : Nat) : Cmd α :=
  .seq (.op (.declCopy a x))
    (.seq (.op (.declEmpty t))
      (.seq (.whileNonEmpty a
          (.seq (.op (.assignPrepend t t (.headOf a))) (.op (.assignTail a a))))
        (.op (.destroy a))))

end
end Verif.ListHeap
