import Verif.Model.ListHeap

/-!
# Specification of programs over list variables

The same programs over plain mathematical lists: every variable simply holds a `List α`.
-/

namespace Verif.ListHeap
open Verif

variable {α : Type}

/-- Every variable holds a list, or is not in scope. -/
abbrev Spec (α : Type) := List (Option (List α))

/-- The list in a variable. `ub` marks a text that is not a program (variable not in scope). -/
def Spec.get (S : Spec α) (x : Nat) : Outcome (List α) :=
  match S[x]? with
  | some (some l) => .ok l
  | _ => .ub

def Spec.fresh (S : Spec α) (t : Nat) : Outcome Unit :=
  match S[t]? with
  | some none => .ok ()
  | _ => .ub

def Spec.src (S : Spec α) : Src α → Outcome α
  | .lit a => .ok a
  | .headOf x => (S.get x).bind fun
    | [] => .throws .outOfRange
    | a :: _ => .ok a

def specTail : List α → Outcome (List α)
  | [] => .throws .outOfRange
  | _ :: l => .ok l

/-- What each statement means on lists. -/
def specStep (S : Spec α) : Op α → Outcome (Spec α)
  | .declEmpty t => (S.fresh t).bind fun _ => .ok (S.set t (some []))
  | .declCopy t x => (S.fresh t).bind fun _ => (S.get x).bind fun l => .ok (S.set t (some l))
  | .declTail t x =>
    (S.fresh t).bind fun _ => (S.get x).bind fun l => (specTail l).bind fun l' =>
    .ok (S.set t (some l'))
  | .declPrepend t x v =>
    (S.fresh t).bind fun _ => (S.get x).bind fun l => (S.src v).bind fun a =>
    .ok (S.set t (some (a :: l)))
  | .assign t x => (S.get t).bind fun _ => (S.get x).bind fun l => .ok (S.set t (some l))
  | .assignTail t x =>
    (S.get t).bind fun _ => (S.get x).bind fun l => (specTail l).bind fun l' =>
    .ok (S.set t (some l'))
  | .assignPrepend t x v =>
    (S.get t).bind fun _ => (S.get x).bind fun l => (S.src v).bind fun a =>
    .ok (S.set t (some (a :: l)))
  | .destroy t => (S.get t).bind fun _ => .ok (S.set t none)

/-- What a program means on lists. -/
def specExec (fuel : Nat) : Cmd α → Spec α → Outcome (Spec α)
  | .op o, S => specStep S o
  | .tryOp o, S =>
    match specStep S o with
    | .throws _ => .ok S
    | r => r
  | .seq a b, S => (specExec fuel a S).bind (specExec fuel b)
  | .whileNonEmpty x body, S => loop fuel x (specExec fuel body) S
where
  loop : Nat → Nat → (Spec α → Outcome (Spec α)) → Spec α → Outcome (Spec α)
  | 0, _, _, _ => .diverges
  | n + 1, x, body, S =>
    (S.get x).bind fun
    | [] => .ok S
    | _ :: _ => (body S).bind (loop n x body)

/-- `Reads h o l`: walking the list object `o` in heap `h` touches only live nodes and yields
exactly the values `l`. -/
inductive Reads (h : Heap α) : Obj α → List α → Prop where
  | nil (o : Obj α) : o.next = none → Reads h o []
  | cons (o o' : Obj α) (a : α) (p : Ptr) (rc : Nat) (l : List α) :
      o.next = some p → o.value = some a → h p = .live o' rc → Reads h o' l → Reads h o (a :: l)

/-- Every variable in scope reads its list; the same variables are in scope. -/
def Holds (s : State α) (S : Spec α) : Prop :=
  s.vars.length = S.length ∧
  (∀ x : Nat, s.vars[x]? = some none ↔ S[x]? = some none) ∧
  ∀ (x : Nat) (o : Obj α), s.vars[x]? = some (some o) → ∃ l, S[x]? = some (some l) ∧ Reads s.heap o l

/-- Nodes a variable in scope can reach. -/
inductive Reachable (s : State α) : Ptr → Prop where
  | root (x : Nat) (o : Obj α) (p : Ptr) :
      s.vars[x]? = some (some o) → o.next = some p → Reachable s p
  | next (q : Ptr) (o : Obj α) (rc : Nat) (p : Ptr) :
      Reachable s q → s.heap q = .live o rc → o.next = some p → Reachable s p

/-- Storage is held exactly by the reachable nodes: nothing reachable has been released, nothing
unreachable is still held. -/
def NoLeak (s : State α) : Prop :=
  ∀ p, ((∃ o rc, s.heap p = .live o rc) ↔ Reachable s p) ∧ s.heap p ≠ .dying

end Verif.ListHeap
