import Verif.Model.ThreadPool
import Verif.Model.Parallel
import Mathlib.Logic.Relation

/-!
# Exceptions in computations on other threads (`app_parallel.hpp`, `core_tree.hpp`)

An exception that leaves the function of a `std::thread` calls `std::terminate`; one that leaves a function
given to `std::async` is kept with the future, and thrown again by `get`.
-/

namespace Verif.Par
open Verif Verif.Nd Verif.Tree

/-- How a call ends, seen from the thread that makes it. -/
inductive Ending (β : Type) where
  /-- it returns -/
  | returns (b : β)
  /-- it throws: the caller can catch this -/
  | throws (e : Exn)
  /-- `std::terminate` was called by another thread: nothing in the program can prevent its end -/
  | terminates
  /-- the behaviour is undefined -/
  | undefined
  /-- it never ends -/
  | never

/-- What the outcome of a function that runs on a `std::thread` is for the thread that joins it. -/
def Ending.ofThread {β : Type} : Outcome β → Ending β
  | .ok b => .returns b
  | .throws _ => .terminates
  | .ub => .undefined
  | .diverges => .never

/-- What the outcome of a function is for the function that calls it. -/
def Ending.ofCall {β : Type} : Outcome β → Ending β
  | .ok b => .returns b
  | .throws e => .throws e
  | .ub => .undefined
  | .diverges => .never

/-- `app_parallel.hpp:75-103` `evaluate_on<N>`, as `EvaluatesOn`, but telling apart the exceptions of this
thread (line 81, which allocates) and those of the threads that are started (lines 85-88). -/
def EvaluateEnds {R : Nat} {α : Type} [Inhabited α] (N : Nat) (A : Arr (R + 1) α) (o : Ending (Arr (R + 1) α)) : Prop :=
  if volume A.shape ≥ 2 ^ 63 then o = .throws .badAlloc
  else ∃ ls, List.Forall₂ (fun n l => threadIndexes N A.shape n = .ok l) (List.range N) ls ∧
    ((Races (strides A.shape) ls ∧ o = .undefined) ∨
      ∃ l, Interleaving ls l ∧ o = Ending.ofThread
        ((writeAll A (strides A.shape) l (List.replicate (volume A.shape) default)).bind (ofBuffer A.shape)))

variable {J ρ α β σ : Type} {R : Nat}

/-- The tasks given to `std::async`, in the order of the calls, and what their futures hold: a value or an
exception. -/
structure Tasks (J ρ : Type) where
  jobs : List J
  results : Nat → Option (Outcome ρ)

/-- A task is run to its end, on a thread of its own or, if deferred, by the thread that calls `get`; its value
or exception is kept. -/
inductive Tasks.Runs (f : J → Outcome ρ) : Tasks J ρ → Tasks J ρ → Prop
  | run {s : Tasks J ρ} {id : Nat} {j : J} : s.jobs[id]? = some j → s.results id = none →
      ((∃ r, f j = .ok r) ∨ ∃ e, f j = .throws e) →
      Runs f s { s with results := fun m => if m = id then some (f j) else s.results m }

/-- `core_tree.hpp:604-609`: a task is launched; others may run before.  That a thread cannot be started
(`std::system_error`) is left out. -/
def asyncLaunch (f : J → Outcome ρ) (s : Tasks J ρ) (j : J) (s' : Tasks J ρ) (id : Nat) : Prop :=
  ∃ s₁, Relation.ReflTransGen (Tasks.Runs f) s s₁ ∧ id = s₁.jobs.length ∧ s' = { s₁ with jobs := s₁.jobs ++ [j] }

/-- `core_tree.hpp:610`: `get` waits for the task, and returns its value. -/
def asyncGet (f : J → Outcome ρ) (s : Tasks J ρ) (id : Nat) (s' : Tasks J ρ) (r : ρ) : Prop :=
  Relation.ReflTransGen (Tasks.Runs f) s s' ∧ s'.results id = some (.ok r)

/-- `core_tree.hpp:610`: `get` waits for the task, and throws its exception. -/
def asyncRethrow (f : J → Outcome ρ) (s : Tasks J ρ) (id : Nat) (s' : Tasks J ρ) (e : Exn) : Prop :=
  Relation.ReflTransGen (Tasks.Runs f) s s' ∧ s'.results id = some (.throws e)

/-- `core_tree.hpp:576-583` `map` with a function that has effects, as `MapsTo`, in case a call throws: the
calls before this one have returned.  The order of the calls is not specified. -/
inductive MapThrows (P : σ → α → σ → β → Prop) (Q : σ → α → σ → Exn → Prop) : σ → Tree R α → Exn → Prop
  | leaf {s a s' e} : Q s a s' e → MapThrows P Q s (.leaf a) e
  | node {c : Fin (2 ^ R) → Tree R α} {d : Fin (2 ^ R) → Tree R β} {e : Exn} (o : Fin (2 ^ R) → Fin (2 ^ R))
      (st : Nat → σ) (k : Fin (2 ^ R)) : Function.Bijective o →
      (∀ m : Fin (2 ^ R), m < k → Pool.MapsTo P (st m) (c (o m)) (st (m + 1)) (d (o m))) →
      MapThrows P Q (st k) (c (o k)) e → MapThrows P Q (st 0) (.node c) e

/-- `core_tree.hpp:601-611` `map` with a launch policy, `std::launch::async` or `std::launch::deferred` (or
both): all tasks are launched, then the values are got.  The tasks that are not waited for when an exception is
thrown are waited for when their futures are destroyed, which is left out. -/
def AsyncMaps (f : J → Outcome ρ) (t : Tree R J) : Ending (Tree R ρ) → Prop
  | .returns u => ∃ s₁ futures s', Pool.MapsTo (asyncLaunch f) ⟨[], fun _ => none⟩ t s₁ futures ∧
      Pool.MapsTo (asyncGet f) s₁ futures s' u
  | .throws e => ∃ s₁ futures, Pool.MapsTo (asyncLaunch f) ⟨[], fun _ => none⟩ t s₁ futures ∧
      MapThrows (asyncGet f) (asyncRethrow f) s₁ futures e
  | _ => False

end Verif.Par
