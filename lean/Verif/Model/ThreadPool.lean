import Verif.Model.Tree
import Mathlib.Data.List.Basic

/-!
# The thread pool (`core_thread_pool.hpp`) and tree maps that use it (`core_tree.hpp`)

A transition system.  Every event is one atomic action of one thread; any sequence of possible events
is an execution.  Accesses of the queues happen while the mutex is held, so that a critical section is
atomic with respect to all others; the only thing other threads can do meanwhile is to store to `stop`
and to call `notify_all` (88-89), which are done without the mutex.  Hence the critical sections of
`enqueue_internal` and `complete` are single events, and that of `next` is cut at the places where the
order with respect to these two matters: locking, evaluation of the predicate, and waiting.

A task is identified by its tag (the address of a shared `int` that lives as long as the task); here the
tags are numbered in the order of `enqueue`.  `f` says what the function of a job does.
-/

namespace Verif.Pool
open Verif Verif.Tree

variable {J ρ α β : Type}

/-- Where a worker thread is (`core_thread_pool.hpp:171-181`). -/
inductive Pc where
  /-- about to lock the mutex: at line 141, or notified or woken up inside of `wait` at line 142 -/
  | acquire
  /-- has the mutex, about to evaluate the predicate at line 142 -/
  | locked
  /-- has the mutex, the predicate was false, about to release the mutex and wait -/
  | toWait
  /-- waiting for a notification, without the mutex -/
  | blocked
  /-- at line 177, with the task of this tag -/
  | run (id : Nat)
  /-- at line 178 -/
  | fin (id : Nat)
  /-- the thread's function has returned -/
  | exited
deriving DecidableEq

/-- Where the thread is that controls the pool.  `k` says what follows `stop_all`: `some n` the rest of
`restart(n)`, `none` nothing (the destructor, or a direct call). -/
inductive Ctl where
  /-- outside -/
  | idle
  /-- at line 88, with `stop` known to be false -/
  | stopAll (k : Option Nat)
  /-- at line 89 -/
  | notifyAll (k : Option Nat)
  /-- in the loop at 91-94, with the position in `threads` -/
  | joining (k : Option Nat) (n : Nat)
  /-- in the loop at 78-81, with the number of workers yet to be created -/
  | spawn (n : Nat)
deriving DecidableEq

/-- `core_thread_pool.hpp:184-189` the data members, the state of the mutex, and where the threads are.
`jobs` has what was enqueued, by tag, and `results` the values that the promises hold (103, 107). -/
structure Pool (J ρ : Type) where
  threads : List Pc
  /-- how many of the threads (the first ones) have been joined -/
  joined : Nat
  pending : List Nat
  running : List Nat
  stop : Bool
  lock : Bool
  ctl : Ctl
  jobs : List J
  results : Nat → Option ρ

/-- What can happen; `i` is the number of a worker. -/
inductive Ev (J : Type) where
  /-- line 141, or on return from waiting: the mutex is locked -/
  | lock (i : Nat)
  /-- lines 142, 149-153: the task of this tag is taken -/
  | start (i : Nat) (id : Nat)
  /-- line 142: the predicate is found to be false -/
  | sleep (i : Nat)
  /-- lines 142-147, 175: the worker ends -/
  | exit (i : Nat)
  /-- line 142: waiting begins -/
  | block (i : Nat)
  /-- a spurious wakeup, as the C++ standard allows -/
  | spurious (i : Nat)
  /-- line 177 with 107: the function of the job returns and the promise is fulfilled -/
  | finish (i : Nat) (id : Nat)
  /-- line 178 with 160-165 -/
  | complete (i : Nat)
  /-- 99-121 `enqueue` by any thread; `w` is the worker that is notified -/
  | enqueue (j : J) (w : Option Nat)
  /-- `restart(n)`, or with `none` the destructor or `stop_all()` is called (84-86) -/
  | call (k : Option Nat)
  /-- line 88 -/
  | store
  /-- line 89 -/
  | notify
  /-- line 93 -/
  | join
  /-- the loop at 91-94 has ended -/
  | ret
  /-- lines 78-81: the next worker is created, or the loop has ended -/
  | spawn

/-- Worker `i` moves on to `p`. -/
def Pool.goto (s : Pool J ρ) (i : Nat) (p : Pc) : Pool J ρ := { s with threads := s.threads.set i p }

/-- After `stop_all`: return, or lines 74-76.  Destroying a thread that was not joined terminates the
program. -/
def Pool.afterStop (s : Pool J ρ) : Option Nat → Outcome (Pool J ρ)
  | none => .ok { s with ctl := .idle }
  | some n =>
    if s.joined < s.threads.length then .throws .other
    else .ok { s with threads := [], joined := 0, stop := false, ctl := .spawn n }

/-- What an event does; `none` if it is not possible.  An exception that leaves a thread's function
terminates the program. -/
def step (f : J → Outcome ρ) (s : Pool J ρ) : Ev J → Option (Outcome (Pool J ρ))
  | .lock i =>
    if s.threads[i]? = some .acquire ∧ s.lock = false then some (.ok { s.goto i .locked with lock := true })
    else none
  | .start i id =>
    match s.pending with
    | [] => none
    | id' :: rest =>
      if s.threads[i]? = some .locked ∧ id = id' then
        some (.ok { s.goto i (.run id) with pending := rest, running := s.running ++ [id], lock := false })
      else none
  | .sleep i =>
    if s.threads[i]? = some .locked ∧ s.pending = [] ∧ s.stop = false then some (.ok (s.goto i .toWait))
    else none
  | .exit i =>
    if s.threads[i]? = some .locked ∧ s.pending = [] ∧ s.stop = true then
      some (.ok { s.goto i .exited with lock := false })
    else none
  | .block i =>
    if s.threads[i]? = some .toWait then some (.ok { s.goto i .blocked with lock := false }) else none
  | .spurious i =>
    if s.threads[i]? = some .blocked then some (.ok (s.goto i .acquire)) else none
  | .finish i id =>
    if s.threads[i]? = some (.run id) then
      match s.jobs[id]? with
      | some j => some ((f j).bind fun r =>
          .ok { s.goto i (.fin id) with results := fun m => if m = id then some r else s.results m })
      | none => some .ub
    else none
  | .complete i =>
    match s.threads[i]? with
    | some (.fin id) =>
      if s.lock then none
      else if id ∈ s.running then some (.ok { s.goto i .acquire with running := s.running.erase id })
      else some .ub
    | _ => none
  | .enqueue j w =>
    if s.lock then none
    else
      match w with
      | none =>
        if Pc.blocked ∈ s.threads then none
        else some (.ok { s with pending := s.pending ++ [s.jobs.length], jobs := s.jobs ++ [j] })
      | some i =>
        if s.threads[i]? = some .blocked then
          some (.ok { s.goto i .acquire with
            pending := s.pending ++ [s.jobs.length], jobs := s.jobs ++ [j] })
        else none
  | .call k =>
    match s.ctl with
    | .idle => some (if s.stop then s.afterStop k else .ok { s with ctl := .stopAll k })
    | _ => none
  | .store =>
    match s.ctl with
    | .stopAll k => some (.ok { s with stop := true, ctl := .notifyAll k })
    | _ => none
  | .notify =>
    match s.ctl with
    | .notifyAll k => some (.ok { s with
        threads := s.threads.map (fun p => if p = .blocked then .acquire else p), ctl := .joining k 0 })
    | _ => none
  | .join =>
    match s.ctl with
    | .joining k n =>
      if n < s.joined then some (.throws .other)
      else if s.threads[n]? = some .exited then some (.ok { s with joined := n + 1, ctl := .joining k (n + 1) })
      else none
    | _ => none
  | .ret =>
    match s.ctl with
    | .joining k n => if n = s.threads.length then some (s.afterStop k) else none
    | _ => none
  | .spawn =>
    match s.ctl with
    | .spawn 0 => some (.ok { s with ctl := .idle })
    | .spawn (n + 1) => some (.ok { s with threads := s.threads ++ [.acquire], ctl := .spawn n })
    | _ => none

/-- `core_thread_pool.hpp:60-63` at the beginning of the constructor's call of `restart(n)`, at line 88. -/
def Pool.construct (n : Nat) : Pool J ρ :=
  ⟨[], 0, [], [], false, false, .stopAll (some n), [], fun _ => none⟩

/-- Executions: from one state to another, with the events that happen, oldest first. -/
inductive Exec (f : J → Outcome ρ) : Pool J ρ → List (Ev J) → Pool J ρ → Prop
  | refl (s) : Exec f s [] s
  | cons {s e s' tr s''} : step f s e = some (.ok s') → Exec f s' tr s'' → Exec f s (e :: tr) s''

/-! ### Mapping a tree -/

/-- `core_tree.hpp:576-583` `map` with a function that has effects on the state of the pool: `P` says
what a call with a value does.  The order in which the children are visited is not specified. -/
inductive MapsTo {R : Nat} {σ : Type} (P : σ → α → σ → β → Prop) : σ → Tree R α → σ → Tree R β → Prop
  | leaf {s a s' b} : P s a s' b → MapsTo P s (.leaf a) s' (.leaf b)
  | node {c : Fin (2 ^ R) → Tree R α} {d : Fin (2 ^ R) → Tree R β} (o : Fin (2 ^ R) → Fin (2 ^ R))
      (st : Nat → σ) : Function.Bijective o →
      (∀ k : Fin (2 ^ R), MapsTo P (st k) (c (o k)) (st (k + 1)) (d (o k))) →
      MapsTo P (st 0) (.node c) (st (2 ^ R)) (.node d)

/-- `core_tree.hpp:618-622`: the function mapped at first calls `enqueue`, and gives the future of the
promise; the mutex may have to be waited for. -/
def launch (f : J → Outcome ρ) (s : Pool J ρ) (j : J) (s' : Pool J ρ) (id : Nat) : Prop :=
  ∃ tr s₁ w, Exec f s tr s₁ ∧ id = s₁.jobs.length ∧ step f s₁ (.enqueue j w) = some (.ok s')

/-- `core_tree.hpp:624`: `get` waits until the promise is fulfilled. -/
def get (f : J → Outcome ρ) (s : Pool J ρ) (id : Nat) (s' : Pool J ρ) (r : ρ) : Prop :=
  ∃ tr, Exec f s tr s' ∧ s'.results id = some r

/-- `core_tree.hpp:615-625` `map` on a thread pool. -/
def MapsOnPool {R : Nat} (f : J → Outcome ρ) (s : Pool J ρ) (t : Tree R J) (s' : Pool J ρ)
    (u : Tree R ρ) : Prop :=
  ∃ s₁ futures, MapsTo (launch f) s t s₁ futures ∧ MapsTo (get f) s₁ futures s' u

end Verif.Pool
