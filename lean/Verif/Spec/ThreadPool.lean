import Verif.Model.ThreadPool

/-!
# What happens in an execution of the thread pool
-/

namespace Verif.Pool
variable {J : Type}

/-- The tags of the jobs that were started, in order. -/
def starts (tr : List (Ev J)) : List Nat :=
  tr.filterMap fun e => match e with
    | .start _ id => some id
    | _ => none

/-- The tags of the jobs whose function returned, in order. -/
def finishes (tr : List (Ev J)) : List Nat :=
  tr.filterMap fun e => match e with
    | .finish _ id => some id
    | _ => none

/-- The jobs that were enqueued, in order. -/
def enqueues (tr : List (Ev J)) : List J :=
  tr.filterMap fun e => match e with
    | .enqueue j _ => some j
    | _ => none

/-- Actions of workers, other than being woken up. -/
def Ev.ofWorker : Ev J → Bool
  | .lock _ | .start _ _ | .sleep _ | .exit _ | .block _ | .finish _ _ | .complete _ => true
  | _ => false

/-- Actions of workers, and of the thread that stops them. -/
def Ev.closing : Ev J → Bool
  | .join => true
  | e => e.ofWorker

/-- The job a worker has taken and not yet completed. -/
def Pc.job : Pc → Option Nat
  | .run id | .fin id => some id
  | _ => none

end Verif.Pool
