import Verif.Lemmas.ThreadPool
import Mathlib.Data.List.Range
import Mathlib.Data.List.Nodup

/-!
# Properties of the thread pool (C44, C45, C46)

`Exec f (.construct n) tr s`: some interleaving of the actions of all threads, from the construction of
a pool of `n` workers on, with the events `tr`, leads to the state `s`.
-/

namespace Verif.Pool
open Verif Verif.Tree
variable {J ρ : Type}

theorem exec_inv {f : J → Outcome ρ} {n : Nat} {tr : List (Ev J)} {s : Pool J ρ}
    (h : Exec f (.construct n) tr s) : Inv f tr s := by
  simpa using inv_exec h (inv_construct f n)

theorem Exec.append {f : J → Outcome ρ} {s s' s'' : Pool J ρ} {tr tr' : List (Ev J)} (h : Exec f s tr s')
    (h' : Exec f s' tr' s'') : Exec f s (tr ++ tr') s'' := by
  induction h with
  | refl s => exact h'
  | cons h1 _ ih => exact .cons h1 (ih h')

/-! ### C44 -/

/-- **C44.** Jobs, numbered in the order of `enqueue`, are started in that order, each once, and those not
yet started are pending: none is lost. -/
theorem pool_fifo {f : J → Outcome ρ} {n : Nat} {tr : List (Ev J)} {s : Pool J ρ}
    (h : Exec f (.construct n) tr s) :
    ∃ k ≤ (enqueues tr).length, starts tr = List.range k ∧
      s.pending = (List.range (enqueues tr).length).drop k := by
  have hi := exec_inv h
  have hf := hi.fifo
  rw [hi.jobs] at hf
  refine ⟨(starts tr).length, ?_, ?_, ?_⟩
  · have := congrArg List.length hf
    simp at this
    omega
  · have := congrArg (List.take (starts tr).length) hf
    rw [List.take_left, List.take_range] at this
    have hl := congrArg List.length hf
    simp at hl
    rw [show min (starts tr).length (enqueues tr).length = (starts tr).length by omega] at this
    exact this
  · rw [← hf, List.drop_left]

/-- Two workers, two jobs, one of them started: the other is the one that is pending. -/
example : ∃ tr s, Exec (fun j : Nat => Outcome.ok (j * j)) (.construct 2) tr s ∧ starts tr = [0] ∧
    (finishes tr).Nodup ∧ ∃ k ≤ (enqueues tr).length, starts tr = List.range k ∧
      s.pending = (List.range (enqueues tr).length).drop k := by
  have h : Exec (fun j : Nat => Outcome.ok (j * j)) (.construct 2) [.store, .notify, .ret, .spawn, .spawn, .spawn,
      .lock 1, .sleep 1, .block 1, .enqueue 5 (some 1), .enqueue 7 none, .lock 0, .start 0 0] _ :=
    .cons rfl (.cons rfl (.cons rfl (.cons rfl (.cons rfl (.cons rfl (.cons rfl (.cons rfl (.cons rfl
      (.cons rfl (.cons rfl (.cons rfl (.cons rfl (.refl _)))))))))))))
  exact ⟨_, _, h, rfl, List.nodup_nil, pool_fifo h⟩

/-- **C44.** A job finishes at most once, only after having been started; it is run by at most one worker,
and every started job that has not finished is being run by a worker.  The promise of a job has a value
if and only if the job has finished, which is the value of that job's function. -/
theorem pool_once {f : J → Outcome ρ} {n : Nat} {tr : List (Ev J)} {s : Pool J ρ}
    (h : Exec f (.construct n) tr s) :
    (finishes tr).Nodup ∧ (∀ id ∈ finishes tr, id ∈ starts tr) ∧
      (∀ id ∈ starts tr, id ∉ finishes tr → ∃ i : Nat, s.threads[i]? = some (Pc.run id)) ∧
      (∀ (id i i' : Nat), s.threads[i]? = some (Pc.run id) → s.threads[i']? = some (Pc.run id) → i = i') ∧
      ∀ id r, s.results id = some r ↔ id ∈ finishes tr ∧ ∃ j, (enqueues tr)[id]? = some j ∧ f j = .ok r := by
  have hi := exec_inv h
  obtain ⟨k, _, hk, _⟩ := pool_fifo h
  have hnd : (finishes tr ++ s.threads.filterMap Pc.runs).Nodup := by
    rw [hi.fins.nodup_iff, hk]
    exact List.nodup_range
  refine ⟨(List.nodup_append.1 hnd).1, fun id hid => hi.fins.subset (List.mem_append_left _ hid), ?_, ?_, ?_⟩
  · intro id hs hf
    have : id ∈ finishes tr ++ s.threads.filterMap Pc.runs := hi.fins.symm.subset hs
    rcases List.mem_append.1 this with h1 | h1
    · exact absurd h1 hf
    · obtain ⟨p, hp, e⟩ := List.mem_filterMap.1 h1
      obtain ⟨i, hi', rfl⟩ := List.getElem_of_mem hp
      refine ⟨i, ?_⟩
      rw [List.getElem?_eq_getElem hi']
      congr 1
      cases hq : s.threads[i] with
      | run id' => rw [hq] at e; simp only [Pc.runs, Option.some.injEq] at e; rw [e]
      | _ => rw [hq] at e; simp [Pc.runs] at e
  · intro id i i' h1 h2
    have hnd2 := (List.nodup_append.1 hnd).2.1
    by_contra hne
    have two : ∀ (l : List Pc) (i i' : Nat), i < i' → l[i]? = some (Pc.run id) →
        l[i']? = some (Pc.run id) → ¬ (l.filterMap Pc.runs).Nodup := by
      intro l
      induction l with
      | nil => intro i i' _ h1; simp at h1
      | cons x l ih =>
        intro i i' hlt h1 h2 hn
        obtain ⟨m, rfl⟩ : ∃ m, i' = m + 1 := ⟨i' - 1, by omega⟩
        rw [List.getElem?_cons_succ] at h2
        cases i with
        | zero =>
          rw [List.getElem?_cons_zero, Option.some.injEq] at h1
          subst h1
          rw [List.filterMap_cons_some (f := Pc.runs) (b := id) rfl, List.nodup_cons] at hn
          exact hn.1 (List.mem_filterMap.2 ⟨_, List.mem_of_getElem? h2, rfl⟩)
        | succ i =>
          rw [List.getElem?_cons_succ] at h1
          refine ih i m (by omega) h1 h2 (hn.sublist ?_)
          exact (List.sublist_cons_self x l).filterMap _
    rcases Nat.lt_or_gt_of_ne hne with hlt | hlt
    · exact two _ _ _ hlt h1 h2 hnd2
    · exact two _ _ _ hlt h2 h1 hnd2
  · intro id r
    rw [hi.res, hi.jobs]

/-- One worker, one job, run to its end: its result is in the future. -/
example : ∃ tr s, Exec (fun j : Nat => Outcome.ok (j * j)) (.construct 1) tr s ∧ s.results 0 = some 25 := by
  have h : Exec (fun j : Nat => Outcome.ok (j * j)) (.construct 1) [.store, .notify, .ret, .spawn, .spawn,
      .enqueue 5 none, .lock 0, .start 0 0, .finish 0 0] _ :=
    .cons rfl (.cons rfl (.cons rfl (.cons rfl (.cons rfl (.cons rfl (.cons rfl (.cons rfl (.cons rfl
      (.refl _)))))))))
  exact ⟨_, _, h, ((pool_once h).2.2.2.2 0 25).2 ⟨by decide, 5, rfl, rfl⟩⟩

/-- **C44.** Nothing goes wrong in the pool itself: as long as the functions of the jobs return, no event
has undefined behaviour, throws or terminates the program. -/
theorem pool_safe {f : J → Outcome ρ} {n : Nat} {tr : List (Ev J)} {s : Pool J ρ}
    (h : Exec f (.construct n) tr s) (hf : ∀ j ∈ enqueues tr, ∃ r, f j = .ok r) {e : Ev J}
    {o : Outcome (Pool J ρ)} (he : step f s e = some o) : ∃ s', o = .ok s' := by
  have hi := exec_inv h
  rcases step_ok hi he with h1 | ⟨i, id, j, _, hj, hn, _⟩
  · exact h1
  · rw [hi.jobs] at hj
    obtain ⟨r, hr⟩ := hf j hj
    exact absurd hr (hn r)

example : ∃ tr s, Exec (fun j : Nat => Outcome.ok (j * j)) (.construct 1) tr s ∧ enqueues tr = [5] ∧
    ∀ e o, step (fun j : Nat => Outcome.ok (j * j)) s e = some o → ∃ s', o = .ok s' := by
  have h : Exec (fun j : Nat => Outcome.ok (j * j)) (.construct 1) [.store, .notify, .ret, .spawn, .spawn,
      .enqueue 5 none, .lock 0, .start 0 0] _ :=
    .cons rfl (.cons rfl (.cons rfl (.cons rfl (.cons rfl (.cons rfl (.cons rfl (.cons rfl (.refl _))))))))
  exact ⟨_, _, h, rfl, fun e o he => pool_safe h (fun j _ => ⟨_, rfl⟩) he⟩

theorem workers_bound {f : J → Outcome ρ} {s s' : Pool J ρ} {tr : List (Ev J)} (h : Exec f s tr s')
    (hw : ∀ e ∈ tr, e.ofWorker = true) : tr.length + s'.work ≤ s.work ∧ s'.stop = s.stop ∧
      s'.threads.length = s.threads.length := by
  induction h with
  | refl s => simp
  | cons h1 _ ih =>
    have h3 := ih fun e he => hw e (List.mem_cons_of_mem _ he)
    have h2 := worker_step (hw _ (List.mem_cons_self ..)) h1
    rw [List.length_cons, h3.2.1, h3.2.2, h2.2.2.1, h2.2.2.2.1]
    exact ⟨by omega, rfl, rfl⟩

theorem work_le (s : Pool J ρ) : s.work ≤ 4 * s.pending.length + 6 * s.threads.length := by
  have : ∀ l : List Pc, (l.map Pc.rank).sum ≤ 6 * l.length := by
    intro l
    induction l with
    | nil => simp
    | cons p l ih =>
      simp only [List.map_cons, List.sum_cons, List.length_cons]
      have : p.rank ≤ 6 := by cases p <;> simp [Pc.rank]
      omega
  have := this s.threads
  unfold Pool.work
  omega

theorem all_results {f : J → Outcome ρ} {tr : List (Ev J)} {s : Pool J ρ} (hi : Inv f tr s)
    (hf : ∀ j ∈ enqueues tr, ∃ r, f j = .ok r) (hp : s.pending = [])
    (hall : ∀ p ∈ s.threads, p = .blocked ∨ p = .exited) (id : Nat) (hid : id < (enqueues tr).length) :
    id ∈ finishes tr ∧ (s.results id).isSome := by
  have hmem : id ∈ starts tr := by
    have := hi.fifo
    rw [hp, List.append_nil, hi.jobs] at this
    rw [this]
    exact List.mem_range.2 hid
  have hfin : id ∈ finishes tr := by
    have := hi.fins
    rw [(no_jobs_held hall).2, List.append_nil] at this
    exact this.symm.subset hmem
  refine ⟨hfin, ?_⟩
  obtain ⟨r, hr⟩ := hf _ (List.getElem_mem hid)
  have : s.results id = some r := by
    rw [hi.res, hi.jobs]
    exact ⟨hfin, _, List.getElem?_eq_getElem hid, hr⟩
  rw [this]
  rfl

/-- **C44.** A pool with at least one worker that is not being stopped performs every job: the workers
take a bounded number of steps, however they are interleaved, and as long as some job has not finished
one of them can take a step (unless the function of a job fails). -/
theorem pool_progress {f : J → Outcome ρ} {n : Nat} {tr tr' : List (Ev J)} {s s' : Pool J ρ}
    (h : Exec f (.construct n) tr s) (hstop : s.stop = false) (hne : s.threads ≠ [])
    (h' : Exec f s tr' s') (hw : ∀ e ∈ tr', e.ofWorker = true)
    (hf : ∀ j ∈ enqueues (tr ++ tr'), ∃ r, f j = .ok r) :
    tr'.length ≤ 4 * s.pending.length + 6 * s.threads.length ∧
      ((∃ e : Ev J, e.ofWorker = true ∧ ∃ s'', step f s' e = some (.ok s'')) ∨
        s'.pending = [] ∧ s'.running = [] ∧
        ∀ id < (enqueues (tr ++ tr')).length, id ∈ finishes (tr ++ tr') ∧ (s'.results id).isSome) := by
  have hb := workers_bound h' hw
  have hi := exec_inv (h.append h')
  refine ⟨by have := work_le s; omega, ?_⟩
  by_cases hs : ∀ e : Ev J, e.ofWorker = true → step f s' e = none
  · right
    have hall := stuck_workers hi hs
    have hst : s'.stop = false := by rw [hb.2.1, hstop]
    have hblk : ∀ p ∈ s'.threads, p = .blocked := by
      intro p hp
      rcases hall p hp with e | e
      · exact e
      · exact absurd (e ▸ hp) (hi.live hst)
    have hp : s'.pending = [] := by
      by_contra hpn
      have hne' : s'.threads ≠ [] := by
        intro e
        rw [e] at hb
        exact hne (List.length_eq_zero_iff.1 hb.2.2.symm)
      obtain ⟨p, hp, hnb⟩ := hi.wake hst hpn hne'
      exact hnb (hblk p hp)
    refine ⟨hp, ?_, all_results hi hf hp hall⟩
    have := hi.run
    rw [(no_jobs_held hall).1] at this
    exact this.eq_nil
  · left
    simp only [not_forall] at hs
    obtain ⟨e, he, hn⟩ := hs
    refine ⟨e, he, ?_⟩
    cases ho : step f s' e with
    | none => exact absurd ho hn
    | some o =>
      obtain ⟨s'', rfl⟩ := pool_safe (h.append h') hf ho
      exact ⟨s'', rfl⟩

/-- The hypotheses of the theorems above can be met: a pool of two workers, two jobs, one of them
running. -/
example : ∃ tr s, Exec (fun j : Nat => Outcome.ok (j * j)) (.construct 2) tr s ∧ s.stop = false ∧
    s.threads ≠ [] ∧ starts tr = [0] ∧ s.pending = [1] ∧ enqueues tr = [5, 7] :=
  ⟨[.store, .notify, .ret, .spawn, .spawn, .spawn, .lock 1, .sleep 1, .block 1, .enqueue 5 (some 1),
    .enqueue 7 none, .lock 0, .start 0 0], _,
    .cons rfl (.cons rfl (.cons rfl (.cons rfl (.cons rfl (.cons rfl (.cons rfl (.cons rfl (.cons rfl
      (.cons rfl (.cons rfl (.cons rfl (.cons rfl (.refl _))))))))))))), rfl, by decide, rfl, rfl, rfl⟩

/-! ### C45 -/

theorem exited_pending {f : J → Outcome ρ} {tr : List (Ev J)} {s s' : Pool J ρ} {e : Ev J} (hi : Inv f tr s)
    (h : Pc.exited ∈ s.threads → s.pending = []) (he : enqueues [e] = [])
    (hs : step f s e = some (.ok s')) : Pc.exited ∈ s'.threads → s'.pending = [] := by
  have move : ∀ (i : Nat) (q : Pc), q ≠ .exited → Pc.exited ∈ s.threads.set i q → s.pending = [] := by
    intro i q hq hm
    rcases List.mem_or_eq_of_mem_set hm with h1 | h1
    · exact h h1
    · exact absurd h1.symm hq
  have hafter : ∀ k, s.afterStop k = .ok s' → Pc.exited ∈ s'.threads → s'.pending = [] := by
    intro k hk
    cases k with
    | none =>
      simp only [Pool.afterStop, Outcome.ok.injEq] at hk
      subst hk
      exact h
    | some n =>
      simp only [Pool.afterStop] at hk
      split at hk
      · cases hk
      · simp only [Outcome.ok.injEq] at hk
        subst hk
        simp
  cases e with
  | lock i =>
    simp only [step] at hs; split at hs <;> simp at hs; subst hs
    exact move i _ (by decide)
  | start i id =>
    simp only [step] at hs
    split at hs
    · simp at hs
    · rename_i hp
      split at hs <;> simp at hs; subst hs
      intro hm
      have := move i _ (by simp) hm
      rw [hp] at this
      cases this
  | sleep i =>
    simp only [step] at hs; split at hs <;> simp at hs; subst hs
    exact move i _ (by decide)
  | exit i =>
    simp only [step] at hs
    split at hs
    · rename_i hc
      simp at hs; subst hs
      exact fun _ => hc.2.1
    · simp at hs
  | block i =>
    simp only [step] at hs; split at hs <;> simp at hs; subst hs
    exact move i _ (by decide)
  | spurious i =>
    simp only [step] at hs; split at hs <;> simp at hs; subst hs
    exact move i _ (by decide)
  | finish i id =>
    simp only [step] at hs
    split at hs
    · split at hs
      · simp only [Option.some.injEq] at hs
        obtain ⟨r, _, hs⟩ := Outcome.bind_eq_ok.1 hs
        simp at hs; subst hs
        exact move i _ (by simp)
      · simp at hs
    · simp at hs
  | complete i =>
    simp only [step] at hs
    split at hs
    · split at hs
      · simp at hs
      · split at hs <;> simp at hs; subst hs
        exact move i _ (by decide)
    · simp at hs
  | enqueue j w => simp [enqueues] at he
  | call k =>
    simp only [step] at hs
    split at hs
    · simp only [Option.some.injEq] at hs
      split at hs
      · exact hafter k hs
      · simp at hs; subst hs; exact h
    · simp at hs
  | store => simp only [step] at hs; split at hs <;> simp at hs; subst hs; exact h
  | notify =>
    simp only [step] at hs; split at hs <;> simp at hs; subst hs
    intro hm
    obtain ⟨p, hp, e⟩ := List.mem_map.1 hm
    split at e
    · cases e
    · exact h (e ▸ hp)
  | join =>
    simp only [step] at hs
    split at hs
    · split at hs
      · simp at hs
      · split at hs <;> simp at hs; subst hs; exact h
    · simp at hs
  | ret =>
    simp only [step] at hs
    split at hs
    · split at hs
      · simp only [Option.some.injEq] at hs
        exact hafter _ hs
      · simp at hs
    · simp at hs
  | spawn =>
    simp only [step] at hs
    split at hs
    · simp at hs; subst hs; exact h
    · simp at hs; subst hs
      intro hm
      exact h (by simpa using hm)
    · simp at hs

theorem exited_pending_exec {f : J → Outcome ρ} {s s' : Pool J ρ} {tr : List (Ev J)} (h : Exec f s tr s') :
    ∀ {tr₀}, Inv f tr₀ s → (Pc.exited ∈ s.threads → s.pending = []) → enqueues tr = [] →
      Pc.exited ∈ s'.threads → s'.pending = [] := by
  induction h with
  | refl s => exact fun _ h _ => h
  | @cons s e s' tr s'' h1 _ ih =>
    intro tr₀ hi hx he
    have e2 : enqueues [e] ++ enqueues tr = [] := by
      rw [← he, enqueues, enqueues, enqueues, ← List.filterMap_append]
      rfl
    rw [List.append_eq_nil_iff] at e2
    exact ih (inv_step hi h1) (exited_pending hi hx e2.1 h1) e2.2

/-- Stopping, with no worker waiting or going to wait. -/
def Closing (s : Pool J ρ) : Prop :=
  s.stop = true ∧ (∃ k n, s.ctl = .joining k n ∧ n ≤ s.threads.length) ∧
    Pc.toWait ∉ s.threads ∧ Pc.blocked ∉ s.threads

/-- How many threads are yet to be joined. -/
def Pool.left (s : Pool J ρ) : Nat :=
  match s.ctl with
  | .joining _ n => s.threads.length - n
  | _ => 0

theorem closing_step {f : J → Outcome ρ} {s s' : Pool J ρ} {e : Ev J} (h : Closing s)
    (he : e.closing = true) (hs : step f s e = some (.ok s')) :
    Closing s' ∧ s'.work + s'.left < s.work + s.left := by
  obtain ⟨hst, ⟨k, n, hc, hn⟩, h1, h2⟩ := h
  by_cases hw : e.ofWorker = true
  · obtain ⟨g1, g2, g3, g4, g5⟩ := worker_step hw hs
    have hleft : s'.left = s.left := by
      unfold Pool.left
      rw [g2, g4]
    refine ⟨⟨g3.trans hst, ⟨k, n, g2.trans hc, by omega⟩, ?_⟩, by omega⟩
    have move : ∀ (i : Nat) (q : Pc), q ≠ .toWait → q ≠ .blocked →
        Pc.toWait ∉ s.threads.set i q ∧ Pc.blocked ∉ s.threads.set i q := by
      intro i q hq1 hq2
      constructor
      · intro hm
        rcases List.mem_or_eq_of_mem_set hm with h3 | h3
        · exact h1 h3
        · exact hq1 h3.symm
      · intro hm
        rcases List.mem_or_eq_of_mem_set hm with h3 | h3
        · exact h2 h3
        · exact hq2 h3.symm
    cases e <;> simp only [Ev.ofWorker, Bool.false_eq_true] at hw
    · simp only [step] at hs; split at hs <;> simp at hs; subst hs
      exact move _ _ (by decide) (by decide)
    · simp only [step] at hs
      split at hs
      · simp at hs
      · split at hs <;> simp at hs; subst hs
        exact move _ _ (by simp) (by simp)
    · simp only [step, hst] at hs; split at hs <;> simp at hs
      rename_i hcc
      simp at hcc
    · simp only [step] at hs; split at hs <;> simp at hs; subst hs
      exact move _ _ (by decide) (by decide)
    · simp only [step] at hs
      split at hs
      · rename_i hi
        exact absurd (List.mem_of_getElem? hi) h1
      · simp at hs
    · simp only [step] at hs
      split at hs
      · split at hs
        · simp only [Option.some.injEq] at hs
          obtain ⟨r, _, hs⟩ := Outcome.bind_eq_ok.1 hs
          simp at hs; subst hs
          exact move _ _ (by simp) (by simp)
        · simp at hs
      · simp at hs
    · simp only [step] at hs
      split at hs
      · split at hs
        · simp at hs
        · split at hs <;> simp at hs; subst hs
          exact move _ _ (by decide) (by decide)
      · simp at hs
  · have : e = .join := by
      cases e <;> simp [Ev.closing, Ev.ofWorker] at he hw ⊢
    subst this
    simp only [step, hc] at hs
    split at hs
    · simp at hs
    · split at hs
      · rename_i hx
        simp at hs
        subst hs
        have hlt : n < s.threads.length := by
          by_contra hge
          rw [List.getElem?_eq_none (by omega)] at hx
          cases hx
        refine ⟨⟨hst, ⟨k, n + 1, rfl, hlt⟩, h1, h2⟩, ?_⟩
        simp only [Pool.left, hc, Pool.work]
        omega
      · simp at hs

theorem closing_bound {f : J → Outcome ρ} {s s' : Pool J ρ} {tr : List (Ev J)} (h : Exec f s tr s')
    (hc : Closing s) (hw : ∀ e ∈ tr, e.closing = true) :
    Closing s' ∧ tr.length + (s'.work + s'.left) ≤ s.work + s.left := by
  induction h with
  | refl s => exact ⟨hc, by simp⟩
  | cons h1 _ ih =>
    have h2 := closing_step hc (hw _ (List.mem_cons_self ..)) h1
    have h3 := ih h2.1 fun e he => hw e (List.mem_cons_of_mem _ he)
    refine ⟨h3.1, ?_⟩
    rw [List.length_cons]
    omega

theorem closing_enqueues {tr : List (Ev J)} (hw : ∀ e ∈ tr, e.closing = true) : enqueues tr = [] := by
  rw [enqueues, List.filterMap_eq_nil_iff]
  intro e he
  have := hw e he
  cases e <;> simp [Ev.closing, Ev.ofWorker] at this ⊢

/-- **C45, as far as it holds.** `stop_all` is entered in the state `s₀`, jobs are no longer enqueued, and
`notify_all` is called in the state `s₁`.  If at this moment no worker is between finding that it has to
wait and waiting, then the workers and the stopping thread take a bounded number of steps, however they
are interleaved; as long as some worker has not ended one of them can take a step; and then all jobs have
finished, provided that there is a worker, and `stop_all` returns.
What is missing: without the condition on `s₁` this is false, see `shutdown_violated`. -/
theorem shutdown_partial {f : J → Outcome ρ} {n : Nat} {tr₀ tr₁ tr₂ : List (Ev J)} {s₀ s₁ s₂ s : Pool J ρ}
    {k : Option Nat} (h₀ : Exec f (.construct n) tr₀ s₀) (hc : s₀.ctl = .stopAll k)
    (h₁ : Exec f s₀ tr₁ s₁) (he : enqueues tr₁ = []) (hn : step f s₁ .notify = some (.ok s₂))
    (hno : Pc.toWait ∉ s₁.threads) (h₂ : Exec f s₂ tr₂ s) (hcl : ∀ e ∈ tr₂, e.closing = true)
    (hf : ∀ j ∈ enqueues tr₀, ∃ r, f j = .ok r) :
    tr₂.length ≤ 4 * s₂.pending.length + 7 * s₂.threads.length ∧
      ((∃ e : Ev J, e.closing = true ∧ ∃ s', step f s e = some (.ok s')) ∨
        (∀ p ∈ s.threads, p = .exited) ∧ (∃ s', step f s .ret = some (.ok s')) ∧
        (s.threads ≠ [] → s.pending = [] ∧ s.running = [] ∧
          ∀ id < (enqueues tr₀).length, (s.results id).isSome)) := by
  have hi₀ := exec_inv h₀
  have h01 := h₀.append h₁
  have hi₁ := exec_inv h01
  have hx₀ : Pc.exited ∈ s₀.threads → s₀.pending = [] := by
    intro hm
    have := hi₀.ctl
    simp only [CtlOk, hc] at this
    exact absurd hm (hi₀.live this.1)
  have hx₁ := exited_pending_exec h₁ hi₀ hx₀ he
  have hi₂ := inv_step hi₁ hn
  have hx₂ := exited_pending hi₁ hx₁ rfl hn
  have hC : Closing s₂ := by
    have hctl := hi₁.ctl
    simp only [step] at hn
    split at hn
    · rename_i k' hk
      simp only [CtlOk, hk] at hctl
      simp only [Option.some.injEq, Outcome.ok.injEq] at hn
      subst hn
      refine ⟨hctl.1, ⟨k', 0, rfl, Nat.zero_le _⟩, ?_, ?_⟩
      · intro hm
        obtain ⟨p, hp, e⟩ := List.mem_map.1 hm
        split at e
        · cases e
        · exact hno (e ▸ hp)
      · intro hm
        obtain ⟨p, hp, e⟩ := List.mem_map.1 hm
        split at e
        · cases e
        · exact absurd e ‹_›
    · simp at hn
  obtain ⟨hCs, hb⟩ := closing_bound h₂ hC hcl
  have hleft : s₂.left ≤ s₂.threads.length := by
    obtain ⟨_, ⟨k', n', hk, _⟩, _⟩ := hC
    simp only [Pool.left, hk]
    omega
  have hwl := work_le s₂
  refine ⟨by omega, ?_⟩
  have hex : Exec f (.construct n) (tr₀ ++ tr₁ ++ ([.notify] ++ tr₂)) s :=
    h01.append (.cons hn h₂)
  have hi := exec_inv hex
  have henq : enqueues (tr₀ ++ tr₁ ++ ([Ev.notify] ++ tr₂)) = enqueues tr₀ := by
    have e1 : ∀ a b : List (Ev J), enqueues (a ++ b) = enqueues a ++ enqueues b := by
      intro a b; simp [enqueues]
    rw [e1, e1, e1, he, closing_enqueues hcl]
    simp [enqueues]
  have hfs : ∀ j ∈ enqueues (tr₀ ++ tr₁ ++ ([Ev.notify] ++ tr₂)), ∃ r, f j = .ok r := by
    rw [henq]; exact hf
  by_cases hs : ∀ e : Ev J, e.closing = true → step f s e = none
  · right
    have hall' := stuck_workers hi fun e hw => hs e (by cases e <;> simp_all [Ev.closing, Ev.ofWorker])
    have hall : ∀ p ∈ s.threads, p = .exited := by
      intro p hp
      rcases hall' p hp with e | e
      · exact absurd (e ▸ hp) hCs.2.2.2
      · exact e
    obtain ⟨hst, ⟨k', m, hk, hm⟩, _⟩ := hCs
    have hctl := hi.ctl
    simp only [CtlOk, hk] at hctl
    have hm' : m = s.threads.length := by
      by_contra hne
      have hlt : m < s.threads.length := by omega
      have := hs .join rfl
      simp only [step, hk] at this
      rw [if_neg (by omega), if_pos] at this
      · simp at this
      · rw [List.getElem?_eq_getElem hlt, hall _ (List.getElem_mem hlt)]
    refine ⟨hall, ?_, fun hne => ?_⟩
    · cases ho : step f s .ret with
      | none => simp [step, hk, hm'] at ho
      | some o =>
        obtain ⟨s', rfl⟩ := pool_safe hex hfs ho
        exact ⟨s', rfl⟩
    · obtain ⟨p, hp⟩ := List.exists_mem_of_ne_nil _ hne
      have hp0 : s.pending = [] :=
        exited_pending_exec h₂ hi₂ hx₂ (closing_enqueues hcl) (hall p hp ▸ hp)
      refine ⟨hp0, ?_, fun id hid => ?_⟩
      · have := hi.run
        rw [(no_jobs_held hall').1] at this
        exact this.eq_nil
      · exact (all_results hi hfs hp0 hall' id (by rw [henq]; exact hid)).2
  · left
    simp only [not_forall] at hs
    obtain ⟨e, he', hn'⟩ := hs
    refine ⟨e, he', ?_⟩
    cases ho : step f s e with
    | none => exact absurd ho hn'
    | some o =>
      obtain ⟨s', rfl⟩ := pool_safe hex hfs ho
      exact ⟨s', rfl⟩

/-- The hypotheses of `shutdown_partial` can be met: one worker, stopped while it waits. -/
example : ∃ tr₀ s₀ tr₁ s₁ s₂, Exec (fun j : Nat => Outcome.ok (j * j)) (.construct 1) tr₀ s₀ ∧
    s₀.ctl = .stopAll none ∧ Exec (fun j : Nat => Outcome.ok (j * j)) s₀ tr₁ s₁ ∧ enqueues tr₁ = [] ∧
    step (fun j : Nat => Outcome.ok (j * j)) s₁ .notify = some (.ok s₂) ∧ Pc.toWait ∉ s₁.threads ∧
    s₂.threads ≠ [] :=
  ⟨[.store, .notify, .ret, .spawn, .spawn, .lock 0, .sleep 0, .block 0, .call none], _, [.store], _, _,
    .cons rfl (.cons rfl (.cons rfl (.cons rfl (.cons rfl (.cons rfl (.cons rfl (.cons rfl (.cons rfl
      (.refl _))))))))), rfl, .cons rfl (.refl _), rfl, rfl, by decide, by decide⟩

/-- **C45 is violated.** `stop_all` stores to `stop` and notifies without the mutex.  A worker which has
just found that it must wait, but does not wait yet, misses the notification: it waits forever, and
`stop_all`, so also the destructor and `restart`, waits for it forever.  Nothing can happen any more,
other than a spurious wakeup or somebody enqueueing a job. -/
theorem shutdown_violated (f : J → Outcome ρ) :
    ∃ tr s, Exec f (.construct 1) tr s ∧ s.ctl = .joining none 0 ∧ s.threads = [.blocked] ∧
      ∀ e : Ev J, step f s e ≠ none → e = .spurious 0 ∨ ∃ j w, e = .enqueue j w := by
  refine ⟨[.store, .notify, .ret, .spawn, .spawn, .lock 0, .sleep 0, .call none, .store, .notify, .block 0],
    _, .cons rfl (.cons rfl (.cons rfl (.cons rfl (.cons rfl (.cons rfl (.cons rfl (.cons rfl (.cons rfl
      (.cons rfl (.cons rfl (.refl _))))))))))), rfl, rfl, ?_⟩
  have hx : ∀ (i : Nat) (p : Pc), [Pc.blocked][i]? = some p → i = 0 ∧ p = .blocked := by
    intro i p h
    cases i with
    | zero => simpa using h.symm
    | succ i => simp at h
  intro e he
  cases e with
  | enqueue j w => exact Or.inr ⟨j, w, rfl⟩
  | spurious i =>
    left
    by_contra hne
    apply he
    have hi : i ≠ 0 := fun e => hne (by rw [e])
    simp only [step]
    rw [if_neg]
    intro h
    exact hi (hx i _ h).1
  | lock i => exact absurd (if_neg fun h => absurd (hx i _ h.1).2 (by decide)) he
  | start i id => exact absurd rfl he
  | sleep i => exact absurd (if_neg fun h => absurd (hx i _ h.1).2 (by decide)) he
  | exit i => exact absurd (if_neg fun h => absurd (hx i _ h.1).2 (by decide)) he
  | block i => exact absurd (if_neg fun h => absurd (hx i _ h).2 (by decide)) he
  | finish i id => exact absurd (if_neg fun h => absurd (hx i _ h).2 (by simp)) he
  | complete i =>
    exfalso
    apply he
    simp only [step]
    split
    · rename_i id h
      exact absurd (hx i _ h).2 (by simp)
    · rfl
  | call k => exact absurd rfl he
  | store => exact absurd rfl he
  | notify => exact absurd rfl he
  | join => exact absurd rfl he
  | ret => exact absurd rfl he
  | spawn => exact absurd rfl he

/-! ### C46 -/

theorem jobs_prefix {f : J → Outcome ρ} {s s' : Pool J ρ} {tr : List (Ev J)} (h : Exec f s tr s') :
    ∀ {tr₀}, Inv f tr₀ s → s'.jobs = s.jobs ++ enqueues tr := by
  intro tr₀ hi
  rw [(inv_exec h hi).jobs, hi.jobs]
  simp [enqueues]

/-- Two trees of the same shape with related values. -/
inductive Related {R : Nat} {α β : Type} (Q : α → β → Prop) : Tree R α → Tree R β → Prop
  | leaf {a b} : Q a b → Related Q (.leaf a) (.leaf b)
  | node {c : Fin (2 ^ R) → Tree R α} {d : Fin (2 ^ R) → Tree R β} :
      (∀ k, Related Q (c k) (d k)) → Related Q (.node c) (.node d)

theorem Related.mono {R : Nat} {α β : Type} {P Q : α → β → Prop} (h : ∀ a b, P a b → Q a b) {t : Tree R α}
    {u : Tree R β} (hr : Related P t u) : Related Q t u := by
  induction hr with
  | leaf h1 => exact .leaf (h _ _ h1)
  | node _ ih => exact .node ih

/-- An effectful map: each call leads on to a state in which `I` holds with a longer history, and
establishes `Q`, which is kept. -/
theorem MapsTo.related {R : Nat} {σ α β : Type} {P : σ → α → σ → β → Prop} {le : σ → σ → Prop} {I : σ → Prop}
    {Q : σ → α → β → Prop} (hrefl : ∀ s, le s s) (htrans : ∀ a b c, le a b → le b c → le a c)
    (hP : ∀ s a s' b, I s → P s a s' b → I s' ∧ le s s' ∧ Q s' a b)
    (hQ : ∀ s s' a b, le s s' → Q s a b → Q s' a b) {s s' : σ} {t : Tree R α} {u : Tree R β}
    (h : MapsTo P s t s' u) : I s → I s' ∧ le s s' ∧ Related (Q s') t u := by
  induction h with
  | leaf h1 =>
    intro hI
    obtain ⟨h2, h3, h4⟩ := hP _ _ _ _ hI h1
    exact ⟨h2, h3, .leaf h4⟩
  | @node c d o st ho hk ih =>
    intro hI
    have hst : ∀ m ≤ 2 ^ R, I (st m) ∧ le (st 0) (st m) := by
      intro m
      induction m with
      | zero => exact fun _ => ⟨hI, hrefl _⟩
      | succ m ihm =>
        intro hm
        obtain ⟨h1, h2⟩ := ihm (by omega)
        obtain ⟨h3, h4, _⟩ := ih ⟨m, by omega⟩ h1
        exact ⟨h3, htrans _ _ _ h2 h4⟩
    have hle : ∀ m, m ≤ 2 ^ R → ∀ d, m + d ≤ 2 ^ R → le (st m) (st (m + d)) := by
      intro m hm d
      induction d with
      | zero => exact fun _ => hrefl _
      | succ d ihd =>
        intro hd
        have h1 := ihd (by omega)
        obtain ⟨_, h4, _⟩ := ih ⟨m + d, by omega⟩ (hst (m + d) (by omega)).1
        exact htrans _ _ _ h1 h4
    refine ⟨(hst _ (le_refl _)).1, (hst _ (le_refl _)).2, .node fun k => ?_⟩
    obtain ⟨k', rfl⟩ := ho.2 k
    obtain ⟨_, _, h5⟩ := ih k' (hst k' (by omega)).1
    refine h5.mono fun a b hab => hQ _ _ _ _ ?_ hab
    have := hle (k' + 1) (by omega) (2 ^ R - (k' + 1)) (by omega)
    rwa [show (k' : Nat) + 1 + (2 ^ R - (k' + 1)) = 2 ^ R by omega] at this

/-- **C46.** A tree mapped on a pool that is in any state, whatever else happens meanwhile, is the tree
mapped sequentially: at every leaf it has the value of the function. -/
theorem map_on_pool {R : Nat} {f : J → Outcome ρ} {n : Nat} {tr : List (Ev J)} {s s' : Pool J ρ}
    {t : Tree R J} {u : Tree R ρ} (h : Exec f (.construct n) tr s) (hm : MapsOnPool f s t s' u) :
    u.map Outcome.ok = t.map f := by
  obtain ⟨s₁, fut, h1, h2⟩ := hm
  let I : Pool J ρ → Prop := fun s => ∃ tr, Inv f tr s
  let le : Pool J ρ → Pool J ρ → Prop := fun s s' => ∃ l, s'.jobs = s.jobs ++ l
  have hrefl : ∀ s, le s s := fun s => ⟨[], by simp⟩
  have htrans : ∀ a b c, le a b → le b c → le a c := by
    rintro a b c ⟨l, h1⟩ ⟨l', h2⟩
    exact ⟨l ++ l', by rw [h2, h1, List.append_assoc]⟩
  have hmono : ∀ (s s' : Pool J ρ) (j : J) (id : Nat), le s s' → s.jobs[id]? = some j → s'.jobs[id]? = some j := by
    rintro s s' j id ⟨l, e⟩ hj
    have hlt : id < s.jobs.length := by
      by_contra hge
      rw [List.getElem?_eq_none (by omega)] at hj
      cases hj
    rw [e, List.getElem?_append_left hlt, hj]
  obtain ⟨⟨tr₁, hi₁⟩, _, hr⟩ := h1.related (le := le) (I := I) (Q := fun s j id => s.jobs[id]? = some j)
    hrefl htrans (by
      rintro s j s' id ⟨tr, hi⟩ ⟨tr', s'', w, he, rfl, hs⟩
      have hi' := inv_exec he hi
      have hx := inv_step hi' hs
      refine ⟨⟨_, hx⟩, ?_, ?_⟩
      · have e1 := jobs_prefix he hi
        have e2 := hx.jobs
        rw [enqueues_snoc, ← hi'.jobs, e1] at e2
        exact ⟨enqueues tr' ++ enqueues [Ev.enqueue j w], by rw [e2, List.append_assoc]⟩
      · rw [hx.jobs, enqueues_snoc, ← hi'.jobs, List.getElem?_append_right (le_refl _)]
        simp [enqueues]) (fun s s' a b hle hq => hmono s s' a b hle hq) ⟨_, exec_inv h⟩
  obtain ⟨_, _, hr'⟩ := h2.related (le := le) (I := fun s => I s ∧ le s₁ s)
    (Q := fun _ id r => ∀ j, s₁.jobs[id]? = some j → f j = .ok r) hrefl htrans (by
      rintro s id s' r ⟨⟨tr, hi⟩, hl⟩ ⟨tr', he, hg⟩
      have hi' := inv_exec he hi
      have hle : le s s' := ⟨_, jobs_prefix he hi⟩
      refine ⟨⟨⟨_, hi'⟩, htrans _ _ _ hl hle⟩, hle, fun j hj => ?_⟩
      obtain ⟨_, j', hj', hf⟩ := (hi'.res id r).1 hg
      rw [hmono _ _ _ _ (htrans _ _ _ hl hle) hj] at hj'
      rwa [Option.some.inj hj']) (fun _ _ _ _ _ hq => hq) ⟨⟨_, hi₁⟩, hrefl _⟩
  clear h1 h2
  induction hr generalizing u with
  | @leaf a b h1 =>
    cases hr' with
    | leaf h2 => simp only [Verif.Tree.Tree.map]; rw [h2 a h1]
  | @node c d h1 ih =>
    cases hr' with
    | node h2 =>
      simp only [Verif.Tree.Tree.map]
      congr 1
      funext k
      exact ih k (h2 k)

/-- For a function that always returns this is the mapped tree. -/
theorem map_on_pool_total {R : Nat} {g : J → ρ} {n : Nat} {tr : List (Ev J)} {s s' : Pool J ρ}
    {t : Tree R J} {u : Tree R ρ} (h : Exec (fun j => .ok (g j)) (.construct n) tr s)
    (hm : MapsOnPool (fun j => .ok (g j)) s t s' u) : u = t.map g := by
  have := map_on_pool h hm
  clear h hm
  induction t generalizing u with
  | leaf a =>
    cases u with
    | leaf b => simp only [Verif.Tree.Tree.map, Verif.Tree.Tree.leaf.injEq, Outcome.ok.injEq] at this ⊢; exact this
    | node d => simp [Verif.Tree.Tree.map] at this
  | node c ih =>
    cases u with
    | leaf b => simp [Verif.Tree.Tree.map] at this
    | node d =>
      simp only [Verif.Tree.Tree.map, Verif.Tree.Tree.node.injEq] at this ⊢
      funext k
      exact ih k (congrFun this k)

/-- The hypotheses can be met: a leaf, mapped on a pool with one worker. -/
example : ∃ tr s s', Exec (fun j : Nat => .ok (j * j)) (.construct 1) tr s ∧
    MapsOnPool (R := 2) (fun j : Nat => .ok (j * j)) s (.leaf 3) s' (.leaf 9) := by
  refine ⟨[.store, .notify, .ret, .spawn, .spawn], _, _,
    .cons rfl (.cons rfl (.cons rfl (.cons rfl (.cons rfl (.refl _))))), _, .leaf 0,
    .leaf ⟨[], _, none, .refl _, rfl, rfl⟩,
    .leaf ⟨[.lock 0, .start 0 0, .finish 0 0], .cons rfl (.cons rfl (.cons rfl (.refl _))), rfl⟩⟩

end Verif.Pool
