import Verif.Lemmas.Runs
import Mathlib.Algebra.Order.Ring.Rat
import Mathlib.Algebra.Field.Rat
import Mathlib.Tactic.NormNum

/-!
# Properties of schedules (C34, C35)
-/

namespace Verif.Sched
open Verif Verif.Text

variable {τ S : Type}

/-! ### C34 -/

/-- C34: running the scheduled tasks calls exactly the listed tasks that are due in the schedule of the
state given, in the order of the list, each on what the previous one returned. -/
theorem run_scheduled_tasks (schedule : S → Schedule τ) (s : S) (tasks : List (Str × (S → Outcome S)))
    (h : ∀ p ∈ tasks, ∃ t, (schedule s).get? p.1 = some t) :
    runScheduledTasks schedule s tasks =
      runAll ((tasks.filter fun p => decide (DueIn (schedule s) p.1)).map Prod.snd) s :=
  runLoop_known _ _ _ fun p hp => by
    obtain ⟨t, ht⟩ := h p hp
    exact SMap.get?_isSome.1 (by rw [ht]; rfl)

/-- C34: a name that is not in the schedule throws `std::out_of_range`, after the due tasks listed before
it have been run. -/
theorem run_scheduled_unknown (schedule : S → Schedule τ) (s : S) (pre post : List (Str × (S → Outcome S)))
    (name : Str) (f : S → Outcome S) (h : ∀ p ∈ pre, ∃ t, (schedule s).get? p.1 = some t)
    (hn : (schedule s).get? name = none) (s' : S)
    (hs : runAll ((pre.filter fun p => decide (DueIn (schedule s) p.1)).map Prod.snd) s = .ok s') :
    runScheduledTasks schedule s (pre ++ (name, f) :: post) = .throws .outOfRange := by
  have h1 : runLoop (schedule s) pre s = .ok s' := by
    rw [← hs]; exact run_scheduled_tasks schedule s pre h
  rw [runScheduledTasks, runLoop_append, h1, Outcome.bind_ok]
  simp [runLoop, Schedule.isDue, at_none hn]

/-- C34: marking a task as due sets its flag and advances the time it was last performed; no other task
changes, and no other data of it. -/
theorem mark_as_due [Add τ] (s : Schedule τ) (name : Str) (x : τ) :
    (∀ t, s.get? name = some t → ∃ s', s.markAsDue name x = .ok s' ∧
      s'.get? name = some ⟨t.name, t.num, t.last + x, true⟩ ∧
      ∀ k ≠ name, s'.get? k = s.get? k) ∧
    (s.get? name = none → s.markAsDue name x = .throws .outOfRange) := by
  constructor
  · intro t ht
    refine ⟨_, markAsDue_ok.2 ⟨t, ht, rfl⟩, ?_, ?_⟩
    · rw [SMap.get?_set, if_pos rfl]
    · intro k hk; rw [SMap.get?_set, if_neg fun e => hk e.symm]
  · intro h; simp [Schedule.markAsDue, at_none h]

/-- C34: marking a task as completed clears its flag and counts it; nothing else changes. -/
theorem mark_as_completed (s : Schedule τ) (name : Str) :
    (∀ t, s.get? name = some t → ∃ s', s.markAsCompleted name = .ok s' ∧
      s'.get? name = some ⟨t.name, t.num + 1, t.last, false⟩ ∧
      ∀ k ≠ name, s'.get? k = s.get? k) ∧
    (s.get? name = none → s.markAsCompleted name = .throws .outOfRange) := by
  constructor
  · intro t ht
    refine ⟨_, completed_ok.2 ⟨t, ht, rfl⟩, ?_, ?_⟩
    · rw [SMap.get?_set, if_pos rfl]; rfl
    · intro k hk; rw [SMap.get?_set, if_neg fun e => hk e.symm]
  · intro h; simp [Schedule.markAsCompleted, at_none h]

/-- C34: creating a task makes it known, not due and never performed; nothing else changes. -/
theorem create_task [Zero τ] (s : Schedule τ) (name : Str) :
    (s.create name).get? name = some ⟨name, 0, 0, false⟩ ∧
    ∀ k ≠ name, (s.create name).get? k = s.get? k := by
  constructor
  · rw [Schedule.create, SMap.get?_set, if_pos rfl]
  · intro k hk; rw [Schedule.create, SMap.get?_set, if_neg fun e => hk e.symm]

/-- A schedule with a task that is due and one that is not; the state is the schedule and a log. -/
def exSchedule : Schedule ℚ :=
  [("a".toList, ⟨"a".toList, 3, 1, true⟩), ("b".toList, ⟨"b".toList, 0, 0, false⟩),
   ("c".toList, ⟨"c".toList, 0, 0, true⟩)]

example : runScheduledTasks (S := Schedule ℚ × List Nat) Prod.fst (exSchedule, [])
    [("c".toList, fun s => .ok ([], s.2 ++ [1])), ("b".toList, fun s => .ok (s.1, s.2 ++ [2])),
     ("a".toList, fun s => .ok (s.1, s.2 ++ [3])), ("c".toList, fun s => .ok (s.1, s.2 ++ [4]))] =
    .ok ([], [1, 3, 4]) := by
  rw [run_scheduled_tasks]
  · rfl
  · intro p hp
    simp only [List.mem_cons, List.not_mem_nil, or_false] at hp
    rcases hp with rfl | rfl | rfl | rfl <;> exact ⟨_, rfl⟩

end Verif.Sched

namespace Verif.Runs
open Verif Verif.Text Verif.Config Verif.Sched

variable {σ τ μ D : Type}

/-! ### C35 -/

/-- The number of times that a task has been performed. -/
def performed (s : Schedule τ) (name : Str) : Nat := (s.get? name).elim 0 (·.num)

/-- The record of a task of the binary program over the rounds of a new run, with any arithmetic in which `0 + 0` is `0`. -/
theorem binary_rounds [Zero τ] [Add τ] [Sub τ] [Mul τ] [LinearOrder τ] (h00 : (0 : τ) + 0 = 0) {e : Binary.Env σ τ μ D}
    {fresh : Config τ → Outcome σ} {fs : Str → Option (Checkpoint σ τ μ)} {cfg : Config τ}
    {s0 : Binary.State σ τ μ} {w : Nat → Binary.World σ τ μ D} {n : Nat}
    (hfresh : cfg.getString kRestart = .ok [])
    (h0 : Binary.createState fresh fs cfg = .ok s0) (h1 : Binary.runTasks e (s0, []) = .ok (w 0))
    (hb : ∀ i < n, Binary.body e (w i) = .ok (w (i + 1)))
    {name key : Str} (hk : (name, key) ∈ [(kCheckpoint, kCpi), (kDiagnostics, kDfi), (kRecord, kTsi)])
    {x : τ} (hx : cfg.getDouble key = .ok x) :
    ∃ t, Rounds (x * e.twoPi) (fun i => e.time (w i).1.solution) t n ∧
      ∀ i ≤ n, performed (w i).1.schedule name = (t i).num := by
  have hname : name ∈ [kDiagnostics, kRecord, kCheckpoint] := by
    simp only [List.mem_cons, Prod.mk.injEq, List.not_mem_nil, or_false] at hk ⊢
    rcases hk with ⟨rfl, _⟩ | ⟨rfl, _⟩ | ⟨rfl, _⟩ <;> simp
  -- the initial schedule
  obtain ⟨hcfg0, t0, ht0, hd0, hn0, hl0⟩ : s0.config = cfg ∧ ∃ t, s0.schedule.get? name = some t ∧
      t.due = true ∧ t.num = 0 ∧ t.last = 0 := by
    simp only [Binary.createState, hfresh, Outcome.bind_ok, List.isEmpty_nil, if_true,
      Outcome.bind_eq_ok, Outcome.ok.injEq] at h0
    obtain ⟨sol, _, sch, hsch, rfl⟩ := h0
    refine ⟨rfl, ?_⟩
    have : (Binary.createSchedule : Outcome (Schedule τ)) = .ok
        [(kCheckpoint, ⟨kCheckpoint, 0, 0 + 0, true⟩), (kDiagnostics, ⟨kDiagnostics, 0, 0 + 0, true⟩),
         (kRecord, ⟨kRecord, 0, 0 + 0, true⟩)] := by rfl
    rw [this] at hsch
    cases hsch
    simp only [List.mem_cons, List.not_mem_nil, or_false] at hname
    rcases hname with rfl | rfl | rfl
    · exact ⟨⟨kDiagnostics, 0, 0 + 0, true⟩, rfl, rfl, rfl, h00⟩
    · exact ⟨⟨kRecord, 0, 0 + 0, true⟩, rfl, rfl, rfl, h00⟩
    · exact ⟨⟨kCheckpoint, 0, 0 + 0, true⟩, rfl, rfl, rfl, h00⟩
  -- records and configuration along the run
  have hall : ∀ i ≤ n, (w i).1.config = cfg ∧ ∃ t, (w i).1.schedule.get? name = some t := by
    intro i hi
    induction i with
    | zero =>
      obtain ⟨_, _, _, _, _, _, _, _, hc, _⟩ := Binary.runTasks_ok h1
      obtain ⟨t, _, ht⟩ := Binary.runTasks_get? h1 hname
      exact ⟨by rw [hc]; exact hcfg0, _, ht⟩
    | succ i ih =>
      obtain ⟨hc, _⟩ := ih (by omega)
      have := hb i (by omega)
      simp only [Binary.body, Outcome.bind_eq_ok] at this
      obtain ⟨s', hs', hr⟩ := this
      obtain ⟨_, _, _, _, _, _, _, _, hc', _⟩ := Binary.runTasks_ok hr
      obtain ⟨t, _, ht⟩ := Binary.runTasks_get? hr hname
      exact ⟨by rw [hc']; show s'.config = cfg; rw [(Binary.nextState_ok hs').1, hc], _, ht⟩
  let t : Nat → TaskRec τ := fun i => ((w i).1.schedule.get? name).getD ⟨[], 0, 0, false⟩
  have ht : ∀ i ≤ n, (w i).1.schedule.get? name = some (t i) := by
    intro i hi
    obtain ⟨_, a, ha⟩ := hall i hi
    show _ = some (Option.getD _ _)
    rw [ha]; rfl
  refine ⟨t, ⟨?_, ?_⟩, ?_⟩
  · obtain ⟨a, ha, hb⟩ := Binary.runTasks_get? h1 hname
    have ha' : s0.schedule.get? name = some a := ha
    rw [ht0] at ha'; cases ha'
    rw [ht 0 (by omega)] at hb
    have : t 0 = fin t0 := Option.some.inj hb
    rw [this]
    refine ⟨fin_due _, ?_, ?_⟩
    · rw [fin_num, hn0, hd0]; rfl
    · rw [fin_last, hl0]
  · intro i hi
    have := hb i hi
    simp only [Binary.body, Outcome.bind_eq_ok] at this
    obtain ⟨s', hs', hr⟩ := this
    obtain ⟨a, ha, hb'⟩ := Binary.runTasks_get? hr hname
    obtain ⟨x', t', hx', ht', hs⟩ := (Binary.nextState_ok hs').2.2.2.2 (name, key) hk
    have e1 : x' = x := by
      rw [(hall i (by omega)).1] at hx'
      have := hx'.symm.trans hx; exact Outcome.ok.inj this
    subst e1
    have e2 : t' = t i := by
      have : (w i).1.schedule.get? name = some t' := ht'
      rw [ht i (by omega)] at this; exact (Option.some.inj this).symm
    subst e2
    have e3 := ha.symm.trans hs
    have e3 := Option.some.inj e3
    rw [ht (i + 1) (by omega)] at hb'
    have e4 : t (i + 1) = fin a := Option.some.inj hb'
    rw [e4, e3]
  · intro i hi
    simp [performed, ht i hi]

/-- C35 for the binary program.  After the first tasks and `i + 1` iterations of the loop, a task whose
interval is `d` has been performed once, plus once for every whole interval elapsed at the time the
iteration began, provided that no time step is longer than the interval. -/
theorem binary_cadence [Field τ] [LinearOrder τ] [IsStrictOrderedRing τ] {e : Binary.Env σ τ μ D}
    {fresh : Config τ → Outcome σ} {fs : Str → Option (Checkpoint σ τ μ)} {cfg : Config τ}
    {s0 : Binary.State σ τ μ} {w : Nat → Binary.World σ τ μ D} {n : Nat}
    (hfresh : cfg.getString kRestart = .ok [])
    (h0 : Binary.createState fresh fs cfg = .ok s0) (h1 : Binary.runTasks e (s0, []) = .ok (w 0))
    (hb : ∀ i < n, Binary.body e (w i) = .ok (w (i + 1)))
    {name key : Str} (hk : (name, key) ∈ [(kCheckpoint, kCpi), (kDiagnostics, kDfi), (kRecord, kTsi)])
    {x : τ} (hx : cfg.getDouble key = .ok x) (ht0 : 0 ≤ e.time (w 0).1.solution)
    (ht0' : e.time (w 0).1.solution < x * e.twoPi)
    (hT : ∀ i < n, e.time (w i).1.solution ≤ e.time (w (i + 1)).1.solution ∧
      e.time (w (i + 1)).1.solution ≤ e.time (w i).1.solution + x * e.twoPi)
    (i : Nat) (hi : i < n) :
    ∃ c : Nat, performed (w (i + 1)).1.schedule name = c + 1 ∧
      (c : τ) * (x * e.twoPi) ≤ e.time (w i).1.solution ∧
      e.time (w i).1.solution < ((c : τ) + 1) * (x * e.twoPi) := by
  obtain ⟨t, hr, hp⟩ := binary_rounds (add_zero 0) hfresh h0 h1 hb hk hx
  obtain ⟨c, h1, h2, h3⟩ := hr.exact ht0 ht0' hT hi
  exact ⟨c, by rw [hp (i + 1) hi]; exact h1, h2, h3⟩

/-- C35 for the binary program, with time steps of any length: an output is never early, there is at most
one of a kind in an iteration, and if `K` intervals had elapsed when iteration `i` began, then after `j`
further iterations either these have all been performed, or one in each of the iterations. -/
theorem binary_backlog [Field τ] [LinearOrder τ] [IsStrictOrderedRing τ] {e : Binary.Env σ τ μ D}
    {fresh : Config τ → Outcome σ} {fs : Str → Option (Checkpoint σ τ μ)} {cfg : Config τ}
    {s0 : Binary.State σ τ μ} {w : Nat → Binary.World σ τ μ D} {n : Nat}
    (hfresh : cfg.getString kRestart = .ok [])
    (h0 : Binary.createState fresh fs cfg = .ok s0) (h1 : Binary.runTasks e (s0, []) = .ok (w 0))
    (hb : ∀ i < n, Binary.body e (w i) = .ok (w (i + 1)))
    {name key : Str} (hk : (name, key) ∈ [(kCheckpoint, kCpi), (kDiagnostics, kDfi), (kRecord, kTsi)])
    {x : τ} (hx : cfg.getDouble key = .ok x) (ht0 : 0 ≤ e.time (w 0).1.solution)
    (hd : 0 < x * e.twoPi)
    (hT : ∀ i < n, e.time (w i).1.solution ≤ e.time (w (i + 1)).1.solution) :
    (∀ i < n, ∃ c : Nat, performed (w (i + 1)).1.schedule name = c + 1 ∧
      (c : τ) * (x * e.twoPi) ≤ e.time (w i).1.solution ∧
      performed (w (i + 1)).1.schedule name ≤ performed (w i).1.schedule name + 1) ∧
    (∀ i j, i + j < n → ∀ K : Nat, (K : τ) * (x * e.twoPi) ≤ e.time (w i).1.solution →
      min (K + 1) (performed (w i).1.schedule name + j + 1) ≤ performed (w (i + j + 1)).1.schedule name) := by
  obtain ⟨t, hr, hp⟩ := binary_rounds (add_zero 0) hfresh h0 h1 hb hk hx
  obtain ⟨b1, b2⟩ := hr.bounds hd ht0 hT
  constructor
  · intro i hi
    rw [hp (i + 1) hi, hp i (by omega)]; exact b1 i hi
  · intro i j hj K hK
    rw [hp i (by omega), hp (i + j + 1) (by omega)]; exact b2 i j hj K hK

/-- The same for the other programs. -/
theorem app_rounds [Zero τ] [Add τ] [Sub τ] [LinearOrder τ] (h00 : (0 : τ) + 0 = 0) {e : App.Env σ τ D}
    {k : App.Kind} {fresh : Config τ → Outcome σ} {fs : Str → Option (Checkpoint σ τ Unit)} {cfg : Config τ}
    {s0 : App.State σ τ} {w : Nat → App.World σ τ D} {n : Nat}
    (hfresh : cfg.getString kRestart = .ok [])
    (h0 : App.createState k fresh fs cfg = .ok s0) (h1 : App.runTasks e k (s0, []) = .ok (w 0))
    (hb : ∀ i < n, App.body e k (w i) = .ok (w (i + 1)))
    {name key : Str} (hk : (name, key) ∈ App.cadences k) {x : τ} (hx : cfg.getDouble key = .ok x) :
    ∃ t, Rounds x (fun i => e.time (w i).1.solution) t n ∧
      ∀ i ≤ n, performed (w i).1.schedule name = (t i).num := by
  obtain ⟨hcfg0, t0, ht0, hd0, hn0, hl0⟩ : s0.config = cfg ∧ ∃ t, s0.schedule.get? name = some t ∧
      t.due = true ∧ t.num = 0 ∧ t.last = 0 := by
    simp only [App.createState, hfresh, Outcome.bind_ok, List.isEmpty_nil, if_true,
      Outcome.bind_eq_ok, Outcome.ok.injEq] at h0
    obtain ⟨sol, _, sch, hsch, rfl⟩ := h0
    refine ⟨rfl, ?_⟩
    cases k
    · have : (App.newSchedule .boilerplate : Outcome (Schedule τ)) = .ok
        [(kCheckpoint, ⟨kCheckpoint, 0, 0 + 0, true⟩)] := by rfl
      rw [this] at hsch
      cases hsch
      simp only [App.cadences, List.mem_cons, Prod.mk.injEq, List.not_mem_nil, or_false] at hk
      obtain ⟨rfl, _⟩ := hk
      exact ⟨⟨kCheckpoint, 0, 0 + 0, true⟩, rfl, rfl, rfl, h00⟩
    · have : (App.newSchedule .sedov : Outcome (Schedule τ)) = .ok
        [(kCheckpoint, ⟨kCheckpoint, 0, 0 + 0, true⟩), (kDiagnostics, ⟨kDiagnostics, 0, 0 + 0, true⟩),
         (kSeries, ⟨kSeries, 0, 0 + 0, true⟩)] := by rfl
      rw [this] at hsch
      cases hsch
      simp only [App.cadences, List.mem_cons, Prod.mk.injEq, List.not_mem_nil, or_false] at hk
      rcases hk with ⟨rfl, _⟩ | ⟨rfl, _⟩ | ⟨rfl, _⟩
      · exact ⟨⟨kCheckpoint, 0, 0 + 0, true⟩, rfl, rfl, rfl, h00⟩
      · exact ⟨⟨kDiagnostics, 0, 0 + 0, true⟩, rfl, rfl, rfl, h00⟩
      · exact ⟨⟨kSeries, 0, 0 + 0, true⟩, rfl, rfl, rfl, h00⟩
    · have : (App.newSchedule .cloud : Outcome (Schedule τ)) = .ok
        [(kCheckpoint, ⟨kCheckpoint, 0, 0 + 0, true⟩), (kDiagnostics, ⟨kDiagnostics, 0, 0 + 0, true⟩),
         (kSeries, ⟨kSeries, 0, 0 + 0, true⟩)] := by rfl
      rw [this] at hsch
      cases hsch
      simp only [App.cadences, List.mem_cons, Prod.mk.injEq, List.not_mem_nil, or_false] at hk
      rcases hk with ⟨rfl, _⟩ | ⟨rfl, _⟩ | ⟨rfl, _⟩
      · exact ⟨⟨kCheckpoint, 0, 0 + 0, true⟩, rfl, rfl, rfl, h00⟩
      · exact ⟨⟨kDiagnostics, 0, 0 + 0, true⟩, rfl, rfl, rfl, h00⟩
      · exact ⟨⟨kSeries, 0, 0 + 0, true⟩, rfl, rfl, rfl, h00⟩
  have hall : ∀ i ≤ n, (w i).1.config = cfg ∧ ∃ t, (w i).1.schedule.get? name = some t := by
    intro i hi
    induction i with
    | zero =>
      obtain ⟨_, hc, _, hs⟩ := App.runTasks_ok h1
      obtain ⟨t, _, ht⟩ := hs (name, key) hk
      exact ⟨by rw [hc]; exact hcfg0, _, ht⟩
    | succ i ih =>
      obtain ⟨hc, _⟩ := ih (by omega)
      have := hb i (by omega)
      simp only [App.body, Outcome.bind_eq_ok] at this
      obtain ⟨s', hs', hr⟩ := this
      obtain ⟨_, hc', _, hs⟩ := App.runTasks_ok hr
      obtain ⟨t, _, ht⟩ := hs (name, key) hk
      exact ⟨by rw [hc']; show s'.config = cfg; rw [(App.next_ok hs').1, hc], _, ht⟩
  let t : Nat → TaskRec τ := fun i => ((w i).1.schedule.get? name).getD ⟨[], 0, 0, false⟩
  have ht : ∀ i ≤ n, (w i).1.schedule.get? name = some (t i) := by
    intro i hi
    obtain ⟨_, a, ha⟩ := hall i hi
    show _ = some (Option.getD _ _)
    rw [ha]; rfl
  refine ⟨t, ⟨?_, ?_⟩, ?_⟩
  · obtain ⟨a, ha, hb⟩ := (App.runTasks_ok h1).2.2.2 (name, key) hk
    have ha' : s0.schedule.get? name = some a := ha
    rw [ht0] at ha'; cases ha'
    have hb' : (w 0).1.schedule.get? name = some (fin t0) := hb
    rw [ht 0 (by omega)] at hb'
    have : t 0 = fin t0 := Option.some.inj hb'
    rw [this]
    refine ⟨fin_due _, ?_, ?_⟩
    · rw [fin_num, hn0, hd0]; rfl
    · rw [fin_last, hl0]
  · intro i hi
    have := hb i hi
    simp only [App.body, Outcome.bind_eq_ok] at this
    obtain ⟨s', hs', hr⟩ := this
    obtain ⟨a, ha, hb'⟩ := (App.runTasks_ok hr).2.2.2 (name, key) hk
    obtain ⟨x', t', hx', ht', hs⟩ := (App.next_ok hs').2.2.2 (name, key) hk
    have e1 : x' = x := by
      rw [(hall i (by omega)).1] at hx'
      have := hx'.symm.trans hx; exact Outcome.ok.inj this
    subst e1
    have e2 : t' = t i := by
      have : (w i).1.schedule.get? name = some t' := ht'
      rw [ht i (by omega)] at this; exact (Option.some.inj this).symm
    subst e2
    have e3 := Option.some.inj (ha.symm.trans hs)
    have hb'' : (w (i + 1)).1.schedule.get? name = some (fin a) := hb'
    rw [ht (i + 1) (by omega)] at hb''
    have e4 : t (i + 1) = fin a := Option.some.inj hb''
    rw [e4, e3]
  · intro i hi
    simp [performed, ht i hi]

/-- C35 for the boilerplate, sedov and cloud programs. -/
theorem app_cadence [Field τ] [LinearOrder τ] [IsStrictOrderedRing τ] {e : App.Env σ τ D}
    {k : App.Kind} {fresh : Config τ → Outcome σ} {fs : Str → Option (Checkpoint σ τ Unit)} {cfg : Config τ}
    {s0 : App.State σ τ} {w : Nat → App.World σ τ D} {n : Nat}
    (hfresh : cfg.getString kRestart = .ok [])
    (h0 : App.createState k fresh fs cfg = .ok s0) (h1 : App.runTasks e k (s0, []) = .ok (w 0))
    (hb : ∀ i < n, App.body e k (w i) = .ok (w (i + 1)))
    {name key : Str} (hk : (name, key) ∈ App.cadences k) {x : τ} (hx : cfg.getDouble key = .ok x)
    (ht0 : 0 ≤ e.time (w 0).1.solution) (ht0' : e.time (w 0).1.solution < x)
    (hT : ∀ i < n, e.time (w i).1.solution ≤ e.time (w (i + 1)).1.solution ∧
      e.time (w (i + 1)).1.solution ≤ e.time (w i).1.solution + x)
    (i : Nat) (hi : i < n) :
    ∃ c : Nat, performed (w (i + 1)).1.schedule name = c + 1 ∧
      (c : τ) * x ≤ e.time (w i).1.solution ∧ e.time (w i).1.solution < ((c : τ) + 1) * x := by
  obtain ⟨t, hr, hp⟩ := app_rounds (add_zero 0) hfresh h0 h1 hb hk hx
  obtain ⟨c, h1, h2, h3⟩ := hr.exact ht0 ht0' hT hi
  exact ⟨c, by rw [hp (i + 1) hi]; exact h1, h2, h3⟩

/-- C35 for the boilerplate, sedov and cloud programs, with time steps of any length. -/
theorem app_backlog [Field τ] [LinearOrder τ] [IsStrictOrderedRing τ] {e : App.Env σ τ D}
    {k : App.Kind} {fresh : Config τ → Outcome σ} {fs : Str → Option (Checkpoint σ τ Unit)} {cfg : Config τ}
    {s0 : App.State σ τ} {w : Nat → App.World σ τ D} {n : Nat}
    (hfresh : cfg.getString kRestart = .ok [])
    (h0 : App.createState k fresh fs cfg = .ok s0) (h1 : App.runTasks e k (s0, []) = .ok (w 0))
    (hb : ∀ i < n, App.body e k (w i) = .ok (w (i + 1)))
    {name key : Str} (hk : (name, key) ∈ App.cadences k) {x : τ} (hx : cfg.getDouble key = .ok x)
    (ht0 : 0 ≤ e.time (w 0).1.solution) (hd : 0 < x)
    (hT : ∀ i < n, e.time (w i).1.solution ≤ e.time (w (i + 1)).1.solution) :
    (∀ i < n, ∃ c : Nat, performed (w (i + 1)).1.schedule name = c + 1 ∧
      (c : τ) * x ≤ e.time (w i).1.solution ∧
      performed (w (i + 1)).1.schedule name ≤ performed (w i).1.schedule name + 1) ∧
    (∀ i j, i + j < n → ∀ K : Nat, (K : τ) * x ≤ e.time (w i).1.solution →
      min (K + 1) (performed (w i).1.schedule name + j + 1) ≤ performed (w (i + j + 1)).1.schedule name) := by
  obtain ⟨t, hr, hp⟩ := app_rounds (add_zero 0) hfresh h0 h1 hb hk hx
  obtain ⟨b1, b2⟩ := hr.bounds hd ht0 hT
  constructor
  · intro i hi
    rw [hp (i + 1) hi, hp i (by omega)]; exact b1 i hi
  · intro i j hj K hK
    rw [hp i (by omega), hp (i + j + 1) (by omega)]; exact b2 i j hj K hK

/-! A run that meets the hypotheses: times 0, 1, 2, ... and a checkpoint every two and a half. -/

def exConfig : Config ℚ :=
  Template.create [(kCpi, .dbl (5 / 2)), (kDfi, .dbl 1), (kTsi, .dbl 7), (kOutdir, .str ".".toList),
    (kRestart, .str []), (kTfinal, .dbl 4)]

def exBinary : Binary.Env ℚ ℚ ℚ ℚ where
  advance _ s := .ok (s + 1)
  time s := s
  sample _ s := .ok s
  diag _ s := .ok s
  twoPi := 1

/-- The worlds of the run. -/
def exRun : Nat → Outcome (Binary.World ℚ ℚ ℚ ℚ)
  | 0 => (Binary.createState (fun _ => .ok 0) (fun _ => none) exConfig).bind fun s =>
      Binary.runTasks exBinary (s, [])
  | i + 1 => (exRun i).bind (Binary.body exBinary)

/-- The checkpoints, with the time of their solutions. -/
def exCheckpoints (o : Outcome (Binary.World ℚ ℚ ℚ ℚ)) : List (Str × ℚ) :=
  match o with
  | .ok w => w.2.filterMap fun f => match f.2 with
    | .checkpoint c => match openSolution c kSolution with
      | .ok s => some (f.1, s)
      | _ => none
    | _ => none
  | _ => []

example : exCheckpoints (exRun 7) = [("./chkpt.0000.h5".toList, 0), ("./chkpt.0001.h5".toList, 4),
    ("./chkpt.0002.h5".toList, 6)] := by decide +kernel

def exApp : App.Env ℚ ℚ ℚ where
  advance _ s := .ok (s + 1)
  time s := s
  diag s := s
  series s := s

/-- The worlds of the run of the cloud program. -/
def exAppRun (k : App.Kind) : Nat → Outcome (App.World ℚ ℚ ℚ)
  | 0 => (App.createState k (fun _ => .ok 0) (fun _ => none) exConfig).bind fun s =>
      App.runTasks exApp k (s, [])
  | i + 1 => (exAppRun k i).bind (App.body exApp k)

/-- How often two of the tasks have been performed. -/
def exCounts (o : Outcome (App.World ℚ ℚ ℚ)) : Nat × Nat :=
  match o with
  | .ok w => (performed w.1.schedule kCheckpoint, performed w.1.schedule kDiagnostics)
  | _ => (0, 0)

example : exCounts (exAppRun .sedov 7) = (3, 7) := by decide +kernel

/-- `mark_as_completed`, `mark_as_due`, `run_scheduled_unknown`. -/
example : ∃ s', exSchedule.markAsCompleted "a".toList = .ok s' ∧
    s'.get? "a".toList = some ⟨"a".toList, 4, 1, false⟩ ∧ ∀ k ≠ "a".toList, s'.get? k = exSchedule.get? k :=
  (mark_as_completed exSchedule "a".toList).1 ⟨"a".toList, 3, 1, true⟩ (by decide)
example : ∃ s', exSchedule.markAsDue "b".toList (3 / 2) = .ok s' ∧
    s'.get? "b".toList = some ⟨"b".toList, 0, 0 + 3 / 2, true⟩ ∧ ∀ k ≠ "b".toList, s'.get? k = exSchedule.get? k :=
  (mark_as_due exSchedule "b".toList (3 / 2)).1 ⟨"b".toList, 0, 0, false⟩ (by decide)
example : runScheduledTasks (S := Schedule ℚ × List Nat) Prod.fst (exSchedule, [])
    ([("a".toList, fun s => .ok (s.1, s.2 ++ [3]))] ++ ("x".toList, fun s => .ok s) :: []) = .throws .outOfRange :=
  run_scheduled_unknown _ _ _ _ _ _ (fun p hp => by
    simp only [List.mem_cons, List.not_mem_nil, or_false] at hp
    subst hp
    exact ⟨_, rfl⟩) (by decide) (exSchedule, [3]) rfl

/-- The worlds of the first run, as a sequence. -/
def exWorld (i : Nat) : Binary.World ℚ ℚ ℚ ℚ :=
  match exRun i with
  | .ok w => w
  | _ => (⟨0, [], [], exConfig⟩, [])

theorem exWorld_ok (i : Nat) (hi : i < 5) : exRun i = .ok (exWorld i) := by
  have h : ∀ i < 5, (match exRun i with | .ok _ => true | _ => false) = true := by decide +kernel
  have := h i hi
  unfold exWorld
  split at this
  · next w hw => rw [hw]
  · cases this

/-- `binary_cadence` and `binary_backlog` for four steps of the first run. -/
theorem exWorld_run : ∃ s0, Binary.createState (fun _ => .ok 0) (fun _ => none) exConfig = .ok s0 ∧
    Binary.runTasks exBinary (s0, []) = .ok (exWorld 0) ∧
    ∀ i < 4, Binary.body exBinary (exWorld i) = .ok (exWorld (i + 1)) := by
  have h0 := exWorld_ok 0 (by decide)
  unfold exRun at h0
  obtain ⟨s0, h1, h2⟩ := Outcome.bind_eq_ok.1 h0
  refine ⟨s0, h1, h2, fun i hi => ?_⟩
  have h3 := exWorld_ok (i + 1) (by omega)
  unfold exRun at h3
  rwa [exWorld_ok i (by omega)] at h3

theorem exWorld_times : ∀ i < 5, (exWorld i).1.solution = i := by decide +kernel

example (i : Nat) (hi : i < 4) : ∃ c : Nat, performed (exWorld (i + 1)).1.schedule kCheckpoint = c + 1 ∧
    (c : ℚ) * (5 / 2 * 1) ≤ (exWorld i).1.solution ∧ (exWorld i).1.solution < ((c : ℚ) + 1) * (5 / 2 * 1) := by
  obtain ⟨s0, h0, h1, hb⟩ := exWorld_run
  refine binary_cadence (e := exBinary) (x := 5 / 2) (n := 4) (by decide) h0 h1 hb (key := kCpi) (by simp) rfl
    (le_of_eq (exWorld_times 0 (by decide)).symm) ?_ ?_ i hi
  · rw [show exBinary.time (exWorld 0).1.solution = (0 : ℚ) from exWorld_times 0 (by decide)]
    norm_num [exBinary]
  · intro j hj
    rw [show exBinary.time (exWorld j).1.solution = (j : ℚ) from exWorld_times j (by omega),
      show exBinary.time (exWorld (j + 1)).1.solution = ((j + 1 : Nat) : ℚ) from exWorld_times (j + 1) (by omega)]
    push_cast
    constructor <;> norm_num [exBinary]

example (i j : Nat) (hij : i + j < 4) (K : Nat) (hK : (K : ℚ) * (5 / 2 * 1) ≤ (exWorld i).1.solution) :
    min (K + 1) (performed (exWorld i).1.schedule kCheckpoint + j + 1) ≤
      performed (exWorld (i + j + 1)).1.schedule kCheckpoint := by
  obtain ⟨s0, h0, h1, hb⟩ := exWorld_run
  refine (binary_backlog (e := exBinary) (x := 5 / 2) (n := 4) (by decide) h0 h1 hb (key := kCpi) (by simp) rfl
    (le_of_eq (exWorld_times 0 (by decide)).symm) (by norm_num [exBinary]) ?_).2 i j hij K hK
  intro j hj
  rw [show exBinary.time (exWorld j).1.solution = (j : ℚ) from exWorld_times j (by omega),
    show exBinary.time (exWorld (j + 1)).1.solution = ((j + 1 : Nat) : ℚ) from exWorld_times (j + 1) (by omega)]
  push_cast
  norm_num

/-- The worlds of the second run, as a sequence. -/
def exAppWorld (i : Nat) : App.World ℚ ℚ ℚ :=
  match exAppRun .cloud i with
  | .ok w => w
  | _ => (⟨0, [], exConfig⟩, [])

theorem exAppWorld_ok (i : Nat) (hi : i < 5) : exAppRun .cloud i = .ok (exAppWorld i) := by
  have h : ∀ i < 5, (match exAppRun .cloud i with | .ok _ => true | _ => false) = true := by decide +kernel
  have := h i hi
  unfold exAppWorld
  split at this
  · next w hw => rw [hw]
  · cases this

theorem exAppWorld_times : ∀ i < 5, (exAppWorld i).1.solution = i := by decide +kernel

/-- `app_cadence` for four steps of the second run. -/
example (i : Nat) (hi : i < 4) : ∃ c : Nat, performed (exAppWorld (i + 1)).1.schedule kCheckpoint = c + 1 ∧
    (c : ℚ) * (5 / 2) ≤ (exAppWorld i).1.solution ∧ (exAppWorld i).1.solution < ((c : ℚ) + 1) * (5 / 2) := by
  have h0 := exAppWorld_ok 0 (by decide)
  unfold exAppRun at h0
  obtain ⟨s0, h1, h2⟩ := Outcome.bind_eq_ok.1 h0
  refine app_cadence (e := exApp) (k := .cloud) (x := 5 / 2) (n := 4) (by decide) h1 h2 ?_ (key := kCpi) (by decide)
    rfl (le_of_eq (exAppWorld_times 0 (by decide)).symm) ?_ ?_ i hi
  · intro j hj
    have h3 := exAppWorld_ok (j + 1) (by omega)
    unfold exAppRun at h3
    rwa [exAppWorld_ok j (by omega)] at h3
  · rw [show exApp.time (exAppWorld 0).1.solution = (0 : ℚ) from exAppWorld_times 0 (by decide)]
    norm_num
  · intro j hj
    rw [show exApp.time (exAppWorld j).1.solution = (j : ℚ) from exAppWorld_times j (by omega),
      show exApp.time (exAppWorld (j + 1)).1.solution = ((j + 1 : Nat) : ℚ) from exAppWorld_times (j + 1) (by omega)]
    push_cast
    constructor <;> norm_num

end Verif.Runs
