import Verif.Model.Runs
import Verif.Lemmas.Schedule
import Verif.Lemmas.Config

/-! Lemmas on runs of the programs. -/

namespace Verif.Runs
open Verif Verif.Text Verif.Config Verif.Sched

variable {σ τ μ D : Type}

/-- A task after a round of `run_tasks`. -/
def fin (t : TaskRec τ) : TaskRec τ := if t.due then t.done else t

theorem fin_due (t : TaskRec τ) : (fin t).due = false := by
  unfold fin; split
  · rfl
  · rename_i h; simpa using h

theorem fin_last (t : TaskRec τ) : (fin t).last = t.last := by unfold fin; split <;> rfl
theorem fin_name (t : TaskRec τ) : (fin t).name = t.name := by unfold fin; split <;> rfl
theorem fin_num (t : TaskRec τ) : (fin t).num = t.num + if t.due then 1 else 0 := by
  unfold fin; split <;> rfl
theorem fin_of_not_due {t : TaskRec τ} (h : t.due = false) : fin t = t := by simp [fin, h]

theorem names_ne : kDiagnostics ≠ kRecord ∧ kDiagnostics ≠ kCheckpoint ∧ kRecord ≠ kCheckpoint ∧
    kSeries ≠ kCheckpoint ∧ kSeries ≠ kDiagnostics := by decide

namespace Binary

theorem complete_ok {s s' : State σ τ μ} {name : Str} :
    complete s name = .ok s' ↔
      ∃ t, s.schedule.get? name = some t ∧ s' = { s with schedule := s.schedule.set name t.done } := by
  simp only [complete, Outcome.map_eq_ok, completed_ok]
  constructor
  · rintro ⟨_, ⟨t, ht, rfl⟩, rfl⟩; exact ⟨t, ht, rfl⟩
  · rintro ⟨t, ht, rfl⟩; exact ⟨_, ⟨t, ht, rfl⟩, rfl⟩

/-- Path of the checkpoint with a number. -/
def chkptPath (outdir : Str) (n : Nat) : Str :=
  Path.join [outdir, Path.numbered "chkpt".toList n "h5".toList]

/-- Path of the diagnostics file with a number. -/
def diagPath (outdir : Str) (n : Nat) : Str :=
  Path.join [outdir, Path.numbered "diagnostics".toList n "h5".toList]

theorem diagnostics_ok {e : Env σ τ μ D} {w w' : World σ τ μ D} (h : writeDiagnostics e w = .ok w') :
    ∃ t outdir d, w.1.schedule.get? kDiagnostics = some t ∧ w.1.config.getString kOutdir = .ok outdir ∧
      e.diag w.1.config w.1.solution = .ok d ∧
      w' = ({ w.1 with schedule := w.1.schedule.set kDiagnostics t.done },
        w.2 ++ [(diagPath outdir t.num, .diagnostics d (writeConfig w.1.config))]) := by
  simp only [writeDiagnostics, Outcome.bind_eq_ok, num_ok, complete_ok, Outcome.ok.injEq] at h
  obtain ⟨outdir, h1, n, ⟨t, ht, rfl⟩, d, hd, s', ⟨t', ht', rfl⟩, rfl⟩ := h
  rw [ht] at ht'; cases ht'
  exact ⟨t, outdir, d, ht, h1, hd, rfl⟩

theorem record_ok {e : Env σ τ μ D} {w w' : World σ τ μ D} (h : recordTimeSeries e w = .ok w') :
    ∃ t x, w.1.schedule.get? kRecord = some t ∧ e.sample w.1.config w.1.solution = .ok x ∧
      w' = ({ w.1 with schedule := w.1.schedule.set kRecord t.done, series := x :: w.1.series }, w.2) := by
  simp only [recordTimeSeries, Outcome.bind_eq_ok, Outcome.map_eq_ok, complete_ok] at h
  obtain ⟨x, hx, s', ⟨t, ht, rfl⟩, rfl⟩ := h
  exact ⟨t, x, ht, hx, rfl⟩

theorem checkpoint_ok {w w' : World σ τ μ D} (h : writeCheckpoint w = .ok w') :
    ∃ t outdir, w.1.schedule.get? kCheckpoint = some t ∧ w.1.config.getString kOutdir = .ok outdir ∧
      w'.1 = { w.1 with schedule := w.1.schedule.set kCheckpoint t.done } ∧
      w'.2 = w.2 ++ [(chkptPath outdir t.num, .checkpoint (writeState w'.1))] := by
  simp only [writeCheckpoint, Outcome.bind_eq_ok, num_ok, complete_ok, Outcome.ok.injEq] at h
  obtain ⟨outdir, h1, n, ⟨t, ht, rfl⟩, s', ⟨t', ht', rfl⟩, rfl⟩ := h
  rw [ht] at ht'; cases ht'
  exact ⟨t, outdir, ht, h1, rfl, rfl⟩

/-- What a round of tasks does. -/
theorem runTasks_ok {e : Env σ τ μ D} {w w' : World σ τ μ D} (h : runTasks e w = .ok w') :
    ∃ tD tR tC, w.1.schedule.get? kDiagnostics = some tD ∧ w.1.schedule.get? kRecord = some tR ∧
      w.1.schedule.get? kCheckpoint = some tC ∧
      w'.1.schedule = ((w.1.schedule.set kDiagnostics (fin tD)).set kRecord (fin tR)).set kCheckpoint (fin tC) ∧
      w'.1.solution = w.1.solution ∧ w'.1.config = w.1.config ∧
      (∃ xs, w'.1.series = xs ++ w.1.series ∧ xs.length = (if tR.due then 1 else 0) ∧
        ∀ x ∈ xs, e.sample w.1.config w.1.solution = .ok x) ∧
      ∃ Nd Nc, w'.2 = w.2 ++ (Nd ++ Nc) ∧
        (if tD.due then ∃ outdir d, w.1.config.getString kOutdir = .ok outdir ∧
            e.diag w.1.config w.1.solution = .ok d ∧
            Nd = [(diagPath outdir tD.num, .diagnostics d (writeConfig w.1.config))]
          else Nd = []) ∧
        (if tC.due then ∃ outdir, w.1.config.getString kOutdir = .ok outdir ∧
            Nc = [(chkptPath outdir tC.num, .checkpoint (writeState w'.1))]
          else Nc = []) := by
  obtain ⟨n1, n2, n3, _, _⟩ := names_ne
  simp only [runTasks, runScheduledTasks, runLoop, Outcome.bind_eq_ok] at h
  obtain ⟨dD, hD, h⟩ := h
  obtain ⟨tD, gD, rfl⟩ := isDue_ok.1 hD
  -- after the diagnostics
  obtain ⟨w1, e1, h⟩ : ∃ w1 : World σ τ μ D,
      (w1.1 = { w.1 with schedule := w.1.schedule.set kDiagnostics (fin tD) } ∧
       ∃ Nd, w1.2 = w.2 ++ Nd ∧ if tD.due then ∃ outdir d, w.1.config.getString kOutdir = .ok outdir ∧
            e.diag w.1.config w.1.solution = .ok d ∧
            Nd = [(diagPath outdir tD.num, .diagnostics d (writeConfig w.1.config))]
          else Nd = []) ∧
      runLoop w.1.schedule [(kRecord, recordTimeSeries e), (kCheckpoint, writeCheckpoint)] w1 = .ok w' := by
    by_cases hb : tD.due = true
    · rw [if_pos hb] at h
      obtain ⟨w1, h1, h⟩ := Outcome.bind_eq_ok.1 h
      obtain ⟨t, outdir, d, ht, ho, hd, rfl⟩ := diagnostics_ok h1
      rw [gD] at ht; cases ht
      refine ⟨_, ⟨?_, _, rfl, ?_⟩, h⟩
      · simp [fin, hb]
      · rw [if_pos hb]; exact ⟨outdir, d, ho, hd, rfl⟩
    · rw [if_neg hb] at h
      refine ⟨w, ⟨?_, [], by simp, by rw [if_neg hb]⟩, h⟩
      have : fin tD = tD := by simp [fin, hb]
      rw [this, SMap.set_self gD]
  obtain ⟨e1a, Nd, e1b, e1c⟩ := e1
  simp only [runLoop, Outcome.bind_eq_ok] at h
  obtain ⟨dR, hR, h⟩ := h
  obtain ⟨tR, gR, rfl⟩ := isDue_ok.1 hR
  have gR1 : w1.1.schedule.get? kRecord = some tR := by
    rw [e1a]; show (w.1.schedule.set kDiagnostics (fin tD)).get? kRecord = _
    rw [SMap.get?_set, if_neg n1, gR]
  obtain ⟨w2, ⟨xs, e2a, e2l, e2x⟩, e2b, h⟩ : ∃ w2 : World σ τ μ D,
      (∃ xs, w2.1 = { w1.1 with schedule := w1.1.schedule.set kRecord (fin tR), series := xs ++ w1.1.series } ∧
        xs.length = (if tR.due then 1 else 0) ∧ ∀ x ∈ xs, e.sample w.1.config w.1.solution = .ok x) ∧
       w2.2 = w1.2 ∧
      runLoop w.1.schedule [(kCheckpoint, writeCheckpoint)] w2 = .ok w' := by
    by_cases hb : tR.due = true
    · rw [if_pos hb] at h
      obtain ⟨w2, h1, h⟩ := Outcome.bind_eq_ok.1 h
      obtain ⟨t, x, ht, hx, rfl⟩ := record_ok h1
      rw [gR1] at ht; cases ht
      refine ⟨({ w1.1 with schedule := w1.1.schedule.set kRecord tR.done, series := x :: w1.1.series }, w1.2),
        ⟨[x], ?_, by simp [hb], ?_⟩, rfl, h⟩
      · simp [fin, hb]
      · intro y hy
        rw [List.mem_singleton.1 hy, ← hx, e1a]
    · rw [if_neg hb] at h
      refine ⟨w1, ⟨[], ?_, by simp [hb], by simp⟩, rfl, h⟩
      have : fin tR = tR := by simp [fin, hb]
      rw [this, SMap.set_self gR1]; rfl
  simp only [runLoop, Outcome.bind_eq_ok] at h
  obtain ⟨dC, hC, h⟩ := h
  obtain ⟨tC, gC, rfl⟩ := isDue_ok.1 hC
  have gC2 : w2.1.schedule.get? kCheckpoint = some tC := by
    rw [e2a, e1a]
    show ((w.1.schedule.set kDiagnostics (fin tD)).set kRecord (fin tR)).get? kCheckpoint = _
    rw [SMap.get?_set, if_neg n3, SMap.get?_set, if_neg n2, gC]
  have hcfg : w2.1.config = w.1.config := by rw [e2a, e1a]
  obtain ⟨e3a, Nc, e3b, e3c⟩ :
      w'.1 = { w2.1 with schedule := w2.1.schedule.set kCheckpoint (fin tC) } ∧
      ∃ Nc, w'.2 = w2.2 ++ Nc ∧ if tC.due then ∃ outdir, w.1.config.getString kOutdir = .ok outdir ∧
            Nc = [(chkptPath outdir tC.num, .checkpoint (writeState w'.1))]
          else Nc = [] := by
    by_cases hb : tC.due = true
    · rw [if_pos hb] at h
      obtain ⟨w3, h1, h⟩ := Outcome.bind_eq_ok.1 h
      cases h
      obtain ⟨t, outdir, ht, ho, e3, e4⟩ := checkpoint_ok h1
      rw [gC2] at ht; cases ht
      refine ⟨by rw [e3]; simp [fin, hb], _, e4, ?_⟩
      rw [if_pos hb]; exact ⟨outdir, by rw [← hcfg]; exact ho, rfl⟩
    · rw [if_neg hb] at h
      cases h
      refine ⟨?_, [], by simp, by rw [if_neg hb]⟩
      have : fin tC = tC := by simp [fin, hb]
      rw [this, SMap.set_self gC2]
  refine ⟨tD, tR, tC, gD, gR, gC, ?_, ?_, ?_, ⟨xs, ?_, e2l, e2x⟩, Nd, Nc, ?_, e1c, e3c⟩
  · rw [e3a, e2a, e1a]
  · rw [e3a, e2a, e1a]
  · rw [e3a, e2a, e1a]
  · rw [e3a, e2a, e1a]
  · rw [e3b, e2b, e1b]; simp

/-- The schedule after a round, by name. -/
theorem runTasks_get? {e : Env σ τ μ D} {w w' : World σ τ μ D} (h : runTasks e w = .ok w') {k : Str}
    (hk : k ∈ [kDiagnostics, kRecord, kCheckpoint]) :
    ∃ t, w.1.schedule.get? k = some t ∧ w'.1.schedule.get? k = some (fin t) := by
  obtain ⟨n1, n2, n3, _, _⟩ := names_ne
  obtain ⟨tD, tR, tC, gD, gR, gC, hs, _⟩ := runTasks_ok h
  simp only [List.mem_cons, List.not_mem_nil, or_false] at hk
  rcases hk with rfl | rfl | rfl
  · refine ⟨tD, gD, ?_⟩
    rw [hs, SMap.get?_set, if_neg n2.symm, SMap.get?_set, if_neg n1.symm, SMap.get?_set, if_pos rfl]
  · refine ⟨tR, gR, ?_⟩
    rw [hs, SMap.get?_set, if_neg n3.symm, SMap.get?_set, if_pos rfl]
  · refine ⟨tC, gC, ?_⟩
    rw [hs, SMap.get?_set, if_pos rfl]

theorem runTasks_keys {e : Env σ τ μ D} {w w' : World σ τ μ D} (h : runTasks e w = .ok w') :
    w'.1.schedule.keys = w.1.schedule.keys := by
  obtain ⟨tD, tR, tC, gD, gR, gC, hs, _⟩ := runTasks_ok h
  have m : ∀ {k t}, w.1.schedule.get? k = some t → k ∈ w.1.schedule.keys :=
    fun h => SMap.get?_isSome.1 (by rw [h]; rfl)
  have a1 := SMap.keys_set_mem (fin tD) (m gD)
  have a2 := SMap.keys_set_mem (fin tR) (by rw [a1]; exact m gR)
  have a3 := SMap.keys_set_mem (fin tC) (by rw [a2, a1]; exact m gC)
  rw [hs, a3, a2, a1]

theorem nextState_ok [Add τ] [Sub τ] [Mul τ] [LinearOrder τ] {e : Env σ τ μ D} {s s' : State σ τ μ}
    (h : nextState e s = .ok s') :
    s'.config = s.config ∧ s'.series = s.series ∧ e.advance s.config s.solution = .ok s'.solution ∧
    s'.schedule.keys = s.schedule.keys ∧
    (∀ p ∈ [(kCheckpoint, kCpi), (kDiagnostics, kDfi), (kRecord, kTsi)],
      ∃ x t, s.config.getDouble p.2 = .ok x ∧ s.schedule.get? p.1 = some t ∧
        s'.schedule.get? p.1 = some (if e.time s.solution - t.last ≥ x * e.twoPi then
          { t with due := true, last := t.last + x * e.twoPi } else t)) := by
  obtain ⟨n1, n2, n3, _, _⟩ := names_ne
  simp only [nextState, nextSchedule, Outcome.bind_eq_ok, Outcome.ok.injEq] at h
  obtain ⟨sol, hsol, sch, ⟨cpi, h1, dfi, h2, tsi, h3, hm⟩, rfl⟩ := h
  obtain ⟨k1, k2, k3⟩ := markTasks_ok (by
    simp only [List.map_cons, List.map_nil]
    exact List.nodup_cons.2 ⟨by simp [n2.symm, n3.symm], List.nodup_cons.2 ⟨by simp [n1], by simp⟩⟩) hm
  refine ⟨rfl, rfl, hsol, k1, ?_⟩
  intro p hp
  simp only [List.mem_cons, List.not_mem_nil, or_false] at hp
  rcases hp with rfl | rfl | rfl
  · obtain ⟨t, ht, e⟩ := k2 (kCheckpoint, cpi * e.twoPi) (by simp)
    exact ⟨cpi, t, h1, ht, e⟩
  · obtain ⟨t, ht, e⟩ := k2 (kDiagnostics, dfi * e.twoPi) (by simp)
    exact ⟨dfi, t, h2, ht, e⟩
  · obtain ⟨t, ht, e⟩ := k2 (kRecord, tsi * e.twoPi) (by simp)
    exact ⟨tsi, t, h3, ht, e⟩

end Binary
end Verif.Runs

namespace Verif.Runs
open Verif Verif.Text Verif.Config Verif.Sched

variable {σ τ μ D : Type}

namespace App

theorem taskLoop_ok {s : State σ τ} {tasks : List (Str × (State σ τ → Outcome (Files σ τ Unit D)))}
    {w w' : World σ τ D} (hn : (tasks.map Prod.fst).Nodup)
    (hs : ∀ p ∈ tasks, w.1.schedule.get? p.1 = s.schedule.get? p.1)
    (h : taskLoop s tasks w = .ok w') :
    w'.1.solution = w.1.solution ∧ w'.1.config = w.1.config ∧ w'.1.schedule.keys = w.1.schedule.keys ∧
    (∀ p ∈ tasks, ∃ t, s.schedule.get? p.1 = some t ∧ w'.1.schedule.get? p.1 = some (fin t)) ∧
    (∀ k, k ∉ tasks.map Prod.fst → w'.1.schedule.get? k = w.1.schedule.get? k) := by
  induction tasks generalizing w with
  | nil => cases h; exact ⟨rfl, rfl, rfl, by simp, by simp⟩
  | cons p tasks ih =>
    obtain ⟨name, f⟩ := p
    have hn' := List.nodup_cons.1 hn
    have hne : ∀ p ∈ tasks, name ≠ p.1 := by
      rintro p hp rfl
      exact hn'.1 (List.mem_map.2 ⟨p, hp, rfl⟩)
    have hs0 : w.1.schedule.get? name = s.schedule.get? name := hs (name, f) List.mem_cons_self
    simp only [taskLoop, Outcome.bind_eq_ok] at h
    obtain ⟨d, hd, h⟩ := h
    obtain ⟨t, ht, rfl⟩ := isDue_ok.1 hd
    by_cases hb : t.due = true
    · rw [if_pos hb] at h
      simp only [Outcome.bind_eq_ok, completed_ok] at h
      obtain ⟨files, _, sch, ⟨t', ht', rfl⟩, h⟩ := h
      rw [hs0, ht] at ht'; cases ht'
      have hk : name ∈ w.1.schedule.keys := SMap.get?_isSome.1 (by rw [hs0, ht]; rfl)
      obtain ⟨i1, i2, i3, i4, i5⟩ := ih hn'.2 (fun p hp => by
        show (w.1.schedule.set name t.done).get? p.1 = _
        rw [SMap.get?_set, if_neg (hne p hp)]
        exact hs p (List.mem_cons_of_mem _ hp)) h
      refine ⟨i1, i2, ?_, ?_, ?_⟩
      · rw [i3]; exact SMap.keys_set_mem _ hk
      · intro p hp
        rcases List.mem_cons.1 hp with rfl | hp
        · refine ⟨t, ht, ?_⟩
          rw [i5 name hn'.1]
          show (w.1.schedule.set name t.done).get? name = _
          rw [SMap.get?_set, if_pos rfl]; simp [fin, hb]
        · exact i4 p hp
      · intro k hk'
        simp only [List.map_cons, List.mem_cons, not_or] at hk'
        rw [i5 k hk'.2]
        show (w.1.schedule.set name t.done).get? k = _
        rw [SMap.get?_set, if_neg (fun e => hk'.1 e.symm)]
    · rw [if_neg hb] at h
      obtain ⟨i1, i2, i3, i4, i5⟩ := ih hn'.2 (fun p hp => hs p (List.mem_cons_of_mem _ hp)) h
      refine ⟨i1, i2, i3, ?_, ?_⟩
      · intro p hp
        rcases List.mem_cons.1 hp with rfl | hp
        · refine ⟨t, ht, ?_⟩
          rw [i5 name hn'.1, hs0, ht]; simp [fin, hb]
        · exact i4 p hp
      · intro k hk'
        simp only [List.map_cons, List.mem_cons, not_or] at hk'
        exact i5 k hk'.2

/-- The tasks of a program, with the parameter that has the interval. -/
def cadences : Kind → List (Str × Str)
  | .boilerplate => [(kCheckpoint, kCpi)]
  | _ => [(kCheckpoint, kCpi), (kDiagnostics, kDfi), (kSeries, kTsi)]

theorem taskList_names (e : Env σ τ D) (k : Kind) :
    (taskList e k).map Prod.fst = (cadences k).map Prod.fst := by cases k <;> rfl

theorem cadences_nodup (k : Kind) : ((cadences k).map Prod.fst).Nodup := by cases k <;> decide

theorem runTasks_ok {e : Env σ τ D} {k : Kind} {w w' : World σ τ D} (h : runTasks e k w = .ok w') :
    w'.1.solution = w.1.solution ∧ w'.1.config = w.1.config ∧ w'.1.schedule.keys = w.1.schedule.keys ∧
    (∀ p ∈ cadences k, ∃ t, w.1.schedule.get? p.1 = some t ∧ w'.1.schedule.get? p.1 = some (fin t)) := by
  obtain ⟨a, b, c, d, _⟩ := taskLoop_ok (by rw [taskList_names]; exact cadences_nodup k) (fun _ _ => rfl) h
  refine ⟨a, b, c, fun p hp => ?_⟩
  have : p.1 ∈ (taskList e k).map Prod.fst := by rw [taskList_names]; exact List.mem_map.2 ⟨p, hp, rfl⟩
  obtain ⟨q, hq, e'⟩ := List.mem_map.1 this
  rw [← e']; exact d q hq

theorem next_ok [Add τ] [Sub τ] [LinearOrder τ] {e : Env σ τ D} {k : Kind} {s s' : State σ τ}
    (h : next e k s = .ok s') :
    s'.config = s.config ∧ e.advance s.config s.solution = .ok s'.solution ∧
    s'.schedule.keys = s.schedule.keys ∧
    (∀ p ∈ cadences k, ∃ x t, s.config.getDouble p.2 = .ok x ∧ s.schedule.get? p.1 = some t ∧
      s'.schedule.get? p.1 = some (if e.time s.solution - t.last ≥ x then
        { t with due := true, last := t.last + x } else t)) := by
  simp only [next, nextSchedule, Outcome.bind_eq_ok, Outcome.ok.injEq] at h
  obtain ⟨sol, hsol, sch, ⟨iv, hiv, hm⟩, rfl⟩ := h
  have key : iv.map Prod.fst = (cadences k).map Prod.fst ∧
      ∀ p ∈ cadences k, ∃ x, s.config.getDouble p.2 = .ok x ∧ (p.1, x) ∈ iv := by
    cases k
    · simp only [intervals, Outcome.bind_eq_ok, Outcome.ok.injEq] at hiv
      obtain ⟨cpi, h1, rfl⟩ := hiv
      exact ⟨rfl, by simp [cadences, h1]⟩
    · simp only [intervals, Outcome.bind_eq_ok, Outcome.ok.injEq] at hiv
      obtain ⟨cpi, h1, dfi, h2, tsi, h3, rfl⟩ := hiv
      exact ⟨rfl, by simp [cadences, h1, h2, h3]⟩
    · simp only [intervals, Outcome.bind_eq_ok, Outcome.ok.injEq] at hiv
      obtain ⟨cpi, h1, dfi, h2, tsi, h3, rfl⟩ := hiv
      exact ⟨rfl, by simp [cadences, h1, h2, h3]⟩
  obtain ⟨k1, k2, k3⟩ := markTasks_ok (by rw [key.1]; exact cadences_nodup k) hm
  refine ⟨rfl, hsol, k1, fun p hp => ?_⟩
  obtain ⟨x, hx, hmem⟩ := key.2 p hp
  obtain ⟨t, ht, e'⟩ := k2 (p.1, x) hmem
  exact ⟨x, t, hx, ht, e'⟩

end App

/-! ### Cadence of one task -/

/-- The record of a task over the rounds of a run: marked with the time before the step, then
performed. -/
structure Rounds [Zero τ] [Add τ] [Sub τ] [LinearOrder τ] (d : τ) (T : Nat → τ) (t : Nat → TaskRec τ) (n : Nat) : Prop where
  first : (t 0).due = false ∧ (t 0).num = 1 ∧ (t 0).last = 0
  step : ∀ i < n, t (i + 1) = fin (if T i - (t i).last ≥ d then
    { t i with due := true, last := (t i).last + d } else t i)

theorem Rounds.record [Field τ] [LinearOrder τ] [IsStrictOrderedRing τ] {d : τ} {T : Nat → τ}
    {t : Nat → TaskRec τ} {n : Nat} (h : Rounds d T t n) {i : Nat} (hi : i ≤ n) :
    ∃ c : Nat, (t i).due = false ∧ (t i).num = c + 1 ∧ (t i).last = (c : τ) * d := by
  induction i with
  | zero => exact ⟨0, h.first.1, by rw [h.first.2.1], by rw [h.first.2.2]; simp⟩
  | succ i ih =>
    obtain ⟨c, h1, h2, h3⟩ := ih (by omega)
    rw [h.step i hi]
    split
    · refine ⟨c + 1, fin_due _, ?_, ?_⟩
      · rw [fin_num]; simp [h2]
      · rw [fin_last]; simp only [h3]; push_cast; ring
    · rw [fin_of_not_due h1]; exact ⟨c, h1, h2, h3⟩

theorem Rounds.count_step [Field τ] [LinearOrder τ] [IsStrictOrderedRing τ] {d : τ} {T : Nat → τ}
    {t : Nat → TaskRec τ} {n : Nat} (h : Rounds d T t n) {i : Nat} (hi : i < n) {c : Nat}
    (hc : (t i).num = c + 1) :
    (t (i + 1)).num = if ((c : τ) + 1) * d ≤ T i then c + 2 else c + 1 := by
  obtain ⟨c', h1, h2, h3⟩ := h.record (by omega : i ≤ n)
  have : c' = c := by omega
  subst this
  rw [h.step i hi]
  have hiff : T i - (t i).last ≥ d ↔ ((c' : τ) + 1) * d ≤ T i := by
    rw [h3, ge_iff_le, le_sub_iff_add_le]
    constructor <;> intro h <;> linarith
  by_cases hh : ((c' : τ) + 1) * d ≤ T i
  · rw [if_pos (hiff.2 hh), if_pos hh, fin_num]; simp [h2]
  · rw [if_neg (fun e => hh (hiff.1 e)), if_neg hh, fin_num]; simp [h1, h2]

/-- With steps no longer than the interval: exactly the number of whole intervals. -/
theorem Rounds.exact [Field τ] [LinearOrder τ] [IsStrictOrderedRing τ] {d : τ} {T : Nat → τ}
    {t : Nat → TaskRec τ} {n : Nat} (h : Rounds d T t n) (h0 : 0 ≤ T 0) (h0' : T 0 < d)
    (hT : ∀ i < n, T i ≤ T (i + 1) ∧ T (i + 1) ≤ T i + d) {i : Nat} (hi : i < n) :
    ∃ c : Nat, (t (i + 1)).num = c + 1 ∧ (c : τ) * d ≤ T i ∧ T i < ((c : τ) + 1) * d := by
  induction i with
  | zero =>
    refine ⟨0, ?_, by simpa using h0, by simpa using h0'⟩
    rw [h.count_step hi (c := 0) h.first.2.1, if_neg]
    simpa using h0'
  | succ i ih =>
    obtain ⟨c, h1, h2, h3⟩ := ih (by omega)
    have hs := cadence_step (hT i (by omega)).2 (hT i (by omega)).1 h2 h3
    have hc := h.count_step hi h1
    have hiff : T (i + 1) - (c : τ) * d ≥ d ↔ ((c : τ) + 1) * d ≤ T (i + 1) := by
      rw [ge_iff_le, le_sub_iff_add_le]
      constructor <;> intro h <;> linarith
    by_cases hh : ((c : τ) + 1) * d ≤ T (i + 1)
    · rw [if_pos (hiff.2 hh)] at hs
      rw [if_pos hh] at hc
      exact ⟨c + 1, hc, hs⟩
    · rw [if_neg (fun e => hh (hiff.1 e))] at hs
      rw [if_neg hh] at hc
      exact ⟨c, hc, hs⟩

/-- With steps of any length: never ahead, at most one per step, and the backlog is caught up one per
step. -/
theorem Rounds.bounds [Field τ] [LinearOrder τ] [IsStrictOrderedRing τ] {d : τ} {T : Nat → τ}
    {t : Nat → TaskRec τ} {n : Nat} (h : Rounds d T t n) (hd : 0 < d) (h0 : 0 ≤ T 0)
    (hT : ∀ i < n, T i ≤ T (i + 1)) :
    (∀ i < n, ∃ c : Nat, (t (i + 1)).num = c + 1 ∧ (c : τ) * d ≤ T i ∧ (t (i + 1)).num ≤ (t i).num + 1) ∧
    (∀ i j, i + j < n → ∀ K : Nat, (K : τ) * d ≤ T i → min (K + 1) ((t i).num + j + 1) ≤ (t (i + j + 1)).num) := by
  have hmono : ∀ i j, i + j ≤ n → T i ≤ T (i + j) := by
    intro i j hj
    induction j with
    | zero => exact le_refl _
    | succ j ih => exact (ih (by omega)).trans (hT (i + j) (by omega))
  constructor
  · intro i hi
    induction i with
    | zero =>
      have hc := h.count_step hi (c := 0) h.first.2.1
      by_cases hh : (((0 : Nat) : τ) + 1) * d ≤ T 0
      · rw [if_pos hh] at hc
        exact ⟨1, hc, by simpa using hh, by rw [hc, h.first.2.1]⟩
      · rw [if_neg hh] at hc
        exact ⟨0, hc, by simpa using h0, by rw [hc, h.first.2.1]; omega⟩
    | succ i ih =>
      obtain ⟨c, h1, h2, h3⟩ := ih (by omega)
      have hc := h.count_step hi h1
      by_cases hh : ((c : τ) + 1) * d ≤ T (i + 1)
      · rw [if_pos hh] at hc
        exact ⟨c + 1, hc, by push_cast; exact hh, by rw [hc, h1]⟩
      · rw [if_neg hh] at hc
        exact ⟨c, hc, h2.trans (hT i (by omega)), by rw [hc, h1]; omega⟩
  · intro i j hj K hK
    have one : ∀ m, m < n → ∀ K : Nat, (K : τ) * d ≤ T m → min (K + 1) ((t m).num + 1) ≤ (t (m + 1)).num := by
      intro m hm K hK
      obtain ⟨c, _, h2, _⟩ := h.record (by omega : m ≤ n)
      rw [h.count_step hm h2]
      split
      · omega
      · rename_i hh
        push Not at hh
        have : (K : τ) * d < ((c : τ) + 1) * d := lt_of_le_of_lt hK hh
        have : (K : τ) < (c : τ) + 1 := lt_of_mul_lt_mul_right this hd.le
        have : K < c + 1 := by exact_mod_cast this
        omega
    induction j with
    | zero => exact one i (by omega) K hK
    | succ j ih =>
      have h1 := ih (by omega)
      have h2 := one (i + (j + 1)) hj K (hK.trans (hmono i (j + 1) (by omega)))
      rw [show i + (j + 1) = i + j + 1 by omega] at h2 ⊢
      omega

end Verif.Runs
