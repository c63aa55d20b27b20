import Verif.Lemmas.Restart
import Verif.Lemmas.Path
import Verif.Props.Schedule

/-!
# Properties of restarts of the boilerplate, sedov and cloud programs (C37, C38)
-/

namespace Verif.Runs
open Verif Verif.Text Verif.Config Verif.Sched

variable {σ τ D : Type}

namespace App

/-- The state that a program gets when it is restarted from the checkpoint written from `s`. -/
def State.restored (f : Str) (s : State σ τ) : State σ τ :=
  ⟨s.solution, s.schedule.map fun p => (p.1, ⟨p.1, p.2.num, p.2.last, false⟩), restartAt f s.config⟩

private theorem checkpoint_eq {k : Kind} {s : State σ τ} {f : Str} {c : Checkpoint σ τ Unit}
    (h : writeCheckpoint (D := D) k s = .ok [(f, .checkpoint c)]) :
    c = [(kSolution, .solution s.solution), (kSchedule, .schedule (writeSchedule s.schedule)),
     (k.configWritten, .config (writeConfig s.config))] ∧
    ∃ t, s.schedule.get? kCheckpoint = some t ∧
      k.path s.config (Path.numbered "chkpt".toList t.num "h5".toList) = .ok f := by
  simp only [writeCheckpoint, Outcome.bind_eq_ok, num_ok, Outcome.ok.injEq, List.cons.injEq, Prod.mk.injEq,
    Content.checkpoint.injEq, and_true] at h
  obtain ⟨n, ⟨t, ht, rfl⟩, g, hg, rfl, rfl⟩ := h
  exact ⟨rfl, t, ht, hg⟩

/-! ### C38 -/

/-- C38 (partial): the boilerplate and cloud programs can be restarted from every checkpoint that they
write.  The restarted run has the solution and the configuration of the checkpoint; it starts without
writing any file.  Missing: sedov, see `sedov_restart_violated`. -/
theorem app_restart_partial [Zero τ] [Add τ] {stod : Str → Outcome τ} {t : Template τ}
    {fresh : Config τ → Outcome σ} {e : Env σ τ D} {k : Kind} (hk : k ≠ .sedov)
    {fs : Str → Option (Checkpoint σ τ Unit)} {s : State σ τ}
    (ht : t.WF) (hreach : Reachable stod t s.config) (hw : s.schedule.WF)
    (hr : ∃ r, s.config.getString kRestart = .ok r)
    (hne : ∀ k ≠ kRestart, s.config.params.get? k ≠ some (.str []))
    (hsch : ∀ p ∈ cadences k, ∃ x, s.schedule.get? p.1 = some x)
    {f : Str} {c : Checkpoint σ τ Unit} (hc : writeCheckpoint (D := D) k s = .ok [(f, .checkpoint c)])
    (hf : fs f = some c) :
    begin stod t fresh e k fs [(kRestart, f)] = .ok (s.restored f, []) := by
  obtain ⟨hc, tC, hC, hpath⟩ := checkpoint_eq hc
  obtain ⟨r, hr⟩ := hr
  obtain ⟨d, r', hd, hrs⟩ : ∃ d r', s.config.template.get? kRestart = some d ∧
      s.config.params.get? kRestart = some (.str r') := by
    simp only [Config.getString, Config.get] at hr
    split at hr
    · cases hr
    · split at hr
      · cases hr
      · rename_i v hv
        simp only [Outcome.bind_ok] at hr
        split at hr
        · cases hr; exact ⟨_, _, by assumption, hv⟩
        · cases hr
  have n1 : kSolution ≠ kSchedule := by decide
  have n2 : kSolution ≠ k.configRead := by cases k <;> decide
  have n3 : kSchedule ≠ k.configRead := by cases k <;> decide
  have hcw : k.configWritten = k.configRead := by
    cases k
    · rfl
    · exact absurd rfl hk
    · rfl
  have hcfg : createRunConfig stod t fs k.configRead [(kRestart, f)] = .ok (restartAt f s.config) := by
    refine createRunConfig_restart hreach ht ⟨r', hrs⟩ hne hf ?_
    rw [hc, hcw]
    simp [SMap.get?, n2, n3]
  have hnil : f.isEmpty = false := by
    have h1 : (Path.numbered "chkpt".toList tC.num "h5".toList) ≠ [] := by simp [Path.numbered]
    cases k
    · simp only [Kind.path, Outcome.ok.injEq] at hpath
      rw [← hpath]; simpa using h1
    · exact absurd rfl hk
    · simp only [Kind.path, Outcome.map_eq_ok] at hpath
      obtain ⟨o, _, rfl⟩ := hpath
      simp [Path.join_cons]
  have hstate : createState k fresh fs (restartAt f s.config) = .ok (s.restored f) := by
    have h1 : (restartAt f s.config).getString kRestart = .ok f := by
      simp [Config.getString, Config.get, restartAt, hd, SMap.get?_set]
    have k1 : SMap.get? c kSolution = some (.solution s.solution) := by rw [hc]; simp [SMap.get?]
    have k2 : SMap.get? c kSchedule = some (.schedule (writeSchedule s.schedule)) := by
      rw [hc]; simp [SMap.get?, n1]
    simp only [createState, h1, Outcome.bind_ok, hnil, Bool.false_eq_true, if_false, hf, openSolution,
      openSchedule, k1, k2, readSchedule_write hw]
    rfl
  simp only [begin, hcfg, Outcome.bind_ok, hstate]
  have idle : ∀ (tasks : List (Str × (State σ τ → Outcome (Files σ τ Unit D)))),
      (∀ p ∈ tasks, ∃ x, s.schedule.get? p.1 = some x) → ∀ w, taskLoop (s.restored f) tasks w = .ok w := by
    intro tasks
    induction tasks with
    | nil => intro _ w; rfl
    | cons p tasks ih =>
      intro h w
      obtain ⟨x, hx⟩ := h p List.mem_cons_self
      have hg : (s.restored f).schedule.get? p.1 = some ⟨p.1, x.num, x.last, false⟩ := by
        have := SMap.get?_map s.schedule (fun k t => (⟨k, t.num, t.last, false⟩ : TaskRec τ)) p.1
        rw [hx] at this; exact this
      obtain ⟨n, g⟩ := p
      simp only [taskLoop, isDue_ok.2 ⟨_, hg, rfl⟩, Outcome.bind_ok, Bool.false_eq_true, if_false]
      exact ih (fun q hq => h q (List.mem_cons_of_mem _ hq)) w
  refine idle _ (fun p hp => ?_) _
  have : p.1 ∈ (cadences k).map Prod.fst := by
    rw [← taskList_names e k]; exact List.mem_map.2 ⟨p, hp, rfl⟩
  obtain ⟨q, hq, e'⟩ := List.mem_map.1 this
  rw [← e']; exact hsch q hq

/-- C38 is violated by the sedov program: it throws on every checkpoint that it has written, whatever the
other arguments. -/
theorem sedov_restart_violated [Zero τ] [Add τ] {stod : Str → Outcome τ} {t : Template τ}
    {fresh : Config τ → Outcome σ} {e : Env σ τ D}
    {fs : Str → Option (Checkpoint σ τ Unit)} {s : State σ τ} {f : Str} {c : Checkpoint σ τ Unit}
    (hc : writeCheckpoint (D := D) .sedov s = .ok [(f, .checkpoint c)]) (hf : fs f = some c)
    {args : SMap Str} (ha : args.get? kRestart = some f) :
    begin stod t fresh e .sedov fs args = .throws .invalidArgument := by
  obtain ⟨hc, _⟩ := checkpoint_eq hc
  have h1 : kSolution ≠ kRunConfig := by decide
  have h2 : kSchedule ≠ kRunConfig := by decide
  have h3 : kConfig ≠ kRunConfig := by decide
  have : c.get? kRunConfig = none := by
    rw [hc]; simp [SMap.get?, h1, h2, Kind.configWritten, h3]
  simp [begin, createRunConfig, ha, hf, openConfig, Kind.configRead, this]

/-! ### C37 -/

private theorem round {e : Env σ τ D} {k : Kind} {w w' : World σ τ D} (h : runTasks e k w = .ok w') :
    (∃ tC, w.1.schedule.get? kCheckpoint = some tC ∧ w'.1.schedule.get? kCheckpoint = some (fin tC) ∧
      if tC.due then ∃ f c, writeCheckpoint (D := D) k w.1 = .ok [(f, .checkpoint c)] ∧
          checkpointNames w'.2 = checkpointNames w.2 ++ [f]
      else checkpointNames w'.2 = checkpointNames w.2) ∧
    (k ≠ .boilerplate → ∃ tD, w.1.schedule.get? kDiagnostics = some tD ∧
      w'.1.schedule.get? kDiagnostics = some (fin tD) ∧
      if tD.due then ∃ f d, writeDiagnostics e k w.1 = .ok [(f, .diagnostics d [])] ∧
          diagnosticsNames w'.2 = diagnosticsNames w.2 ++ [f]
      else diagnosticsNames w'.2 = diagnosticsNames w.2) := by
  obtain ⟨_, _, _, hget⟩ := runTasks_ok h
  -- the files of a round
  have key : ∀ (s : State σ τ) (tasks : List (Str × (State σ τ → Outcome (Files σ τ Unit D))))
      (w w' : World σ τ D), taskLoop s tasks w = .ok w' →
      ∃ N : List (Files σ τ Unit D), w'.2 = w.2 ++ N.flatten ∧
        List.Forall₂ (fun p x => ∃ t, s.schedule.get? p.1 = some t ∧
          if t.due then p.2 s = .ok x else x = []) tasks N := by
    intro s tasks
    induction tasks with
    | nil => intro w w' h; cases h; exact ⟨[], by simp, .nil⟩
    | cons p tasks ih =>
      intro w w' h
      obtain ⟨n, g⟩ := p
      simp only [taskLoop, Outcome.bind_eq_ok] at h
      obtain ⟨d, hd, h⟩ := h
      obtain ⟨t, ht, rfl⟩ := isDue_ok.1 hd
      by_cases hb : t.due = true
      · rw [if_pos hb] at h
        simp only [Outcome.bind_eq_ok] at h
        obtain ⟨x, hx, sch, _, h⟩ := h
        obtain ⟨N, h1, h2⟩ := ih _ _ h
        exact ⟨x :: N, by rw [h1]; simp, .cons ⟨t, ht, by rw [if_pos hb]; exact hx⟩ h2⟩
      · rw [if_neg hb] at h
        obtain ⟨N, h1, h2⟩ := ih _ _ h
        exact ⟨[] :: N, by rw [h1]; simp, .cons ⟨t, ht, by rw [if_neg hb]⟩ h2⟩
  obtain ⟨N, hN, hfor⟩ := key _ _ _ _ h
  -- files of each task
  have fC : ∀ x : Files σ τ Unit D, writeCheckpoint k w.1 = .ok x → ∃ f c, x = [(f, .checkpoint c)] := by
    intro x hx
    simp only [writeCheckpoint, Outcome.bind_eq_ok, Outcome.ok.injEq] at hx
    obtain ⟨_, _, f, _, rfl⟩ := hx
    exact ⟨_, _, rfl⟩
  have fD : ∀ x : Files σ τ Unit D, writeDiagnostics e k w.1 = .ok x → ∃ f d, x = [(f, .diagnostics d [])] := by
    intro x hx
    simp only [writeDiagnostics, Outcome.bind_eq_ok, Outcome.ok.injEq] at hx
    obtain ⟨_, _, f, _, rfl⟩ := hx
    exact ⟨_, _, rfl⟩
  have fS : ∀ x : Files σ τ Unit D, writeTimeSeries e k w.1 = .ok x → checkpointNames x = [] ∧ diagnosticsNames x = [] := by
    intro x hx
    cases k
    · simp only [writeTimeSeries, Outcome.bind_eq_ok, Outcome.ok.injEq] at hx
      obtain ⟨f, _, n, _, rfl⟩ := hx
      exact ⟨rfl, rfl⟩
    · simp only [writeTimeSeries, Outcome.bind_eq_ok, Outcome.ok.injEq] at hx
      obtain ⟨f, _, n, _, rfl⟩ := hx
      exact ⟨rfl, rfl⟩
    · simp only [writeTimeSeries, Outcome.ok.injEq] at hx
      subst hx; exact ⟨rfl, rfl⟩
  have cn : ∀ a b : Files σ τ Unit D, checkpointNames (a ++ b) = checkpointNames a ++ checkpointNames b := by
    intro a b; simp [checkpointNames]
  have dn : ∀ a b : Files σ τ Unit D, diagnosticsNames (a ++ b) = diagnosticsNames a ++ diagnosticsNames b := by
    intro a b; simp [diagnosticsNames]
  have hC := hget (kCheckpoint, kCpi) (by cases k <;> simp [cadences])
  obtain ⟨tC, g1, g2⟩ := hC
  simp only at g1 g2
  -- the programs with three tasks
  have three : k ≠ .boilerplate → ∃ xC xD xS, N = [xC, xD, xS] ∧
      (∃ t, w.1.schedule.get? kCheckpoint = some t ∧ if t.due then writeCheckpoint k w.1 = .ok xC else xC = []) ∧
      (∃ t, w.1.schedule.get? kDiagnostics = some t ∧ if t.due then writeDiagnostics e k w.1 = .ok xD else xD = []) ∧
      (∃ t, w.1.schedule.get? kSeries = some t ∧ if t.due then writeTimeSeries e k w.1 = .ok xS else xS = []) := by
    intro hk
    have hl : taskList e k = [(kCheckpoint, writeCheckpoint k), (kDiagnostics, writeDiagnostics e k),
      (kSeries, writeTimeSeries e k)] := by
      cases k
      · exact absurd rfl hk
      · rfl
      · rfl
    rw [hl] at hfor
    cases hfor with
    | cons a hfor => cases hfor with
      | cons b hfor => cases hfor with
        | cons c hfor => cases hfor; exact ⟨_, _, _, rfl, a, b, c⟩
  have nilS : ∀ {xS : Files σ τ Unit D} {t : TaskRec τ},
      (if t.due then writeTimeSeries e k w.1 = .ok xS else xS = []) →
      checkpointNames xS = [] ∧ diagnosticsNames xS = [] := by
    intro xS t h
    split at h
    · exact fS _ h
    · subst h; exact ⟨rfl, rfl⟩
  constructor
  · refine ⟨tC, g1, g2, ?_⟩
    by_cases hk : k = .boilerplate
    · subst hk
      rw [show taskList e .boilerplate = [(kCheckpoint, writeCheckpoint .boilerplate)] from rfl] at hfor
      cases hfor with
      | cons a hfor =>
        cases hfor
        obtain ⟨t, ht, a⟩ := a
        simp only at ht a
        rw [g1] at ht; cases ht
        split at a
        · rename_i hd
          obtain ⟨f, c, rfl⟩ := fC _ a
          rw [if_pos hd]
          exact ⟨f, c, a, by rw [hN, cn]; rfl⟩
        · rename_i hd
          subst a
          rw [if_neg hd, hN, cn]; simp [checkpointNames]
    · obtain ⟨xC, xD, xS, rfl, ⟨t, ht, a⟩, ⟨t', ht', b⟩, ⟨t'', _, c⟩⟩ := three hk
      rw [g1] at ht; cases ht
      have hD : checkpointNames xD = [] := by
        split at b
        · obtain ⟨f, d, rfl⟩ := fD _ b; rfl
        · subst b; rfl
      have hS := (nilS c).1
      have hall : checkpointNames w'.2 = checkpointNames w.2 ++ checkpointNames xC := by
        rw [hN, cn]; simp only [List.flatten_cons, List.flatten_nil, List.append_nil, cn, hD, hS]
      split at a
      · rename_i hd
        obtain ⟨f, c', rfl⟩ := fC _ a
        rw [if_pos hd]
        exact ⟨f, c', a, by rw [hall]; rfl⟩
      · rename_i hd
        subst a
        rw [if_neg hd, hall]; simp [checkpointNames]
  · intro hk
    obtain ⟨xC, xD, xS, rfl, ⟨t, ht, a⟩, ⟨t', ht', b⟩, ⟨t'', _, c⟩⟩ := three hk
    obtain ⟨tD, g3, g4⟩ := hget (kDiagnostics, kDfi) (by
      cases k
      · exact absurd rfl hk
      · simp [cadences]
      · simp [cadences])
    simp only at g3 g4
    obtain rfl : tD = t' := Option.some.inj (g3.symm.trans ht')
    refine ⟨tD, g3, g4, ?_⟩
    have hC : diagnosticsNames xC = [] := by
      split at a
      · obtain ⟨f, d, rfl⟩ := fC _ a; rfl
      · subst a; rfl
    have hS := (nilS c).2
    have hall : diagnosticsNames w'.2 = diagnosticsNames w.2 ++ diagnosticsNames xD := by
      rw [hN, dn]; simp only [List.flatten_cons, List.flatten_nil, List.append_nil, dn, hC, hS, List.nil_append]
    split at b
    · rename_i hd
      obtain ⟨f, c', rfl⟩ := fD _ b
      rw [if_pos hd]
      exact ⟨f, c', b, by rw [hall]; rfl⟩
    · rename_i hd
      subst b
      rw [if_neg hd, hall]; simp [diagnosticsNames]

private theorem path_config {k : Kind} (f : Str) (c : Config τ) (n : Str) :
    k.path (restartAt f c) n = k.path c n := by
  cases k <;> simp only [Kind.path, restartAt_string f c keys_ne_restart.1]

private theorem restored_get {f : Str} {s : State σ τ} {n : Str} {x : TaskRec τ}
    (h : s.schedule.get? n = some x) :
    (s.restored f).schedule.get? n = some ⟨n, x.num, x.last, false⟩ := by
  have := SMap.get?_map s.schedule (fun k t => (⟨k, t.num, t.last, false⟩ : TaskRec τ)) n
  rw [h] at this; exact this

/-- C37 is violated: in every run restarted from a checkpoint of the boilerplate or cloud program, the
first checkpoint that is written overwrites the one that the run was restarted from. -/
theorem app_restart_overwrites_violated [Zero τ] [Add τ] [Sub τ] [LinearOrder τ] {e : Env σ τ D} {k : Kind} {s : State σ τ}
    {f : Str} {c : Checkpoint σ τ Unit} (hc : writeCheckpoint (D := D) k s = .ok [(f, .checkpoint c)])
    {v : Nat → World σ τ D} {n : Nat} (h0 : v 0 = (s.restored f, []))
    (hb : ∀ i < n, body e k (v i) = .ok (v (i + 1))) {g : Str}
    (hg : (checkpointNames (v n).2).head? = some g) : g = f := by
  obtain ⟨-, tC, hC, hpath⟩ := checkpoint_eq hc
  have key : ∀ i ≤ n, (v i).1.config = restartAt f s.config ∧
      ((checkpointNames (v i).2 = [] ∧ ∃ t, (v i).1.schedule.get? kCheckpoint = some t ∧ t.num = tC.num) ∨
        (checkpointNames (v i).2).head? = some f) := by
    intro i
    induction i with
    | zero =>
      intro _
      rw [h0]
      exact ⟨rfl, .inl ⟨rfl, _, restored_get hC, rfl⟩⟩
    | succ i ih =>
      intro hi
      obtain ⟨ih1, ih2⟩ := ih (by omega)
      have hbi := hb i (by omega)
      simp only [body, Outcome.bind_eq_ok] at hbi
      obtain ⟨s', hs', hr⟩ := hbi
      have hcfg : (v (i + 1)).1.config = restartAt f s.config := by
        rw [(runTasks_ok hr).2.1]; show s'.config = _; rw [(next_ok hs').1, ih1]
      refine ⟨hcfg, ?_⟩
      obtain ⟨⟨t, ht1, ht2, hN⟩, _⟩ := round hr
      simp only at ht1 hN
      rcases ih2 with ⟨hnil, t0, ht0, hnum⟩ | hsome
      · obtain ⟨x, t1, _, e1, e2⟩ := (next_ok hs').2.2.2 (kCheckpoint, kCpi) (by cases k <;> simp [cadences])
        simp only at e1 e2
        rw [ht0] at e1; cases e1
        rw [ht1] at e2
        have hnum' : t.num = tC.num := by
          have := Option.some.inj e2
          rw [this]; split <;> exact hnum
        split at hN
        · obtain ⟨f', c', hw, hN⟩ := hN
          right
          obtain ⟨-, t2, ht2', hp⟩ := checkpoint_eq hw
          rw [ht1] at ht2'; cases ht2'
          have hs'c : s'.config = restartAt f s.config := by rw [(next_ok hs').1, ih1]
          rw [hnum', hs'c, path_config, hpath] at hp
          rw [hN, hnil, Outcome.ok.inj hp]; rfl
        · rename_i hd
          left
          refine ⟨by rw [hN]; exact hnil, _, ht2, ?_⟩
          rw [fin_num, if_neg hd]; exact hnum'
      · right
        split at hN
        · obtain ⟨f', c', hw, hN⟩ := hN
          rw [hN, List.head?_append, hsome]; rfl
        · rw [hN]; exact hsome
  rcases (key n le_rfl).2 with ⟨h, _⟩ | h
  · rw [h] at hg; cases hg
  · rw [h] at hg; exact (Option.some.inj hg).symm

/-- C37 is violated: if diagnostics were due in the round in which the checkpoint was written, then they
are not written by the restarted run before another interval has passed, and when diagnostics are written
next, they take the name of those that were due. -/
theorem app_restart_loses_violated [Zero τ] [Add τ] [Sub τ] [LinearOrder τ] {e : Env σ τ D} {k : Kind} (hk : k ≠ .boilerplate)
    {s : State σ τ} {f fd : Str} {d : D} (hd : writeDiagnostics e k s = .ok [(fd, .diagnostics d [])])
    {v : Nat → World σ τ D} {n : Nat} (h0 : v 0 = (s.restored f, []))
    (hb : ∀ i < n, body e k (v i) = .ok (v (i + 1))) :
    diagnosticsNames (v 0).2 = [] ∧
    (∀ g, (diagnosticsNames (v n).2).head? = some g → g = fd) := by
  obtain ⟨tD, hD, hpath⟩ : ∃ t, s.schedule.get? kDiagnostics = some t ∧
      k.path s.config (Path.numbered "diagnostics".toList t.num "h5".toList) = .ok fd := by
    simp only [writeDiagnostics, Outcome.bind_eq_ok, num_ok, Outcome.ok.injEq, List.cons.injEq, Prod.mk.injEq,
      and_true] at hd
    obtain ⟨n, ⟨t, ht, rfl⟩, g, hg, rfl, _⟩ := hd
    exact ⟨t, ht, hg⟩
  refine ⟨by rw [h0]; rfl, ?_⟩
  intro g hg
  have key : ∀ i ≤ n, (v i).1.config = restartAt f s.config ∧
      ((diagnosticsNames (v i).2 = [] ∧ ∃ t, (v i).1.schedule.get? kDiagnostics = some t ∧ t.num = tD.num) ∨
        (diagnosticsNames (v i).2).head? = some fd) := by
    intro i
    induction i with
    | zero =>
      intro _
      rw [h0]
      exact ⟨rfl, .inl ⟨rfl, _, restored_get hD, rfl⟩⟩
    | succ i ih =>
      intro hi
      obtain ⟨ih1, ih2⟩ := ih (by omega)
      have hbi := hb i (by omega)
      simp only [body, Outcome.bind_eq_ok] at hbi
      obtain ⟨s', hs', hr⟩ := hbi
      have hcfg : (v (i + 1)).1.config = restartAt f s.config := by
        rw [(runTasks_ok hr).2.1]; show s'.config = _; rw [(next_ok hs').1, ih1]
      refine ⟨hcfg, ?_⟩
      obtain ⟨t, ht1, ht2, hN⟩ := (round hr).2 hk
      simp only at ht1 hN
      rcases ih2 with ⟨hnil, t0, ht0, hnum⟩ | hsome
      · obtain ⟨x, t1, _, e1, e2⟩ := (next_ok hs').2.2.2 (kDiagnostics, kDfi) (by
          cases k
          · exact absurd rfl hk
          · simp [cadences]
          · simp [cadences])
        simp only at e1 e2
        rw [ht0] at e1; cases e1
        rw [ht1] at e2
        have hnum' : t.num = tD.num := by
          have := Option.some.inj e2
          rw [this]; split <;> exact hnum
        split at hN
        · obtain ⟨f', c', hw, hN⟩ := hN
          right
          have hs'c : s'.config = restartAt f s.config := by rw [(next_ok hs').1, ih1]
          simp only [writeDiagnostics, Outcome.bind_eq_ok, num_ok, Outcome.ok.injEq, List.cons.injEq,
            Prod.mk.injEq, and_true] at hw
          obtain ⟨m, ⟨t2, ht2', rfl⟩, g', hp, rfl, _⟩ := hw
          rw [ht1] at ht2'; cases ht2'
          rw [hnum', hs'c, path_config, hpath] at hp
          rw [hN, hnil, Outcome.ok.inj hp]; rfl
        · rename_i hd
          left
          refine ⟨by rw [hN]; exact hnil, _, ht2, ?_⟩
          rw [fin_num, if_neg hd]; exact hnum'
      · right
        split at hN
        · obtain ⟨f', c', hw, hN⟩ := hN
          rw [hN, List.head?_append, hsome]; rfl
        · rw [hN]; exact hsome
  rcases (key n le_rfl).2 with ⟨h, _⟩ | h
  · rw [h] at hg; cases hg
  · rw [h] at hg; exact (Option.some.inj hg).symm

/-- C37 (partial): what a restart does keep.  Let `w` be the uninterrupted run from the round of the
checkpoint on and `v` the restarted one.  After the same number of rounds of the loop both have the same
solution, and every output has been performed equally often since, so that the outputs come at the same
solutions; only their numbers are behind by one if they were due in the round of the checkpoint.  Missing:
the numbers themselves, see `app_restart_overwrites_violated` and `app_restart_loses_violated`. -/
theorem app_restart_keeps_partial [Zero τ] [Add τ] [Sub τ] [LinearOrder τ] {e : Env σ τ D} {k : Kind} {s : State σ τ}
    {f : Str} {F : Files σ τ Unit D} (he : ∀ c x, e.advance (restartAt f c) x = e.advance c x)
    {w v : Nat → World σ τ D} {n : Nat} (hw0 : runTasks e k (s, F) = .ok (w 0))
    (hw : ∀ i < n, body e k (w i) = .ok (w (i + 1)))
    (hv0 : v 0 = (s.restored f, [])) (hv : ∀ i < n, body e k (v i) = .ok (v (i + 1))) :
    ∀ i ≤ n, (v i).1.solution = (w i).1.solution ∧
      ∀ p ∈ cadences k, performed (w i).1.schedule p.1 =
        performed (v i).1.schedule p.1 + if DueIn s.schedule p.1 then 1 else 0 := by
  have key : ∀ i ≤ n, (v i).1.solution = (w i).1.solution ∧
      (v i).1.config = restartAt f (w i).1.config ∧
      ∀ p ∈ cadences k, ∃ a b, (w i).1.schedule.get? p.1 = some a ∧ (v i).1.schedule.get? p.1 = some b ∧
        a.last = b.last ∧ a.due = false ∧ b.due = false ∧
        a.num = b.num + if DueIn s.schedule p.1 then 1 else 0 := by
    intro i
    induction i with
    | zero =>
      intro _
      obtain ⟨h1, h2, _, h3⟩ := runTasks_ok hw0
      simp only at h1 h2 h3
      rw [hv0]
      refine ⟨h1.symm, by rw [h2]; rfl, fun p hp => ?_⟩
      obtain ⟨x, hx, hx'⟩ := h3 p hp
      refine ⟨_, _, hx', restored_get hx, fin_last x, fin_due x, rfl, ?_⟩
      rw [fin_num]
      simp [DueIn, hx]
    | succ i ih =>
      intro hi
      obtain ⟨ih1, ih2, ih3⟩ := ih (by omega)
      have hwi := hw i (by omega)
      have hvi := hv i (by omega)
      simp only [body, Outcome.bind_eq_ok] at hwi hvi
      obtain ⟨sw, hsw, hrw⟩ := hwi
      obtain ⟨sv, hsv, hrv⟩ := hvi
      obtain ⟨a1, a2, _, a4⟩ := runTasks_ok hrw
      obtain ⟨b1, b2, _, b4⟩ := runTasks_ok hrv
      obtain ⟨c1, c2, _, c4⟩ := next_ok hsw
      obtain ⟨d1, d2, _, d4⟩ := next_ok hsv
      simp only at a1 a2 a4 b1 b2 b4
      refine ⟨?_, ?_, fun p hp => ?_⟩
      · rw [a1, b1]
        rw [ih1, ih2, he, c2] at d2
        exact (Outcome.ok.inj d2).symm
      · rw [a2, b2, d1, c1, ih2]
      · obtain ⟨a, b, ga, gb, hl, _, _, hn⟩ := ih3 p hp
        obtain ⟨xw, tw, gxw, gtw, gw⟩ := c4 p hp
        obtain ⟨xv, tv, gxv, gtv, gv⟩ := d4 p hp
        rw [ga] at gtw; cases gtw
        rw [gb] at gtv; cases gtv
        have hpr : p.2 ≠ kRestart := by
          cases k <;> simp only [cadences, List.mem_cons, List.not_mem_nil, or_false] at hp
          · subst hp; decide
          · rcases hp with rfl | rfl | rfl <;> decide
          · rcases hp with rfl | rfl | rfl <;> decide
        have hx : xv = xw := by
          rw [ih2, restartAt_double f _ hpr, gxw] at gxv
          exact (Outcome.ok.inj gxv).symm
        subst hx
        obtain ⟨u, gu, gu'⟩ := a4 p hp
        obtain ⟨u', gu2, gu2'⟩ := b4 p hp
        rw [gw] at gu
        rw [gv] at gu2
        refine ⟨_, _, gu', gu2', ?_, fin_due _, fin_due _, ?_⟩
        · rw [fin_last, fin_last, ← Option.some.inj gu, ← Option.some.inj gu2, ih1, hl]
          split <;> simp [hl]
        · rw [fin_num, fin_num, ← Option.some.inj gu, ← Option.some.inj gu2, ih1, hl]
          split
          · simp [hn]; omega
          · simp_all
  intro i hi
  obtain ⟨h1, _, h3⟩ := key i hi
  refine ⟨h1, fun p hp => ?_⟩
  obtain ⟨a, b, ga, gb, _, _, _, hn⟩ := h3 p hp
  simp only [performed, ga, gb, Option.elim_some]
  exact hn

/-! An example that meets the hypotheses: a round of the cloud program with everything due. -/

def exTemplate : Template ℚ :=
  [(kCpi, .dbl 2), (kDfi, .dbl 1), (kTsi, .dbl 7), (kOutdir, .str "out".toList), (kRestart, .str [])]

def exState : State ℚ ℚ :=
  ⟨5, [(kCheckpoint, ⟨kCheckpoint, 3, 4, true⟩), (kDiagnostics, ⟨kDiagnostics, 5, 4, true⟩),
    (kSeries, ⟨kSeries, 1, 0, false⟩)], Template.create exTemplate⟩

/-- The files of a run restarted from the checkpoint of `exState`. -/
def exAgain : Nat → Outcome (World ℚ ℚ ℚ)
  | 0 => .ok (exState.restored "out/chkpt.0003.h5".toList, [])
  | i + 1 => (exAgain i).bind (body exApp .cloud)

def exNames (o : Outcome (World ℚ ℚ ℚ)) : List Str :=
  match o with
  | .ok w => w.2.map Prod.fst
  | _ => []

example : exNames (exAgain 3) = ["out/diagnostics.0005.h5".toList, "out/chkpt.0003.h5".toList,
    "out/diagnostics.0006.h5".toList, "out/diagnostics.0007.h5".toList] := by decide +kernel

example : ∃ f c, writeCheckpoint (D := ℚ) .cloud exState = .ok [(f, .checkpoint c)] ∧
    f = "out/chkpt.0003.h5".toList := ⟨_, _, rfl, by decide +kernel⟩
example : ∃ f c, writeCheckpoint (D := ℚ) .sedov exState = .ok [(f, .checkpoint c)] ∧
    f = "out/chkpt.0003.h5".toList := ⟨_, _, rfl, by decide +kernel⟩
example : ∃ f d, writeDiagnostics exApp .cloud exState = .ok [(f, .diagnostics d [])] ∧
    f = "out/diagnostics.0005.h5".toList := ⟨_, _, rfl, by decide +kernel⟩
example : exTemplate.WF ∧ exState.schedule.WF ∧ Reachable (fun _ => .throws .invalidArgument) exTemplate
    exState.config ∧ exState.config.getString kRestart = .ok [] ∧
    ∀ k ≠ kRestart, exState.config.params.get? k ≠ some (.str []) := by
  refine ⟨by decide, by decide, .create, by rfl, fun k hk => ?_⟩
  have h3 : ¬ kRestart = k := fun e => hk e.symm
  simp only [exState, Template.create, exTemplate, SMap.get?, h3, if_false]
  repeat' split
  all_goals simp

end App
end Verif.Runs
