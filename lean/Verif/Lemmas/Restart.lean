import Verif.Lemmas.Runs
import Verif.Spec.Runs
import Verif.Props.Config

/-! Lemmas on restarts of the binary program. -/

namespace Verif.Runs
open Verif Verif.Text Verif.Config Verif.Sched

variable {σ τ μ D : Type}

theorem smap_set_set {α : Type} (m : SMap α) (k : Str) (v u : α) : (m.set k v).set k u = m.set k u := by
  induction m with
  | nil => simp [SMap.set]
  | cons p m ih =>
    obtain ⟨n, x⟩ := p
    by_cases h : n = k
    · simp [SMap.set, h]
    · simp [SMap.set, h, ih]

theorem restartAt_get (f : Str) (c : Config τ) {k : Str} (hk : k ≠ kRestart) :
    (restartAt f c).get k = c.get k := by
  unfold Config.get restartAt
  have : (c.params.set kRestart (.str f)).get? k = c.params.get? k := by
    rw [SMap.get?_set, if_neg fun e => hk e.symm]
  simp only [this]

theorem restartAt_string (f : Str) (c : Config τ) {k : Str} (hk : k ≠ kRestart) :
    (restartAt f c).getString k = c.getString k := by simp only [Config.getString, restartAt_get f c hk]

theorem restartAt_double (f : Str) (c : Config τ) {k : Str} (hk : k ≠ kRestart) :
    (restartAt f c).getDouble k = c.getDouble k := by simp only [Config.getDouble, restartAt_get f c hk]

theorem blank_writeConfig (f : Str) (c : Config τ) :
    blank (writeConfig (restartAt f c)) = blank (writeConfig c) := by
  have : writeConfig (restartAt f c) = SMap.set (writeConfig c) kRestart (writeParam (.str f)) :=
    SMap.set_map c.params writeParam kRestart (.str f)
  rw [this, blank, smap_set_set]; rfl

theorem blankFiles_append (F G : Files σ τ μ D) : blankFiles (F ++ G) = blankFiles F ++ blankFiles G := by
  simp [blankFiles]

theorem blankFiles_names (F : Files σ τ μ D) : (blankFiles F).map Prod.fst = F.map Prod.fst := by
  simp [blankFiles, Function.comp_def]

theorem keys_ne_restart : kOutdir ≠ kRestart ∧ kCpi ≠ kRestart ∧ kDfi ≠ kRestart ∧ kTsi ≠ kRestart ∧
    kTfinal ≠ kRestart := by decide

namespace Binary

/-- A world of a run, and that of the run restarted from `f` when `F` had been written. -/
def Rel (f : Str) (F : Files σ τ μ D) (w v : World σ τ μ D) : Prop :=
  v.1 = w.1.restartAt f ∧ blankFiles w.2 = blankFiles F ++ blankFiles v.2

theorem blank_state (f : Str) (s : State σ τ μ) :
    (Content.checkpoint (writeState (s.restartAt f)) : Content σ τ μ D).blank =
      (Content.checkpoint (writeState s) : Content σ τ μ D).blank := by
  simp only [Content.blank, writeState, List.map_cons, List.map_nil, Item.blank, State.restartAt,
    blank_writeConfig]

theorem Rel.diagnostics {e : Env σ τ μ D} (he : e.IgnoresRestart) {f : Str} {F : Files σ τ μ D}
    {w v w' : World σ τ μ D} (h : Rel f F w v) (hw : writeDiagnostics e w = .ok w') :
    ∃ v', writeDiagnostics e v = .ok v' ∧ Rel f F w' v' := by
  obtain ⟨s, G⟩ := v
  obtain ⟨h1, h2⟩ := h
  simp only at h1 h2
  subst h1
  obtain ⟨t, outdir, d, ht, ho, hd, rfl⟩ := diagnostics_ok hw
  refine ⟨({ w.1.restartAt f with schedule := w.1.schedule.set kDiagnostics t.done },
    G ++ [(diagPath outdir t.num, .diagnostics d (writeConfig (Runs.restartAt f w.1.config)))]), ?_, rfl, ?_⟩
  · simp only [writeDiagnostics, State.restartAt, restartAt_string f _ keys_ne_restart.1, ho, Outcome.bind_ok,
      num_ok.2 ⟨t, ht, rfl⟩, he.diag, hd, complete, completed_ok.2 ⟨t, ht, rfl⟩, Outcome.map_ok]
    rfl
  · simp only [blankFiles_append, h2, List.append_assoc]
    congr 2
    simp only [blankFiles, List.map_cons, List.map_nil, Content.blank, blank_writeConfig]

theorem Rel.record {e : Env σ τ μ D} (he : e.IgnoresRestart) {f : Str} {F : Files σ τ μ D}
    {w v w' : World σ τ μ D} (h : Rel f F w v) (hw : recordTimeSeries e w = .ok w') :
    ∃ v', recordTimeSeries e v = .ok v' ∧ Rel f F w' v' := by
  obtain ⟨s, G⟩ := v
  obtain ⟨h1, h2⟩ := h
  simp only at h1 h2
  subst h1
  obtain ⟨t, x, ht, hx, rfl⟩ := record_ok hw
  refine ⟨({ w.1.restartAt f with schedule := w.1.schedule.set kRecord t.done, series := x :: w.1.series }, G),
    ?_, rfl, h2⟩
  simp only [recordTimeSeries, State.restartAt, he.sample, hx, Outcome.bind_ok, complete,
    completed_ok.2 ⟨t, ht, rfl⟩, Outcome.map_ok]

theorem Rel.checkpoint {f : Str} {F : Files σ τ μ D}
    {w v w' : World σ τ μ D} (h : Rel f F w v) (hw : Binary.writeCheckpoint w = .ok w') :
    ∃ v', Binary.writeCheckpoint v = .ok v' ∧ Rel f F w' v' := by
  obtain ⟨s, G⟩ := v
  obtain ⟨h1, h2⟩ := h
  simp only at h1 h2
  subst h1
  obtain ⟨s', F'⟩ := w'
  obtain ⟨t, outdir, ht, ho, e1, e2⟩ := checkpoint_ok hw
  simp only at e1 e2
  subst e1 e2
  refine ⟨({ w.1.restartAt f with schedule := w.1.schedule.set kCheckpoint t.done },
    G ++ [(chkptPath outdir t.num, .checkpoint (writeState
      { w.1.restartAt f with schedule := w.1.schedule.set kCheckpoint t.done }))]), ?_, rfl, ?_⟩
  · simp only [Binary.writeCheckpoint, State.restartAt, restartAt_string f _ keys_ne_restart.1, ho,
      Outcome.bind_ok, num_ok.2 ⟨t, ht, rfl⟩, complete, completed_ok.2 ⟨t, ht, rfl⟩, Outcome.map_ok]
    rfl
  · simp only [blankFiles_append, h2, List.append_assoc]
    congr 2
    simp only [blankFiles, List.map_cons, List.map_nil]
    congr 2
    exact (blank_state f { w.1 with schedule := w.1.schedule.set kCheckpoint t.done }).symm

theorem Rel.runTasks {e : Env σ τ μ D} (he : e.IgnoresRestart) {f : Str} {F : Files σ τ μ D}
    {w v w' : World σ τ μ D} (h : Rel f F w v) (hw : Binary.runTasks e w = .ok w') :
    ∃ v', Binary.runTasks e v = .ok v' ∧ Rel f F w' v' := by
  have key : ∀ (sch : Schedule τ) (tasks : List (Str × (World σ τ μ D → Outcome (World σ τ μ D)))),
      (∀ p ∈ tasks, ∀ w v w', Rel f F w v → p.2 w = .ok w' → ∃ v', p.2 v = .ok v' ∧ Rel f F w' v') →
      ∀ w v w', Rel f F w v → runLoop sch tasks w = .ok w' →
        ∃ v', runLoop sch tasks v = .ok v' ∧ Rel f F w' v' := by
    intro sch tasks
    induction tasks with
    | nil => intro _ w v w' h hw; cases hw; exact ⟨v, rfl, h⟩
    | cons p tasks ih =>
      intro hp w v w' h hw
      simp only [runLoop, Outcome.bind_eq_ok] at hw ⊢
      obtain ⟨d, hd, hw⟩ := hw
      cases d with
      | false =>
        simp only [Bool.false_eq_true, if_false] at hw
        obtain ⟨v', hv, hr⟩ := ih (fun q hq => hp q (List.mem_cons_of_mem _ hq)) w v w' h hw
        exact ⟨v', ⟨false, hd, by simpa using hv⟩, hr⟩
      | true =>
        simp only [if_true, Outcome.bind_eq_ok] at hw
        obtain ⟨w1, h1, hw⟩ := hw
        obtain ⟨v1, hv1, hr1⟩ := hp p List.mem_cons_self w v w1 h h1
        obtain ⟨v', hv, hr⟩ := ih (fun q hq => hp q (List.mem_cons_of_mem _ hq)) w1 v1 w' hr1 hw
        exact ⟨v', ⟨true, hd, by simp only [if_true, Outcome.bind_eq_ok]; exact ⟨v1, hv1, hv⟩⟩, hr⟩
  have hsch : v.1.schedule = w.1.schedule := by rw [h.1]; rfl
  unfold Binary.runTasks runScheduledTasks at hw ⊢
  simp only [hsch] at hw ⊢
  refine key _ _ ?_ w v w' h hw
  intro p hp
  simp only [List.mem_cons, List.not_mem_nil, or_false] at hp
  rcases hp with rfl | rfl | rfl
  · exact fun _ _ _ h hw => h.diagnostics he hw
  · exact fun _ _ _ h hw => h.record he hw
  · exact fun _ _ _ h hw => h.checkpoint hw

theorem nextState_restartAt [Add τ] [Sub τ] [Mul τ] [LinearOrder τ] {e : Env σ τ μ D} (he : e.IgnoresRestart) (f : Str)
    {s s' : State σ τ μ} (h : nextState e s = .ok s') :
    nextState e (s.restartAt f) = .ok (s'.restartAt f) := by
  obtain ⟨_, n1, n2, n3, _⟩ := keys_ne_restart
  simp only [nextState, nextSchedule, Outcome.bind_eq_ok, Outcome.ok.injEq] at h
  obtain ⟨sol, hsol, sch, ⟨a, ha, b, hb, c, hc, hs⟩, rfl⟩ := h
  simp only [nextState, nextSchedule, State.restartAt, he.advance, hsol, Outcome.bind_ok,
    restartAt_double f _ n1, restartAt_double f _ n2, restartAt_double f _ n3, ha, hb, hc, hs]

theorem Rel.body [Add τ] [Sub τ] [Mul τ] [LinearOrder τ] {e : Env σ τ μ D} (he : e.IgnoresRestart) {f : Str}
    {F : Files σ τ μ D} {w v w' : World σ τ μ D} (h : Rel f F w v) (hw : Binary.body e w = .ok w') :
    ∃ v', Binary.body e v = .ok v' ∧ Rel f F w' v' := by
  simp only [Binary.body, Outcome.bind_eq_ok] at hw ⊢
  obtain ⟨s, hs, hw⟩ := hw
  have h1 : Rel f F (s, w.2) (s.restartAt f, v.2) := ⟨rfl, h.2⟩
  obtain ⟨v', hv, hr⟩ := h1.runTasks he hw
  exact ⟨v', ⟨_, by rw [h.1]; exact nextState_restartAt he f hs, hv⟩, hr⟩

theorem Rel.shouldContinue [Div τ] [LinearOrder τ] {e : Env σ τ μ D} {f : Str}
    {F : Files σ τ μ D} {w v : World σ τ μ D} (h : Rel f F w v) :
    Binary.shouldContinue e v.1 = Binary.shouldContinue e w.1 := by
  rw [h.1]
  simp only [Binary.shouldContinue, State.restartAt, restartAt_double f _ keys_ne_restart.2.2.2.2]
  rfl

theorem Rel.finishes [Add τ] [Sub τ] [Mul τ] [Div τ] [LinearOrder τ] {e : Env σ τ μ D} (he : e.IgnoresRestart) {f : Str}
    {F : Files σ τ μ D} {w v w' : World σ τ μ D} {n : Nat} (h : Rel f F w v) (hw : Finishes e w n w') :
    ∃ v', Finishes e v n v' ∧ Rel f F w' v' := by
  induction hw generalizing v with
  | exit hc hb =>
    obtain ⟨v', hv, hr⟩ := h.body he hb
    exact ⟨v', .exit (by rw [h.shouldContinue]; exact hc) hv, hr⟩
  | loop hc hb _ ih =>
    obtain ⟨v1, hv1, hr1⟩ := h.body he hb
    obtain ⟨v', hv, hr⟩ := ih hr1
    exact ⟨v', .loop (by rw [h.shouldContinue]; exact hc) hv1 hv, hr⟩

/-! ### Invariants of a run -/

/-- What holds of the schedule of every state. -/
structure Tidy (s : Schedule τ) : Prop where
  wf : s.WF
  name : ∀ k t, s.get? k = some t → t.name = k
  due : ∀ k t, s.get? k = some t → k ∉ [kDiagnostics, kRecord, kCheckpoint] → t.due = false

theorem tidy_read (g : SMap (StoredTask τ)) : Tidy (readSchedule g) := by
  have key : ∀ (g : SMap (StoredTask τ)) (s : Schedule τ), Tidy s → Tidy (readLoop s g) := by
    intro g
    induction g with
    | nil => intro s h; exact h
    | cons p g ih =>
      intro s h
      refine ih _ ⟨SMap.wf_set h.wf _ _, ?_, ?_⟩
      · intro k t ht
        rw [Schedule.insert, SMap.get?_set] at ht
        by_cases hk : p.1 = k
        · simp only [hk, if_true, Option.some.injEq] at ht; rw [← ht]
        · simp only [hk, if_false] at ht; exact h.name k t ht
      · intro k t ht hn
        rw [Schedule.insert, SMap.get?_set] at ht
        by_cases hk : p.1 = k
        · simp only [hk, if_true, Option.some.injEq] at ht; rw [← ht]
        · simp only [hk, if_false] at ht; exact h.due k t ht hn
  exact key g [] ⟨List.nodup_nil, fun _ _ h => (by cases h), fun _ _ h => (by cases h)⟩

theorem tidy_created [Zero τ] [Add τ] {s : Schedule τ} (h : createSchedule = .ok s) : Tidy s := by
  have : (createSchedule : Outcome (Schedule τ)) = .ok
      [(kCheckpoint, ⟨kCheckpoint, 0, 0 + 0, true⟩), (kDiagnostics, ⟨kDiagnostics, 0, 0 + 0, true⟩),
       (kRecord, ⟨kRecord, 0, 0 + 0, true⟩)] := by rfl
  rw [this] at h
  cases h
  obtain ⟨n1, n2, n3, _, _⟩ := names_ne
  refine ⟨?_, ?_, ?_⟩
  · show List.Nodup [kCheckpoint, kDiagnostics, kRecord]
    decide
  · intro k t ht
    simp only [SMap.get?] at ht
    split at ht
    · cases ht; assumption
    · split at ht
      · cases ht; assumption
      · split at ht
        · cases ht; assumption
        · cases ht
  · intro k t ht hk
    simp only [List.mem_cons, List.not_mem_nil, or_false, not_or] at hk
    simp only [SMap.get?] at ht
    split at ht
    · rename_i e; exact absurd e.symm hk.2.2
    · split at ht
      · rename_i e; exact absurd e.symm hk.1
      · split at ht
        · rename_i e; exact absurd e.symm hk.2.1
        · cases ht

theorem Tidy.set {s : Schedule τ} (h : Tidy s) {k : Str} {t t' : TaskRec τ} (ht : s.get? k = some t)
    (hk : k ∈ [kDiagnostics, kRecord, kCheckpoint]) (hn : t'.name = t.name) : Tidy (s.set k t') := by
  refine ⟨SMap.wf_set h.wf _ _, ?_, ?_⟩
  · intro j u hu
    rw [SMap.get?_set] at hu
    by_cases hj : k = j
    · simp only [hj, if_true, Option.some.injEq] at hu; subst hu hj; rw [hn]; exact h.name _ _ ht
    · simp only [hj, if_false] at hu; exact h.name j u hu
  · intro j u hu hn'
    rw [SMap.get?_set] at hu
    by_cases hj : k = j
    · subst hj; exact absurd hk hn'
    · simp only [hj, if_false] at hu; exact h.due j u hu hn'

/-- After a round of tasks nothing is due. -/
theorem tidy_runTasks {e : Env σ τ μ D} {w w' : World σ τ μ D} (hs : Tidy w.1.schedule)
    (h : Binary.runTasks e w = .ok w') :
    Tidy w'.1.schedule ∧ ∀ k t, w'.1.schedule.get? k = some t → t.due = false := by
  obtain ⟨n1, n2, n3, _, _⟩ := names_ne
  obtain ⟨tD, tR, tC, gD, gR, gC, hsch, _⟩ := runTasks_ok h
  have h1 : Tidy (w.1.schedule.set kDiagnostics (fin tD)) := hs.set gD (by simp) (fin_name _)
  have gR1 : (w.1.schedule.set kDiagnostics (fin tD)).get? kRecord = some tR := by
    rw [SMap.get?_set, if_neg n1, gR]
  have h2 : Tidy ((w.1.schedule.set kDiagnostics (fin tD)).set kRecord (fin tR)) :=
    h1.set gR1 (by simp) (fin_name _)
  have gC2 : ((w.1.schedule.set kDiagnostics (fin tD)).set kRecord (fin tR)).get? kCheckpoint = some tC := by
    rw [SMap.get?_set, if_neg n3, SMap.get?_set, if_neg n2, gC]
  have h3 : Tidy w'.1.schedule := by rw [hsch]; exact h2.set gC2 (by simp) (fin_name _)
  refine ⟨h3, fun k t ht => ?_⟩
  by_cases hk : k ∈ [kDiagnostics, kRecord, kCheckpoint]
  · obtain ⟨u, _, hu⟩ := runTasks_get? h hk
    rw [hu] at ht; cases ht
    exact fin_due u
  · exact h3.due k t ht hk

theorem markLoop_tidy [Add τ] [Sub τ] [LinearOrder τ] {orig s s' : Schedule τ} {time : τ} {iv : List (Str × τ)}
    (hiv : ∀ p ∈ iv, p.1 ∈ [kDiagnostics, kRecord, kCheckpoint]) (hs : Tidy s)
    (h : markLoop orig time iv s = .ok s') : Tidy s' := by
  induction iv generalizing s with
  | nil => cases h; exact hs
  | cons p iv ih =>
    simp only [markLoop, Outcome.bind_eq_ok] at h
    obtain ⟨l, _, h⟩ := h
    have hiv' : ∀ q ∈ iv, q.1 ∈ [kDiagnostics, kRecord, kCheckpoint] :=
      fun q hq => hiv q (List.mem_cons_of_mem _ hq)
    by_cases hc : time - l ≥ p.2
    · simp only [hc, if_true, Outcome.bind_eq_ok, markAsDue_ok] at h
      obtain ⟨s1, ⟨t, ht, rfl⟩, h⟩ := h
      refine ih hiv' (hs.set ht (hiv p List.mem_cons_self) ?_) h
      rfl
    · simp only [hc, if_false] at h
      exact ih hiv' hs h

theorem tidy_next [Add τ] [Sub τ] [Mul τ] [LinearOrder τ] {e : Env σ τ μ D} {s s' : State σ τ μ} (hs : Tidy s.schedule)
    (h : nextState e s = .ok s') : Tidy s'.schedule := by
  simp only [nextState, nextSchedule, Outcome.bind_eq_ok, Outcome.ok.injEq, markTasks] at h
  obtain ⟨sol, hsol, sch, ⟨a, ha, b, hb, c, hc, hm⟩, rfl⟩ := h
  refine markLoop_tidy (fun p hp => ?_) hs hm
  simp only [List.mem_cons, List.not_mem_nil, or_false] at hp
  rcases hp with rfl | rfl | rfl <;> simp

theorem tidy_create [Zero τ] [Add τ] {fresh : Config τ → Outcome σ} {fs : Str → Option (Checkpoint σ τ μ)}
    {cfg : Config τ} {s : State σ τ μ} (h : createState fresh fs cfg = .ok s) :
    Tidy s.schedule ∧ s.config = cfg ∧ ∃ r, cfg.getString kRestart = .ok r := by
  simp only [createState, Outcome.bind_eq_ok] at h
  obtain ⟨r, hr, h⟩ := h
  by_cases hn : r.isEmpty = true
  · rw [if_pos hn] at h
    simp only [Outcome.bind_eq_ok, Outcome.ok.injEq] at h
    obtain ⟨sol, _, sch, hsch, rfl⟩ := h
    exact ⟨tidy_created hsch, rfl, r, hr⟩
  · rw [if_neg hn] at h
    cases hf : fs r with
    | none => rw [hf] at h; cases h
    | some c =>
      rw [hf] at h
      simp only [readState, Outcome.bind_eq_ok, Outcome.ok.injEq] at h
      obtain ⟨sol, _, ser, _, sch, hsch, rfl⟩ := h
      refine ⟨?_, rfl, r, hr⟩
      simp only [openSchedule] at hsch
      split at hsch
      · cases hsch; exact tidy_read _
      · cases hsch

/-- A schedule in which nothing is due is read back as it was written. -/
theorem read_write_tidy {s : Schedule τ} (hs : Tidy s) (hd : ∀ k t, s.get? k = some t → t.due = false) :
    readSchedule (writeSchedule s) = s := by
  rw [readSchedule_write hs.wf]
  conv_rhs => rw [← List.map_id s]
  refine List.map_congr_left fun p hp => ?_
  have hg := SMap.get?_of_mem hs.wf (k := p.1) (v := p.2) hp
  have h1 := hs.name _ _ hg
  have h2 := hd _ _ hg
  obtain ⟨k, ⟨nm, n, l, d⟩⟩ := p
  simp only at h1 h2
  subst h1 h2
  rfl

/-- With nothing due a round of tasks does nothing. -/
theorem runTasks_idle {e : Env σ τ μ D} {w : World σ τ μ D}
    (hk : ∀ k ∈ [kDiagnostics, kRecord, kCheckpoint], ∃ t, w.1.schedule.get? k = some t ∧ t.due = false) :
    Binary.runTasks e w = .ok w := by
  have h : ∀ k ∈ [kDiagnostics, kRecord, kCheckpoint], w.1.schedule.isDue k = .ok false :=
    fun k hk' => by
      obtain ⟨t, ht, hd⟩ := hk k hk'
      exact isDue_ok.2 ⟨t, ht, hd⟩
  simp [Binary.runTasks, runScheduledTasks, runLoop, h kDiagnostics (by simp), h kRecord (by simp),
    h kCheckpoint (by simp)]

end Binary

/-- The configuration of a run restarted with no other argument: that of the run, with the name of the
restart file. -/
theorem createRunConfig_restart {stod : Str → Outcome τ} {t : Template τ}
    {fs : Str → Option (Checkpoint σ τ μ)} {group f : Str} {c : Checkpoint σ τ μ} {cfg : Config τ}
    (hreach : Reachable stod t cfg) (ht : t.WF) (hr : ∃ r, cfg.params.get? kRestart = some (.str r))
    (hne : ∀ k ≠ kRestart, cfg.params.get? k ≠ some (.str []))
    (hf : fs f = some c) (hc : c.get? group = some (.config (writeConfig cfg))) :
    createRunConfig stod t fs group [(kRestart, f)] = .ok (restartAt f cfg) := by
  obtain ⟨e1, e2, e3⟩ := config_keys_types hreach
  have hw : cfg.params.WF := by unfold SMap.WF; rw [e2]; exact ht
  have hread : ∀ k, (readConfig (writeConfig cfg)).get? k = (cfg.params.get? k).map stored :=
    readConfig_writeConfig hw
  have hidx : ∀ v : Param τ, (stored v).index = v.index := by intro v; cases v <;> rfl
  obtain ⟨c1, h1⟩ : ∃ c1, (Template.create t).update (readConfig (writeConfig cfg)) = .ok c1 := by
    refine update_ok fun p hp => ?_
    have hg := SMap.get?_of_mem (readConfig_wf (writeConfig cfg)) (k := p.1) (v := p.2) hp
    rw [hread] at hg
    cases hv : cfg.params.get? p.1 with
    | none => rw [hv] at hg; cases hg
    | some v =>
      rw [hv] at hg
      have hp2 : p.2 = stored v := by simpa using hg.symm
      have := e3 p.1
      rw [hv] at this
      cases hd : t.get? p.1 with
      | none => rw [hd] at this; cases this
      | some d =>
        rw [hd] at this
        exact ⟨d, hd, by rw [hp2, hidx]; simpa using this⟩
  obtain ⟨a1, a2, a3⟩ := update_eq_ok h1 (readConfig_wf _)
  have a4 : c1.params.keys = c1.template.keys := update_keys h1 rfl
  obtain ⟨r, hr⟩ := hr
  obtain ⟨d, hd, hdi⟩ : ∃ d, t.get? kRestart = some d ∧ d.index = 2 := by
    have := e3 kRestart
    rw [hr] at this
    cases hd : t.get? kRestart with
    | none => rw [hd] at this; cases this
    | some d => rw [hd] at this; exact ⟨d, rfl, by simpa [Param.index] using this.symm⟩
  obtain ⟨r', rfl⟩ : ∃ r', d = .str r' := by
    cases d with
    | int i => cases hdi
    | dbl x => cases hdi
    | str s => exact ⟨s, rfl⟩
  have h2 : c1.updateText stod [(kRestart, f)] = .ok ⟨c1.params.set kRestart (.str f), c1.template⟩ := by
    have : c1.setText stod kRestart f = .ok ⟨c1.params.set kRestart (.str f), c1.template⟩ :=
      setText_eq_ok.2 ⟨.str r', .str f, by rw [a1]; exact hd, rfl, rfl, rfl⟩
    simp only [Config.updateText, this, Outcome.bind_ok]
  have hargs : SMap.get? [(kRestart, f)] kRestart = some f := by simp [SMap.get?]
  simp only [createRunConfig, hargs, hf, openConfig, hc, Outcome.bind_ok, h1, h2]
  refine congrArg Outcome.ok ?_
  have ht1 : c1.template = cfg.template := by rw [a1, e1]; rfl
  unfold restartAt
  rw [ht1]
  have hk : c1.params.keys = cfg.params.keys := by rw [a4, ht1, e1, e2]
  have hmem : kRestart ∈ cfg.params.keys := SMap.get?_isSome.1 (by rw [hr]; rfl)
  have : c1.params.set kRestart (.str f) = cfg.params.set kRestart (.str f) := by
    refine SMap.ext ?_ ?_ ?_
    · rw [SMap.keys_set_mem _ hmem, SMap.keys_set_mem _ (by rw [hk]; exact hmem), hk]
    · refine SMap.wf_set ?_ _ _
      unfold SMap.WF; rw [hk]; exact hw
    · intro k
      rw [SMap.get?_set, SMap.get?_set]
      by_cases hkr : kRestart = k
      · simp [hkr]
      · simp only [hkr, if_false]
        rw [a3 k, hread k]
        have hn := hne k fun e => hkr e.symm
        cases hv : cfg.params.get? k with
        | some v =>
          rw [hv] at hn
          cases v with
          | int i => rfl
          | dbl x => rfl
          | str s =>
            cases s with
            | nil => exact absurd rfl hn
            | cons a s => rfl
        | none =>
          have h3 := e3 k
          rw [hv] at h3
          cases hd' : t.get? k with
          | none => exact hd'
          | some d => rw [hd'] at h3; cases h3
  rw [this]

end Verif.Runs
