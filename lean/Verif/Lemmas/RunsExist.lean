import Verif.Lemmas.Runs

/-!
# When the body of the loop succeeds
-/

namespace Verif.Runs.App
open Verif Verif.Text Verif.Config Verif.Sched

variable {σ τ D : Type}

theorem markLoop_exists [Add τ] [Sub τ] [LinearOrder τ] {orig : Schedule τ} {time : τ} :
    ∀ {iv : List (Str × τ)} {next : Schedule τ}, (∀ p ∈ iv, p.1 ∈ orig.keys ∧ p.1 ∈ next.keys) →
    ∃ s', markLoop orig time iv next = .ok s' := by
  intro iv
  induction iv with
  | nil => exact fun _ => ⟨_, rfl⟩
  | cons p iv ih =>
    intro next h
    obtain ⟨name, x⟩ := p
    obtain ⟨h1, h2⟩ := h (name, x) List.mem_cons_self
    obtain ⟨t, ht⟩ := Option.isSome_iff_exists.1 (SMap.get?_isSome.2 h1)
    obtain ⟨t', ht'⟩ := Option.isSome_iff_exists.1 (SMap.get?_isSome.2 h2)
    have hl : orig.lastPerformed name = .ok t.last := by
      rw [Schedule.lastPerformed, at_ok.2 ht, Outcome.map_ok]
    rw [markLoop, hl, Outcome.bind_ok]
    split
    · rw [markAsDue_ok.2 ⟨t', ht', rfl⟩, Outcome.bind_ok]
      refine ih fun q hq => ?_
      rw [SMap.keys_set_mem _ h2]
      exact h q (List.mem_cons_of_mem _ hq)
    · exact ih fun q hq => h q (List.mem_cons_of_mem _ hq)

theorem taskLoop_exists {s : State σ τ} : ∀ {tasks : List (Str × (State σ τ → Outcome (Files σ τ Unit D)))} {w : World σ τ D},
    (∀ p ∈ tasks, p.1 ∈ s.schedule.keys ∧ p.1 ∈ w.1.schedule.keys ∧ ∃ f, p.2 s = .ok f) →
    ∃ w', taskLoop s tasks w = .ok w' := by
  intro tasks
  induction tasks with
  | nil => exact fun _ => ⟨_, rfl⟩
  | cons p tasks ih =>
    intro w h
    obtain ⟨name, f⟩ := p
    obtain ⟨h1, h2, g, hg⟩ := h (name, f) List.mem_cons_self
    obtain ⟨t, ht⟩ := Option.isSome_iff_exists.1 (SMap.get?_isSome.2 h1)
    obtain ⟨t', ht'⟩ := Option.isSome_iff_exists.1 (SMap.get?_isSome.2 h2)
    rw [taskLoop, isDue_ok.2 ⟨t, ht, rfl⟩, Outcome.bind_ok]
    split
    · rw [show f s = .ok g from hg, Outcome.bind_ok, completed_ok.2 ⟨t', ht', rfl⟩, Outcome.bind_ok]
      refine ih fun q hq => ?_
      show _ ∧ q.1 ∈ (w.1.schedule.set name _).keys ∧ _
      rw [SMap.keys_set_mem _ h2]
      exact h q (List.mem_cons_of_mem _ hq)
    · exact ih fun q hq => h q (List.mem_cons_of_mem _ hq)

/-- The parameters that a program asks for in the loop are there, and so are its tasks. -/
structure Ready (k : Kind) (cfg : Config τ) (s : State σ τ) : Prop where
  config : s.config = cfg
  tasks : ∀ p ∈ cadences k, p.1 ∈ s.schedule.keys

theorem runTasks_exists {e : Env σ τ D} {k : Kind} {cfg : Config τ} {s : State σ τ} {f : Files σ τ Unit D} (h : Ready k cfg s)
    (hout : k ≠ .boilerplate → ∃ d, cfg.getString kOutdir = .ok d) : ∃ w', runTasks e k (s, f) = .ok w' := by
  refine taskLoop_exists fun p hp => ?_
  have hpath : ∀ name, ∃ d, k.path s.config name = .ok d := by
    intro name
    rw [h.config]
    cases k
    · exact ⟨_, rfl⟩
    · obtain ⟨d, hd⟩ := hout (by decide)
      exact ⟨Path.join [d, name], by simp only [Kind.path]; rw [hd, Outcome.map_ok]⟩
    · obtain ⟨d, hd⟩ := hout (by decide)
      exact ⟨Path.join [d, name], by simp only [Kind.path]; rw [hd, Outcome.map_ok]⟩
  have hk : p.1 ∈ s.schedule.keys := by
    have : p.1 ∈ (cadences k).map Prod.fst := by
      rw [← taskList_names e]
      exact List.mem_map.2 ⟨p, hp, rfl⟩
    obtain ⟨q, hq, e'⟩ := List.mem_map.1 this
    rw [← e']
    exact h.tasks q hq
  refine ⟨hk, hk, ?_⟩
  have hnum : ∀ name ∈ s.schedule.keys, ∃ n, s.schedule.numTimesPerformed name = .ok n := by
    intro name hn
    obtain ⟨t, ht⟩ := Option.isSome_iff_exists.1 (SMap.get?_isSome.2 hn)
    exact ⟨_, num_ok.2 ⟨t, ht, rfl⟩⟩
  obtain ⟨n, hn⟩ := hnum _ hk
  have c1 : p.1 = kCheckpoint → ∃ f, writeCheckpoint (D := D) k s = .ok f := by
    intro hp
    rw [hp] at hn
    obtain ⟨d, hd⟩ := hpath (Path.numbered "chkpt".toList n "h5".toList)
    exact ⟨_, by rw [writeCheckpoint, hn, Outcome.bind_ok, hd, Outcome.bind_ok]⟩
  have c2 : p.1 = kDiagnostics → ∃ f, writeDiagnostics e k s = .ok f := by
    intro hp
    rw [hp] at hn
    obtain ⟨d, hd⟩ := hpath (Path.numbered "diagnostics".toList n "h5".toList)
    exact ⟨_, by rw [writeDiagnostics, hn, Outcome.bind_ok, hd, Outcome.bind_ok]⟩
  have c3 : p.1 = kSeries → ∃ f, writeTimeSeries e k s = .ok f := by
    intro hp
    rw [hp] at hn
    obtain ⟨d, hd⟩ := hpath "time_series.h5".toList
    unfold writeTimeSeries
    cases k
    · exact ⟨_, by dsimp only; rw [hd, Outcome.bind_ok, hn, Outcome.bind_ok]⟩
    · exact ⟨_, by dsimp only; rw [hd, Outcome.bind_ok, hn, Outcome.bind_ok]⟩
    · exact ⟨_, rfl⟩
  cases k
  · simp only [taskList, List.mem_cons, List.not_mem_nil, or_false] at hp
    subst hp
    exact c1 rfl
  · simp only [taskList, List.mem_cons, List.not_mem_nil, or_false] at hp
    rcases hp with rfl | rfl | rfl
    · exact c1 rfl
    · exact c2 rfl
    · exact c3 rfl
  · simp only [taskList, List.mem_cons, List.not_mem_nil, or_false] at hp
    rcases hp with rfl | rfl | rfl
    · exact c1 rfl
    · exact c2 rfl
    · exact c3 rfl

theorem runTasks_ready {e : Env σ τ D} {k : Kind} {cfg : Config τ} {w w' : World σ τ D} (h : Ready k cfg w.1) (he : runTasks e k w = .ok w') :
    Ready k cfg w'.1 ∧ w'.1.solution = w.1.solution := by
  obtain ⟨h1, h2, h3, _⟩ := runTasks_ok he
  exact ⟨⟨h2.trans h.config, fun p hp => by rw [h3]; exact h.tasks p hp⟩, h1⟩

/-- What is left of a body that succeeds. -/
theorem body_ready [Add τ] [Sub τ] [LinearOrder τ] {e : Env σ τ D} {k : Kind} {cfg : Config τ} {w w' : World σ τ D} (h : Ready k cfg w.1)
    (he : body e k w = .ok w') : Ready k cfg w'.1 ∧ e.advance cfg w.1.solution = .ok w'.1.solution := by
  obtain ⟨s, hs, hr⟩ := Outcome.bind_eq_ok.1 he
  obtain ⟨h1, h2, h3, _⟩ := next_ok hs
  have hs' : Ready k cfg s := ⟨h1.trans h.config, fun p hp => by rw [h3]; exact h.tasks p hp⟩
  obtain ⟨a, b⟩ := runTasks_ready (w := (s, w.2)) hs' hr
  refine ⟨a, ?_⟩
  rw [b, ← h2, h.config]

/-- The body succeeds if the step does. -/
theorem body_exists [Add τ] [Sub τ] [LinearOrder τ] {e : Env σ τ D} {k : Kind} {cfg : Config τ} {w : World σ τ D} (h : Ready k cfg w.1)
    (hint : ∀ p ∈ cadences k, ∃ x, cfg.getDouble p.2 = .ok x) (hout : k ≠ .boilerplate → ∃ d, cfg.getString kOutdir = .ok d) {sol : σ}
    (hadv : e.advance cfg w.1.solution = .ok sol) : ∃ w', body e k w = .ok w' := by
  have hiv : ∃ iv, intervals k w.1.config = .ok iv ∧ iv.map Prod.fst = (cadences k).map Prod.fst := by
    rw [h.config]
    cases k
    · obtain ⟨x, hx⟩ := hint (kCheckpoint, kCpi) (by decide)
      exact ⟨[(kCheckpoint, x)], by simp only [intervals, show cfg.getDouble kCpi = .ok x from hx, Outcome.bind_ok], rfl⟩
    · obtain ⟨x, hx⟩ := hint (kCheckpoint, kCpi) (by decide)
      obtain ⟨y, hy⟩ := hint (kDiagnostics, kDfi) (by decide)
      obtain ⟨z, hz⟩ := hint (kSeries, kTsi) (by decide)
      exact ⟨[(kCheckpoint, x), (kDiagnostics, y), (kSeries, z)], by
        simp only [intervals, show cfg.getDouble kCpi = .ok x from hx, show cfg.getDouble kDfi = .ok y from hy,
          show cfg.getDouble kTsi = .ok z from hz, Outcome.bind_ok], rfl⟩
    · obtain ⟨x, hx⟩ := hint (kCheckpoint, kCpi) (by decide)
      obtain ⟨y, hy⟩ := hint (kDiagnostics, kDfi) (by decide)
      obtain ⟨z, hz⟩ := hint (kSeries, kTsi) (by decide)
      exact ⟨[(kCheckpoint, x), (kDiagnostics, y), (kSeries, z)], by
        simp only [intervals, show cfg.getDouble kCpi = .ok x from hx, show cfg.getDouble kDfi = .ok y from hy,
          show cfg.getDouble kTsi = .ok z from hz, Outcome.bind_ok], rfl⟩
  obtain ⟨iv, e1, hn⟩ := hiv
  obtain ⟨sch, e2⟩ := markLoop_exists (orig := w.1.schedule) (time := e.time w.1.solution) (iv := iv) (next := w.1.schedule) fun p hp => by
    have : p.1 ∈ (cadences k).map Prod.fst := by
      rw [← hn]
      exact List.mem_map.2 ⟨p, hp, rfl⟩
    obtain ⟨q, hq, e'⟩ := List.mem_map.1 this
    rw [← e']
    exact ⟨h.tasks q hq, h.tasks q hq⟩
  have e3 : next e k w.1 = .ok ⟨sol, sch, w.1.config⟩ := by
    have ha : e.advance w.1.config w.1.solution = .ok sol := by rw [h.config]; exact hadv
    rw [next, ha, Outcome.bind_ok, nextSchedule, e1, Outcome.bind_ok, markTasks, e2, Outcome.bind_ok]
  obtain ⟨_, _, h3, _⟩ := next_ok e3
  rw [body, e3, Outcome.bind_ok]
  exact runTasks_exists (cfg := cfg) ⟨h.config, fun p hp => by rw [h3]; exact h.tasks p hp⟩ hout

/-- A new run starts ready. -/
theorem createState_ready [Zero τ] [Add τ] {k : Kind} {fresh : Config τ → Outcome σ} {fs : Str → Option (Checkpoint σ τ Unit)} {cfg : Config τ}
    {sol : σ} (hr : cfg.getString kRestart = .ok []) (hs : fresh cfg = .ok sol) :
    ∃ s, createState k fresh fs cfg = .ok s ∧ Ready k cfg s ∧ s.solution = sol := by
  have hn : ∃ sch : Schedule τ, newSchedule k = .ok sch ∧ ∀ p ∈ cadences k, p.1 ∈ sch.keys := by
    cases k
    · refine ⟨[(kCheckpoint, ⟨kCheckpoint, 0, 0 + 0, true⟩)], rfl, ?_⟩
      simp [cadences, SMap.keys]
    · refine ⟨[(kCheckpoint, ⟨kCheckpoint, 0, 0 + 0, true⟩), (kDiagnostics, ⟨kDiagnostics, 0, 0 + 0, true⟩),
         (kSeries, ⟨kSeries, 0, 0 + 0, true⟩)], rfl, ?_⟩
      simp [cadences, SMap.keys]
    · refine ⟨[(kCheckpoint, ⟨kCheckpoint, 0, 0 + 0, true⟩), (kDiagnostics, ⟨kDiagnostics, 0, 0 + 0, true⟩),
         (kSeries, ⟨kSeries, 0, 0 + 0, true⟩)], rfl, ?_⟩
      simp [cadences, SMap.keys]
  obtain ⟨sch, e, h⟩ := hn
  refine ⟨⟨sol, sch, cfg⟩, ?_, ⟨rfl, h⟩, rfl⟩
  rw [createState, hr, Outcome.bind_ok, List.isEmpty_nil, if_pos rfl, hs, Outcome.bind_ok, e, Outcome.bind_ok]

end Verif.Runs.App

namespace Verif.Runs.Binary
open Verif Verif.Text Verif.Config Verif.Sched

variable {σ τ μ D : Type}

/-- The tasks of the program are there, and so is its configuration. -/
structure Ready (cfg : Config τ) (s : State σ τ μ) : Prop where
  config : s.config = cfg
  tasks : ∀ name ∈ [kCheckpoint, kDiagnostics, kRecord], name ∈ s.schedule.keys

theorem runLoop_exists {S : Type} {sched : Schedule τ} (I : S → Prop) : ∀ {tasks : List (Str × (S → Outcome S))} {s : S}, I s →
    (∀ p ∈ tasks, p.1 ∈ sched.keys ∧ ∀ s, I s → ∃ s', p.2 s = .ok s' ∧ I s') → ∃ s', runLoop sched tasks s = .ok s' := by
  intro tasks
  induction tasks with
  | nil => exact fun _ _ => ⟨_, rfl⟩
  | cons p tasks ih =>
    intro s hs h
    obtain ⟨name, f⟩ := p
    obtain ⟨h1, h2⟩ := h (name, f) List.mem_cons_self
    obtain ⟨t, ht⟩ := Option.isSome_iff_exists.1 (SMap.get?_isSome.2 h1)
    rw [runLoop, isDue_ok.2 ⟨t, ht, rfl⟩, Outcome.bind_ok]
    split
    · obtain ⟨s', e, hs'⟩ := h2 s hs
      rw [show f s = .ok s' from e, Outcome.bind_ok]
      exact ih hs' fun q hq => h q (List.mem_cons_of_mem _ hq)
    · exact ih hs fun q hq => h q (List.mem_cons_of_mem _ hq)

theorem runTasks_exists {e : Env σ τ μ D} {cfg : Config τ} {w : World σ τ μ D} (h : Ready cfg w.1) {d : Str} (hout : cfg.getString kOutdir = .ok d)
    (hsample : ∃ x, e.sample cfg w.1.solution = .ok x) (hdiag : ∃ x, e.diag cfg w.1.solution = .ok x) : ∃ w', runTasks e w = .ok w' := by
  have hc : ∀ (s : State σ τ μ) name, Ready cfg s → name ∈ [kCheckpoint, kDiagnostics, kRecord] →
      (∃ n, s.schedule.numTimesPerformed name = .ok n) ∧ ∃ s', complete s name = .ok s' ∧ Ready cfg s' ∧ s'.solution = s.solution := by
    intro s name hs hn
    obtain ⟨t, ht⟩ := Option.isSome_iff_exists.1 (SMap.get?_isSome.2 (hs.tasks name hn))
    refine ⟨⟨_, num_ok.2 ⟨t, ht, rfl⟩⟩, _, complete_ok.2 ⟨t, ht, rfl⟩, ⟨hs.config, fun m hm => ?_⟩, rfl⟩
    show m ∈ (s.schedule.set name t.done).keys
    rw [SMap.keys_set_mem _ (hs.tasks name hn)]
    exact hs.tasks m hm
  refine runLoop_exists (fun v : World σ τ μ D => Ready cfg v.1 ∧ v.1.solution = w.1.solution) ⟨h, rfl⟩ fun p hp => ?_
  simp only [List.mem_cons, List.not_mem_nil, or_false] at hp
  obtain ⟨x, hx⟩ := hsample
  obtain ⟨y, hy⟩ := hdiag
  rcases hp with rfl | rfl | rfl
  · refine ⟨h.tasks _ (by simp), fun v hv => ?_⟩
    obtain ⟨⟨n, hn⟩, s', e1, r, e2⟩ := hc v.1 kDiagnostics hv.1 (by simp)
    refine ⟨(s', v.2 ++ [(Path.join [d, Path.numbered "diagnostics".toList n "h5".toList], .diagnostics y (writeConfig v.1.config))]), ?_, r, e2.trans hv.2⟩
    dsimp only [writeDiagnostics]
    rw [hv.1.config, hout, Outcome.bind_ok, hn, Outcome.bind_ok, hv.2, hy, Outcome.bind_ok, e1, Outcome.bind_ok]
  · refine ⟨h.tasks _ (by simp), fun v hv => ?_⟩
    obtain ⟨-, s', e1, r, e2⟩ := hc { v.1 with series := x :: v.1.series } kRecord ⟨hv.1.config, hv.1.tasks⟩ (by simp)
    refine ⟨(s', v.2), ?_, r, e2.trans hv.2⟩
    dsimp only [recordTimeSeries]
    rw [hv.1.config, hv.2, hx, Outcome.bind_ok]
    have e1 : complete { solution := v.1.solution, schedule := v.1.schedule, series := x :: v.1.series, config := v.1.config } kRecord = .ok s' := e1
    rw [hv.1.config, hv.2] at e1
    rw [e1, Outcome.map_ok]
  · refine ⟨h.tasks _ (by simp), fun v hv => ?_⟩
    obtain ⟨⟨n, hn⟩, s', e1, r, e2⟩ := hc v.1 kCheckpoint hv.1 (by simp)
    refine ⟨(s', v.2 ++ [(Path.join [d, Path.numbered "chkpt".toList n "h5".toList], .checkpoint (writeState s'))]), ?_, r, e2.trans hv.2⟩
    dsimp only [writeCheckpoint]
    rw [hv.1.config, hout, Outcome.bind_ok, hn, Outcome.bind_ok, e1, Outcome.bind_ok]

theorem runTasks_ready {e : Env σ τ μ D} {cfg : Config τ} {w w' : World σ τ μ D} (h : Ready cfg w.1) (he : runTasks e w = .ok w') :
    Ready cfg w'.1 ∧ w'.1.solution = w.1.solution := by
  obtain ⟨_, _, _, _, _, _, _, hs, hc, _⟩ := runTasks_ok he
  exact ⟨⟨hc.trans h.config, fun p hp => by rw [runTasks_keys he]; exact h.tasks p hp⟩, hs⟩

theorem body_ready [Add τ] [Sub τ] [Mul τ] [LinearOrder τ] {e : Env σ τ μ D} {cfg : Config τ} {w w' : World σ τ μ D} (h : Ready cfg w.1)
    (he : body e w = .ok w') : Ready cfg w'.1 ∧ e.advance cfg w.1.solution = .ok w'.1.solution := by
  obtain ⟨s, hs, hr⟩ := Outcome.bind_eq_ok.1 he
  obtain ⟨h1, _, h2, h3, _⟩ := nextState_ok hs
  have hs' : Ready cfg s := ⟨h1.trans h.config, fun p hp => by rw [h3]; exact h.tasks p hp⟩
  obtain ⟨a, b⟩ := runTasks_ready (w := (s, w.2)) hs' hr
  refine ⟨a, ?_⟩
  rw [b, ← h2, h.config]

/-- The body succeeds if the step, the sample and the diagnostics after it do. -/
theorem body_exists [Add τ] [Sub τ] [Mul τ] [LinearOrder τ] {e : Env σ τ μ D} {cfg : Config τ} {w : World σ τ μ D} (h : Ready cfg w.1)
    (hint : ∀ key ∈ [kCpi, kDfi, kTsi], ∃ x, cfg.getDouble key = .ok x) {d : Str} (hout : cfg.getString kOutdir = .ok d) {sol : σ}
    (hadv : e.advance cfg w.1.solution = .ok sol) (hsample : ∃ x, e.sample cfg sol = .ok x) (hdiag : ∃ x, e.diag cfg sol = .ok x) :
    ∃ w', body e w = .ok w' := by
  obtain ⟨x, hx⟩ := hint kCpi (by simp)
  obtain ⟨y, hy⟩ := hint kDfi (by simp)
  obtain ⟨z, hz⟩ := hint kTsi (by simp)
  obtain ⟨sch, e2⟩ := App.markLoop_exists (orig := w.1.schedule) (time := e.time w.1.solution)
    (iv := [(kCheckpoint, x * e.twoPi), (kDiagnostics, y * e.twoPi), (kRecord, z * e.twoPi)]) (next := w.1.schedule) fun p hp => by
      simp only [List.mem_cons, List.not_mem_nil, or_false] at hp
      rcases hp with rfl | rfl | rfl
      · exact ⟨h.tasks _ (by simp), h.tasks _ (by simp)⟩
      · exact ⟨h.tasks _ (by simp), h.tasks _ (by simp)⟩
      · exact ⟨h.tasks _ (by simp), h.tasks _ (by simp)⟩
  have e3 : nextState e w.1 = .ok ⟨sol, sch, w.1.series, w.1.config⟩ := by
    have ha : e.advance w.1.config w.1.solution = .ok sol := by rw [h.config]; exact hadv
    rw [nextState, ha, Outcome.bind_ok, nextSchedule, h.config, hx, Outcome.bind_ok, hy, Outcome.bind_ok, hz, Outcome.bind_ok, markTasks, e2,
      Outcome.bind_ok]
  obtain ⟨_, _, _, h3, _⟩ := nextState_ok e3
  rw [body, e3, Outcome.bind_ok]
  exact runTasks_exists (cfg := cfg) ⟨h.config, fun p hp => by rw [h3]; exact h.tasks p hp⟩ hout hsample hdiag

/-- A new run starts ready. -/
theorem createState_ready [Zero τ] [Add τ] {fresh : Config τ → Outcome σ} {fs : Str → Option (Checkpoint σ τ μ)} {cfg : Config τ}
    {sol : σ} (hr : cfg.getString kRestart = .ok []) (hs : fresh cfg = .ok sol) :
    ∃ s, createState fresh fs cfg = .ok s ∧ Ready cfg s ∧ s.solution = sol := by
  have hn : ∃ sch : Schedule τ, createSchedule = .ok sch ∧ ∀ name ∈ [kCheckpoint, kDiagnostics, kRecord], name ∈ sch.keys := by
    refine ⟨[(kCheckpoint, ⟨kCheckpoint, 0, 0 + 0, true⟩), (kDiagnostics, ⟨kDiagnostics, 0, 0 + 0, true⟩), (kRecord, ⟨kRecord, 0, 0 + 0, true⟩)], rfl, ?_⟩
    simp [SMap.keys]
  obtain ⟨sch, e, h⟩ := hn
  refine ⟨⟨sol, sch, [], cfg⟩, ?_, ⟨rfl, h⟩, rfl⟩
  rw [createState, hr, Outcome.bind_ok, List.isEmpty_nil, if_pos rfl, hs, Outcome.bind_ok, e, Outcome.bind_ok]

end Verif.Runs.Binary
