import Verif.Spec.BinarySeries
import Verif.Props.BinaryRun
import Verif.Props.BinarySetup
import Verif.Lemmas.Runs

/-!
# The time series of a run of the binary program (C116)
-/

namespace Verif.Runs.Binary

open Verif Verif.Text Verif.Config Verif.Sched

variable {σ τ μ D : Type}

/-- What the steps keep, and the samples, holds of the solution and the time series of every checkpoint: `I s l` of a solution and the time series, newest first. -/
theorem runTasks_invariant {e : Env σ τ μ D} {I : Config τ → σ → List μ → Prop} (hrec : ∀ c s l x, I c s l → e.sample c s = .ok x → I c s (x :: l))
    {w w' : World σ τ μ D} (h : runTasks e w = .ok w') (hI : I w.1.config w.1.solution w.1.series) :
    I w'.1.config w'.1.solution w'.1.series ∧
    ∀ f c, (f, Content.checkpoint c) ∈ w'.2 → (f, Content.checkpoint c) ∈ w.2 ∨
      ∃ k s l, openSolution c kSolution = .ok s ∧ openSeries c kTimeSeries = .ok l.reverse ∧ I k s l := by
  obtain ⟨tD, tR, tC, _, _, _, _, hsol, hcfg, ⟨xs, hx, hlen, hsam⟩, Nd, Nc, hf, hd, hc⟩ := runTasks_ok h
  have hI' : I w'.1.config w'.1.solution w'.1.series := by
    rw [hsol, hcfg, hx]
    split at hlen
    · obtain ⟨x, rfl⟩ := List.length_eq_one_iff.1 hlen
      exact hrec _ _ _ x hI (hsam x (by simp))
    · rw [List.length_eq_zero_iff.1 hlen]
      exact hI
  refine ⟨hI', fun f c hm => ?_⟩
  rw [hf] at hm
  rcases List.mem_append.1 hm with hm | hm
  · exact .inl hm
  rcases List.mem_append.1 hm with hm | hm
  · split at hd
    · obtain ⟨outdir, d, _, _, rfl⟩ := hd
      simp at hm
    · subst hd; cases hm
  · split at hc
    · obtain ⟨outdir, _, rfl⟩ := hc
      simp only [List.mem_singleton, Prod.mk.injEq, Content.checkpoint.injEq] at hm
      obtain ⟨rfl, rfl⟩ := hm
      exact .inr ⟨_, w'.1.solution, w'.1.series, rfl, rfl, hI'⟩
    · subst hc; cases hm

theorem finishes_invariant [Add τ] [Sub τ] [Mul τ] [Div τ] [LinearOrder τ] {e : Env σ τ μ D} {I : Config τ → σ → List μ → Prop}
    (hstep : ∀ c s s' l, I c s l → e.advance c s = .ok s' → I c s' l) (hrec : ∀ c s l x, I c s l → e.sample c s = .ok x → I c s (x :: l))
    {w w' : World σ τ μ D} {n : Nat} (h : Finishes e w n w') (hI : I w.1.config w.1.solution w.1.series) :
    I w'.1.config w'.1.solution w'.1.series ∧
    ∀ f c, (f, Content.checkpoint c) ∈ w'.2 → (f, Content.checkpoint c) ∈ w.2 ∨
      ∃ k s l, openSolution c kSolution = .ok s ∧ openSeries c kTimeSeries = .ok l.reverse ∧ I k s l := by
  have hbody : ∀ {w w' : World σ τ μ D}, body e w = .ok w' → I w.1.config w.1.solution w.1.series → I w'.1.config w'.1.solution w'.1.series ∧
      ∀ f c, (f, Content.checkpoint c) ∈ w'.2 → (f, Content.checkpoint c) ∈ w.2 ∨
        ∃ k s l, openSolution c kSolution = .ok s ∧ openSeries c kTimeSeries = .ok l.reverse ∧ I k s l := by
    intro w w' h hI
    obtain ⟨s, hs, h⟩ := Outcome.bind_eq_ok.1 h
    obtain ⟨h1, h2, h3, _⟩ := nextState_ok hs
    refine runTasks_invariant (w := (s, w.2)) hrec h ?_
    show I s.config s.solution s.series
    rw [h1, h2]
    exact hstep _ _ _ _ hI h3
  induction h with
  | exit _ h => exact hbody h hI
  | loop _ h _ ih =>
    obtain ⟨a1, a2⟩ := hbody h hI
    obtain ⟨b1, b2⟩ := ih a1
    refine ⟨b1, fun f c hm => ?_⟩
    rcases b2 f c hm with hm | hm
    · exact a2 f c hm
    · exact .inr hm

end Verif.Runs.Binary

namespace Verif.Binary

open Verif Verif.Nd Verif.Tree Iso2d TwoBody

variable {sh : Nat → Outcome Nat} {D' : Type}

/-- What is returned is about the given centre of mass. -/
theorem twoBody_centre {p : FullElements} {t : ℝ} {b : State} (h : fullTwoBodyState p t = .ok b) (hq : 0 < p.elements.massRatio) :
    b.body1.x + p.elements.massRatio * b.body2.x = (1 + p.elements.massRatio) * p.cmX ∧
    b.body1.y + p.elements.massRatio * b.body2.y = (1 + p.elements.massRatio) * p.cmY := by
  have hR : ∀ E s, makeResult p.elements E = .ok s → s.body1.x + p.elements.massRatio * s.body2.x = 0 ∧ s.body1.y + p.elements.massRatio * s.body2.y = 0 := by
    intro E s h
    unfold makeResult at h
    simp only at h
    split at h
    · cases h
    · cases h
      constructor
      · show _ + _ * (-_ / _) = _
        rw [mul_div_cancel₀ _ hq.ne', add_neg_cancel]
      · show _ + _ * (-_ / _) = _
        rw [mul_div_cancel₀ _ hq.ne', add_neg_cancel]
  unfold fullTwoBodyState at h
  obtain ⟨t', _, h⟩ := Outcome.bind_eq_ok.1 h
  obtain ⟨s, hs, rfl⟩ := Outcome.map_eq_ok.1 h
  have key : s.body1.x + p.elements.massRatio * s.body2.x = 0 ∧ s.body1.y + p.elements.massRatio * s.body2.y = 0 := by
    unfold twoBodyState at hs
    simp only at hs
    split at hs
    · cases hs
    split at hs
    · obtain ⟨E, _, hs⟩ := Outcome.bind_eq_ok.1 hs
      exact hR E s hs
    · exact hR _ s hs
  obtain ⟨k1, k2⟩ := key
  unfold place
  dsimp only
  constructor
  · linear_combination Real.cos (-p.pomega) * k1 + Real.sin (-p.pomega) * k2
  · linear_combination -Real.sin (-p.pomega) * k1 + Real.cos (-p.pomega) * k2

/-- A sample of a state of a run, and when there is one. -/
theorem sample_ok {m : SolverData} {D N : Nat} (hm : MeshData m.conserveLinear m D N) {s : Solution} {f : Index 2 → Nat → Nat → Tri}
    (hf : Blocks m.vertices (cons m.conserveLinear s) N N f) {r : Row} (h : sample m s = .ok r) :
    ∃ b, fullTwoBodyState s.orbit s.time = .ok b ∧
      r = ⟨s.time, massOf m N f, angmomOf m N f, s.massEjected, s.angmomEjected, s.massAccreted, s.angmomAccreted, s.torque, s.work, s.orbitAcc, s.orbitGrav,
        s.orbit, (b.body1.x, b.body1.y), (b.body2.x, b.body2.y)⟩ := by
  unfold sample at h
  obtain ⟨b, hb, h⟩ := Outcome.bind_eq_ok.1 h
  rw [diskMass_ok hm hf, Outcome.bind_ok, diskAngmom_ok hm hf, Outcome.bind_ok] at h
  cases h
  exact ⟨b, hb, rfl⟩

theorem massOf_nonneg {m : SolverData} {N : Nat} {f : Index 2 → Nat → Nat → Tri}
    (h : ∀ i c, LeafAt m.vertices i c → ∀ x, x < N → ∀ y, y < N → 0 ≤ (f i x y).a) : 0 ≤ massOf m N f :=
  cellSum_nonneg fun i c hi x hx y hy => mul_nonneg (h i c hi x hx y hy) (sq_nonneg _)

/-- The row that would be recorded, but for the positions of the bodies. -/
noncomputable def rowOf (m : SolverData) (N : Nat) (f : Index 2 → Nat → Nat → Tri) (s : Solution) : Row :=
  ⟨s.time, massOf m N f, angmomOf m N f, s.massEjected, s.angmomEjected, s.massAccreted, s.angmomAccreted, s.torque, s.work, s.orbitAcc, s.orbitGrav,
    s.orbit, (0, 0), (0, 0)⟩

theorem Later.move {m : SolverData} {W : ℝ} {a b : Row} (h : Later m W a b) (p q : ℝ × ℝ) : Later m W a { b with position1 := p, position2 := q } :=
  ⟨h.time, h.accretes, h.mass, h.angmom, h.accretionOrbit, h.gravityOrbit, h.live, h.fixed⟩

theorem later_self (m : SolverData) (a : Row) (p q : ℝ × ℝ) : Later m 0 a { a with position1 := p, position2 := q } :=
  ⟨le_rfl, fun _ => le_rfl, add_zero _, fun _ => rfl, (sub_self _).trans (sub_self a.accreted).symm, rfl,
    fun _ => (sub_self _).trans (sub_self a.accreted).symm, fun _ => rfl⟩

/-- What is so of any history: the state is one of a run, and every row recorded is sane, and earlier than the state and than the rows after it. -/
theorem history_rows (hs : TotalShift sh) {m : SolverData} {D N : Nat} (hm : MeshData m.conserveLinear m D N) (hS : Sound m N) {fuel : Nat}
    {z : Fin 9 → Bool} {s0 s : Solution} (hR : Running m N s0) {rows : List Row} (h : History sh (fuel + 1) z m s0 s rows) :
    Running m N s ∧ (∀ r ∈ rows, r.Sane) ∧
    rows.Pairwise (fun a b => ∃ sa sb W, sample m sa = .ok a ∧ sample m sb = .ok b ∧ Losses sh (fuel + 1) z m N sa sb W ∧ Later m W a b) ∧
    ∀ f, Blocks m.vertices (cons m.conserveLinear s) N N f → ∀ r ∈ rows, ∃ sr W, sample m sr = .ok r ∧ Losses sh (fuel + 1) z m N sr s W ∧
      Later m W r (rowOf m N f s) := by
  induction h with
  | start => exact ⟨hR, by simp, by simp, by simp⟩
  | @step s s' rows _ hn ih =>
    obtain ⟨i1, i2, i3, i4⟩ := ih
    obtain ⟨f, hf, _⟩ := i1.gas
    obtain ⟨q1, q2, q3, q4, q5, q6, q7, g, hg, ⟨V, hV, e⟩, e'⟩ := next_budget hs hm hS i1 hn hf
    refine ⟨q1, i2, i3, fun g' hg' r hr => ?_⟩
    have e1 : massOf m N g = massOf m N g' := Outcome.ok.inj ((diskMass_ok hm hg).symm.trans (diskMass_ok hm hg'))
    have e2 : angmomOf m N g = angmomOf m N g' := Outcome.ok.inj ((diskAngmom_ok hm hg).symm.trans (diskAngmom_ok hm hg'))
    rw [e1] at e
    rw [e2] at e'
    obtain ⟨sr, W, h1, h2, h3⟩ := i4 f hf r hr
    have t1 : r.time ≤ s.time := h3.time
    have b1 : massOf m N f + accreted s + s.massEjected + W = r.diskMass + r.accreted + r.massEjected := h3.mass
    have b2 : m.conserveLinear = false → angmomOf m N f + angmomGiven s = r.diskAngmom + r.angmomGiven := h3.angmom
    have b3 : s.orbitAcc.elements.totalMass - r.orbitAcc.elements.totalMass = accreted s - r.accreted := h3.accretionOrbit
    have b4 : s.orbitGrav.elements.totalMass = r.orbitGrav.elements.totalMass := h3.gravityOrbit
    have b5 : m.beginLive < r.time → s.orbit.elements.totalMass - r.orbit.elements.totalMass = accreted s - r.accreted := h3.live
    have b6 : s.time ≤ m.beginLive → s.orbit.elements.totalMass = r.orbit.elements.totalMass := h3.fixed
    refine ⟨sr, W + V, h1, h2.step hn hV, t1.trans q2, fun k => (h3.accretes k).trans (q3 k), ?_, fun hl => (e' hl).trans (b2 hl), ?_, q5.trans b4, fun hl => ?_,
      fun hl => (q7 hl).trans (b6 (q2.trans hl))⟩
    · show massOf m N g' + accreted s' + s'.massEjected + (W + V) = _
      linarith
    · show s'.orbitAcc.elements.totalMass - _ = accreted s' - _
      linarith
    · show s'.orbit.elements.totalMass - _ = accreted s' - _
      have := b5 hl
      have := q6 (lt_of_lt_of_le hl t1)
      linarith
  | @record s rows r _ hr ih =>
    obtain ⟨i1, i2, i3, i4⟩ := ih
    obtain ⟨f, hf, hpos⟩ := i1.gas
    obtain ⟨b, hb, er⟩ := sample_ok hm hf hr
    obtain ⟨c1, c2⟩ := twoBody_centre hb i1.ratio
    refine ⟨i1, fun a ha => ?_, ?_, fun g hg a ha => ?_⟩
    · rcases List.mem_append.1 ha with ha | ha
      · exact i2 a ha
      · rw [List.mem_singleton.1 ha, er]
        exact ⟨massOf_nonneg hpos, i1.mass, i1.ratio, c1, c2⟩
    · refine List.pairwise_append.2 ⟨i3, by simp, fun a ha b' hb' => ?_⟩
      rw [List.mem_singleton.1 hb']
      obtain ⟨sr, W, h1, h2, h3⟩ := i4 f hf a ha
      refine ⟨sr, s, W, h1, hr, h2, ?_⟩
      rw [er]
      exact h3.move _ _
    · rcases List.mem_append.1 ha with ha | ha
      · exact i4 g hg a ha
      · rw [List.mem_singleton.1 ha]
        refine ⟨s, 0, hr, .none, ?_⟩
        obtain ⟨b', _, er'⟩ := sample_ok hm hg hr
        rw [er']
        exact later_self m _ _ _

/-- **C116**: the time series in every checkpoint that a run writes is a ledger.  The run may be a new one, or the continuation of another run: it begins with a state
reached from `s0` and the rows recorded on the way.  So does a run restarted from the checkpoint, with the same solver data. -/
theorem series_run_partial (hs : TotalShift sh) {m : SolverData} {D N : Nat} (hm : MeshData m.conserveLinear m D N) (hS : Sound m N) {fuel : Nat}
    {z : Fin 9 → Bool} {diag : Config.Config ℝ → Solution → Outcome D'} {s0 : Solution} (hR : Running m N s0)
    {w w1 w2 : Runs.Binary.World Solution ℝ Row D'} (hw : History sh (fuel + 1) z m s0 w.1.solution w.1.series.reverse)
    (h1 : Runs.Binary.runTasks (env sh (fuel + 1) z m diag) w = .ok w1) {n : Nat} (h2 : Runs.Binary.Finishes (env sh (fuel + 1) z m diag) w1 n w2)
    {f : Text.Str} {c : Runs.Checkpoint Solution ℝ Row} (hf : (f, .checkpoint c) ∈ w2.2) :
    (f, .checkpoint c) ∈ w.2 ∨
    ∃ s rows, Runs.openSolution c Runs.kSolution = .ok s ∧ Runs.openSeries c Runs.kTimeSeries = .ok rows ∧ Running m N s ∧ Ledger sh (fuel + 1) z m N rows ∧
      ∀ cfg st, Runs.Binary.readState c cfg = .ok st → History sh (fuel + 1) z m s0 st.solution st.series.reverse := by
  have hstep : ∀ (c : Config.Config ℝ) (s s' : Solution) (l : List Row), History sh (fuel + 1) z m s0 s l.reverse →
      (env sh (fuel + 1) z m diag).advance c s = .ok s' → History sh (fuel + 1) z m s0 s' l.reverse := fun _ _ _ _ h e => h.step e
  have hrec : ∀ (c : Config.Config ℝ) (s : Solution) (l : List Row) (x : Row), History sh (fuel + 1) z m s0 s l.reverse →
      (env sh (fuel + 1) z m diag).sample c s = .ok x → History sh (fuel + 1) z m s0 s (x :: l).reverse := fun _ _ _ _ h e => by
    rw [List.reverse_cons]
    exact h.record e
  obtain ⟨a1, a2⟩ := Runs.Binary.runTasks_invariant (I := fun _ s l => History sh (fuel + 1) z m s0 s l.reverse) hrec h1 hw
  obtain ⟨_, b2⟩ := Runs.Binary.finishes_invariant (I := fun _ s l => History sh (fuel + 1) z m s0 s l.reverse) hstep hrec h2 a1
  have key : ∀ (s : Solution) (l : List Row), Runs.openSolution c Runs.kSolution = .ok s → Runs.openSeries c Runs.kTimeSeries = .ok l.reverse → History sh (fuel + 1) z m s0 s l.reverse →
      ∃ s rows, Runs.openSolution c Runs.kSolution = .ok s ∧ Runs.openSeries c Runs.kTimeSeries = .ok rows ∧ Running m N s ∧ Ledger sh (fuel + 1) z m N rows ∧
      ∀ cfg st, Runs.Binary.readState c cfg = .ok st → History sh (fuel + 1) z m s0 st.solution st.series.reverse := by
    intro s l e1 e2 h
    obtain ⟨r1, r2, r3, _⟩ := history_rows hs hm hS hR h
    refine ⟨s, l.reverse, e1, e2, r1, ⟨r2, r3⟩, fun cfg st hst => ?_⟩
    unfold Runs.Binary.readState at hst
    rw [e1, Outcome.bind_ok, e2, Outcome.bind_ok] at hst
    obtain ⟨sch, _, hst⟩ := Outcome.bind_eq_ok.1 hst
    cases hst
    show History sh (fuel + 1) z m s0 s l.reverse.reverse.reverse
    rw [List.reverse_reverse]
    exact h
  rcases b2 f c hf with hm' | ⟨_, s, l, e1, e2, h⟩
  · rcases a2 f c hm' with hm' | ⟨_, s, l, e1, e2, h⟩
    · exact .inl hm'
    · exact .inr (key s l e1 e2 h)
  · exact .inr (key s l e1 e2 h)

theorem createSolverData_cfl {pred : Nat → ℝ → Bool} {fuel : Nat} {c : RunConfig} {m : SolverData} (h : createSolverData sh pred fuel c = .ok m) :
    m.cfl = c.cflNumber := by
  unfold createSolverData at h
  iterate 8 obtain ⟨_, _, h⟩ := Outcome.bind_eq_ok.1 h
  dsimp only at h
  split at h
  · cases h
    rfl
  · cases h

theorem createSolution_totals {pred : Nat → ℝ → Bool} {fuel : Nat} {c : RunConfig} {s : Solution} (h : createSolution sh pred fuel c = .ok s) :
    s.massAccreted = 0 ∧ s.angmomAccreted = 0 ∧ s.torque = 0 ∧ s.work = 0 ∧ s.massEjected = 0 ∧ s.angmomEjected = 0 ∧ s.orbit = ⟨0, 0, 0, 0, 0, 0, c.elements⟩ ∧
    s.orbitAcc = ⟨0, 0, 0, 0, 0, 0, ⟨0, 0, 0, 0⟩⟩ ∧ s.orbitGrav = ⟨0, 0, 0, 0, 0, 0, ⟨0, 0, 0, 0⟩⟩ := by
  unfold createSolution at h
  iterate 4 obtain ⟨_, _, h⟩ := Outcome.bind_eq_ok.1 h
  cases h
  exact ⟨rfl, rfl, rfl, rfl, rfl, rfl, rfl, rfl, rfl⟩

/-- **C116** for a new run, from a sensible configuration: every checkpoint has a time series, which is a ledger; its first row is that of the initial state, with the mass
and the angular momentum of the disk that was set up, and nothing accreted, exchanged or ejected. -/
theorem new_run_partial (hs : TotalShift sh) {c : RunConfig} (hc : Sensible c) (hcfl : 0 ≤ c.cflNumber) (pred : Nat → ℝ → Bool)
    (heven : c.blockSize % 2 = 0 ∨ ∃ l, l < c.depth ∧ ∀ ρ, pred l ρ = true) (fuel : Nat) (z : Fin 9 → Bool)
    (diag : Config.Config ℝ → Solution → Outcome D') :
    ∃ (n0 : Nat) (m : SolverData) (s0 : Solution), (∀ k, n0 ≤ k → createSolverData sh pred k c = .ok m ∧ createSolution sh pred k c = .ok s0) ∧
      ∀ (k : Nat) (fs : Text.Str → Option (Runs.Checkpoint Solution ℝ Row)) (cfg : Config.Config ℝ) (st : Runs.Binary.State Solution ℝ Row)
        (w1 w2 : Runs.Binary.World Solution ℝ Row D') (n : Nat), n0 ≤ k → cfg.getString Runs.kRestart = .ok [] →
        Runs.Binary.createState (fun _ => createSolution sh pred k c) fs cfg = .ok st →
        Runs.Binary.runTasks (env sh (fuel + 1) z m diag) (st, []) = .ok w1 → Runs.Binary.Finishes (env sh (fuel + 1) z m diag) w1 n w2 →
        ∀ f ck, (f, .checkpoint ck) ∈ w2.2 → ∃ r0 rows, Runs.openSeries ck Runs.kTimeSeries = .ok (r0 :: rows) ∧
          Ledger sh (fuel + 1) z m c.blockSize (r0 :: rows) ∧ r0.time = 0 ∧ r0.massAccreted = 0 ∧ r0.angmomAccreted = 0 ∧ r0.torque = 0 ∧ r0.work = 0 ∧
          r0.massEjected = 0 ∧ r0.angmomEjected = 0 ∧ r0.orbit = ⟨0, 0, 0, 0, 0, 0, c.elements⟩ ∧
          r0.orbitAcc = ⟨0, 0, 0, 0, 0, 0, ⟨0, 0, 0, 0⟩⟩ ∧ r0.orbitGrav = ⟨0, 0, 0, 0, 0, 0, ⟨0, 0, 0, 0⟩⟩ ∧
          r0.diskMass = cellSum m.vertices c.blockSize (fun i x y => (disk c (cellCenter c.domainRadius c.blockSize i x y)).a *
            cellSize c.domainRadius c.blockSize i ^ 2) ∧
          r0.diskAngmom = cellSum m.vertices c.blockSize (fun i x y =>
            let p := cellCenter c.domainRadius c.blockSize i x y
            (disk c p).a * (p.1 * (disk c p).c - p.2 * (disk c p).b) * cellSize c.domainRadius c.blockSize i ^ 2) := by
  obtain ⟨n0, m, s0, b, hcr, hm, hst, _, _, hE, hl, hrad, hsr, _, ht0, _, _, h, hpos, _, _, _, v, hv, hrec⟩ := start_partial hs hc pred heven
  refine ⟨n0, m, s0, hcr, fun k fs cfg st w1 w2 n hk hre hcs h1 h2 f ck hf => ?_⟩
  rw [← hl] at hm hst
  have hS : Sound m c.blockSize := ⟨hst.physical.mach, hst.physical.softening, hst.sink, by rw [hsr]; exact hc.sinkRate, hst.ramp, hst.offCenter, by
    rw [hrec]; exact mul_nonneg (div_nonneg hpos.le (by linarith)) hcfl, by rw [createSolverData_cfl (hcr k hk).1]; exact hcfl⟩
  have hR : Running m c.blockSize s0 := ⟨⟨_, hst.blocks, fun i B hi x hx y hy => (hst.density i B hi x hx y hy).le⟩, hE.M, hE.q⟩
  obtain ⟨g1, g2, g3, g4, g5, g6, g7, g8, g9⟩ := createSolution_totals (hcr k hk).2
  -- the state, and its first round
  unfold Runs.Binary.createState at hcs
  rw [hre, Outcome.bind_ok, if_pos (by rfl), (hcr k hk).2, Outcome.bind_ok] at hcs
  obtain ⟨sch, hsch, hcs⟩ := Outcome.bind_eq_ok.1 hcs
  cases hcs
  obtain ⟨r0, e0, hr0⟩ : ∃ r0, w1.1.series = [r0] ∧ sample m s0 = .ok r0 := by
    obtain ⟨tD, tR, tC, _, hR, _, _, _, _, ⟨xs, hx, hlen, hsam⟩, _⟩ := Runs.Binary.runTasks_ok h1
    have hR : sch.get? Runs.kRecord = some tR := hR
    have hdue : tR.due = true := by
      have : (Runs.Binary.createSchedule : Outcome (Sched.Schedule ℝ)) = .ok
          [(Runs.kCheckpoint, ⟨Runs.kCheckpoint, 0, 0 + 0, true⟩), (Runs.kDiagnostics, ⟨Runs.kDiagnostics, 0, 0 + 0, true⟩),
           (Runs.kRecord, ⟨Runs.kRecord, 0, 0 + 0, true⟩)] := by rfl
      rw [this] at hsch
      cases hsch
      have hR' : some (⟨Runs.kRecord, 0, 0 + 0, true⟩ : Sched.TaskRec ℝ) = some tR := hR
      cases hR'
      rfl
    rw [if_pos hdue] at hlen
    obtain ⟨x, rfl⟩ := List.length_eq_one_iff.1 hlen
    exact ⟨x, hx, hsam x (by simp)⟩
  -- the checkpoints
  have hH1 : History sh (fuel + 1) z m s0 w1.1.solution w1.1.series.reverse := by
    have hsol := (Runs.Binary.runTasks_ok h1)
    obtain ⟨_, _, _, _, _, _, _, hsol, _⟩ := hsol
    rw [e0, hsol]
    exact History.start.record hr0
  have hstep : ∀ (c : Config.Config ℝ) (s s' : Solution) (l : List Row), (History sh (fuel + 1) z m s0 s l.reverse ∧ ∃ l', l = l' ++ [r0]) →
      (env sh (fuel + 1) z m diag).advance c s = .ok s' → History sh (fuel + 1) z m s0 s' l.reverse ∧ ∃ l', l = l' ++ [r0] := fun _ _ _ _ h e => ⟨h.1.step e, h.2⟩
  have hrec : ∀ (c : Config.Config ℝ) (s : Solution) (l : List Row) (x : Row), (History sh (fuel + 1) z m s0 s l.reverse ∧ ∃ l', l = l' ++ [r0]) →
      (env sh (fuel + 1) z m diag).sample c s = .ok x → History sh (fuel + 1) z m s0 s (x :: l).reverse ∧ ∃ l', x :: l = l' ++ [r0] := fun _ _ l x h e => by
    obtain ⟨h, l', rfl⟩ := h
    refine ⟨?_, x :: l', rfl⟩
    rw [List.reverse_cons]
    exact h.record e
  have key : ∃ (s : Solution) (l : List Row), Runs.openSeries ck Runs.kTimeSeries = .ok l.reverse ∧ History sh (fuel + 1) z m s0 s l.reverse ∧
      ∃ l', l = l' ++ [r0] := by
    obtain ⟨_, b2⟩ := Runs.Binary.finishes_invariant (I := fun _ s l => History sh (fuel + 1) z m s0 s l.reverse ∧ ∃ l', l = l' ++ [r0]) hstep hrec h2
      ⟨hH1, [], e0⟩
    rcases b2 f ck hf with hm' | ⟨_, s, l, _, e2, h⟩
    · obtain ⟨_, _, _, _, _, _, _, _, _, _, Nd, Nc, hfiles, hd, hc⟩ := Runs.Binary.runTasks_ok h1
      rw [hfiles, List.nil_append] at hm'
      rcases List.mem_append.1 hm' with hm' | hm'
      · split at hd
        · obtain ⟨outdir, d, _, _, rfl⟩ := hd
          simp at hm'
        · subst hd; cases hm'
      · split at hc
        · obtain ⟨outdir, _, rfl⟩ := hc
          simp only [List.mem_singleton, Prod.mk.injEq, Runs.Content.checkpoint.injEq] at hm'
          obtain ⟨rfl, rfl⟩ := hm'
          exact ⟨w1.1.solution, w1.1.series, rfl, hH1, [], e0⟩
        · subst hc; cases hm'
    · exact ⟨s, l, e2, h⟩
  obtain ⟨s, l, e2, hH, l', rfl⟩ := key
  rw [List.reverse_append, List.reverse_singleton, List.singleton_append] at e2 hH
  obtain ⟨_, r2, r3, _⟩ := history_rows hs hm hS hR hH
  obtain ⟨b', _, er⟩ := sample_ok hm hst.blocks hr0
  refine ⟨r0, l'.reverse, e2, ⟨r2, r3⟩, ?_⟩
  rw [er]
  refine ⟨ht0, g1, g2, g3, g4, g5, g6, g7, g8, g9, ?_, ?_⟩
  · show massOf m _ _ = _
    unfold massOf
    refine cellSum_congr fun i B _ x _ y _ => ?_
    rw [hrad, hl]
    unfold startOf
    cases c.conserveLinear <;> rfl
  · show angmomOf m _ _ = _
    unfold angmomOf
    refine cellSum_congr fun i B _ x _ y _ => ?_
    rw [hrad, hl]
    unfold startOf lz
    cases c.conserveLinear
    · rfl
    · show (_ * (_ * _) - _ * (_ * _)) * _ = _ * (_ * _ - _ * _) * _
      ring

/-- A round in which a checkpoint and a row are due. -/
theorem round_due {σ τ μ D : Type} {e : Runs.Binary.Env σ τ μ D} {s : σ} {cfg : Config.Config τ} {x : μ} {d : D} {outdir : Text.Str} (ho : cfg.getString Runs.kOutdir = .ok outdir)
    (hx : e.sample cfg s = .ok x) (hd : e.diag cfg s = .ok d) (nC nD nR : Nat) (lC lD lR : τ) (bD : Bool) (l : List μ) (F : Runs.Files σ τ μ D) :
    ∃ w' : Runs.Binary.World σ τ μ D, Runs.Binary.runTasks e (⟨s, [(Runs.kCheckpoint, ⟨Runs.kCheckpoint, nC, lC, true⟩),
        (Runs.kDiagnostics, ⟨Runs.kDiagnostics, nD, lD, bD⟩), (Runs.kRecord, ⟨Runs.kRecord, nR, lR, true⟩)], l, cfg⟩, F) = .ok w' ∧
      w'.1 = ⟨s, [(Runs.kCheckpoint, ⟨Runs.kCheckpoint, nC + 1, lC, false⟩), (Runs.kDiagnostics, ⟨Runs.kDiagnostics, if bD then nD + 1 else nD, lD, false⟩),
        (Runs.kRecord, ⟨Runs.kRecord, nR + 1, lR, false⟩)], x :: l, cfg⟩ ∧
      ∃ f ck, (f, .checkpoint ck) ∈ w'.2 ∧ Runs.openSeries ck Runs.kTimeSeries = .ok (x :: l).reverse := by
  obtain ⟨n1, n2, n3, _, _⟩ := Runs.names_ne
  obtain ⟨w', h⟩ : ∃ w' : Runs.Binary.World σ τ μ D, Runs.Binary.runTasks e (⟨s, [(Runs.kCheckpoint, ⟨Runs.kCheckpoint, nC, lC, true⟩),
        (Runs.kDiagnostics, ⟨Runs.kDiagnostics, nD, lD, bD⟩), (Runs.kRecord, ⟨Runs.kRecord, nR, lR, true⟩)], l, cfg⟩, F) = .ok w' := by
    cases bD <;>
      simp [Runs.Binary.runTasks, Sched.runScheduledTasks, Sched.runLoop, Sched.Schedule.isDue, Sched.Schedule.at', SMap.get?, SMap.set, n1, n2, n3, n1.symm, n2.symm,
        n3.symm, Outcome.map, Outcome.bind, Runs.Binary.writeDiagnostics, Runs.Binary.writeCheckpoint, Runs.Binary.recordTimeSeries, ho, hx, hd, Runs.Binary.complete,
        Sched.Schedule.numTimesPerformed, Sched.Schedule.markAsCompleted]
  refine ⟨w', h, ?_⟩
  obtain ⟨tD, tR, tC, gD, gR, gC, hsch, hsol, hcfg, ⟨xs, hxs, hlen, hsam⟩, Nd, Nc, hf, _, hc⟩ := Runs.Binary.runTasks_ok h
  have gC : some (⟨Runs.kCheckpoint, nC, lC, true⟩ : Sched.TaskRec τ) = some tC := gC
  have gD : some (⟨Runs.kDiagnostics, nD, lD, bD⟩ : Sched.TaskRec τ) = some tD := gD
  have gR : some (⟨Runs.kRecord, nR, lR, true⟩ : Sched.TaskRec τ) = some tR := gR
  cases gC
  cases gD
  cases gR
  obtain ⟨y, rfl⟩ := List.length_eq_one_iff.1 hlen
  have hy : y = x := Outcome.ok.inj ((hsam y (by simp)).symm.trans hx)
  subst hy
  obtain ⟨outdir', _, rfl⟩ := (if_pos (c := true = true) rfl ▸ hc : _)
  have hser : w'.1.series = y :: l := hxs
  refine ⟨?_, _, _, hf ▸ List.mem_append_right _ (List.mem_append_right _ (List.mem_singleton_self _)), by rw [← hser]; rfl⟩
  obtain ⟨⟨sol, sch, ser, cf⟩, F'⟩ := w'
  dsimp only at hsch hsol hcfg hser ⊢
  rw [hsch, hsol, hcfg, hser]
  cases bD <;> rfl

/-! A run that meets the hypotheses: one step, short enough, and a row and a checkpoint before and after it. -/

theorem createSolverData_short {pred : Nat → ℝ → Bool} {fuel : Nat} {c : RunConfig} {m : SolverData} (h : createSolverData sh pred fuel c = .ok m)
    (hc : c.cflNumber = 1) (x : ℝ) :
    createSolverData sh pred fuel { c with cflNumber := x, fixedDt := true, rkOrder := 1 } =
      .ok { m with cfl := x, fixedDt := true, rkOrder := 1, recommendedStep := m.recommendedStep * x } := by
  unfold createSolverData at h ⊢
  obtain ⟨_, e, h⟩ := Outcome.bind_eq_ok.1 h
  rw [show createVertices sh pred fuel { c with cflNumber := x, fixedDt := true, rkOrder := 1 } = createVertices sh pred fuel c from rfl, e, Outcome.bind_ok]
  obtain ⟨_, e, h⟩ := Outcome.bind_eq_ok.1 h
  rw [e, Outcome.bind_ok]
  obtain ⟨_, e, h⟩ := Outcome.bind_eq_ok.1 h
  rw [e, Outcome.bind_ok]
  obtain ⟨_, e, h⟩ := Outcome.bind_eq_ok.1 h
  rw [show blockSpeed { c with cflNumber := x, fixedDt := true, rkOrder := 1 } = blockSpeed c from rfl, e, Outcome.bind_ok]
  obtain ⟨_, e, h⟩ := Outcome.bind_eq_ok.1 h
  rw [show blockBuffer { c with cflNumber := x, fixedDt := true, rkOrder := 1 } = blockBuffer c from rfl, e, Outcome.bind_ok]
  obtain ⟨_, e, h⟩ := Outcome.bind_eq_ok.1 h
  rw [e, Outcome.bind_ok]
  obtain ⟨_, e, h⟩ := Outcome.bind_eq_ok.1 h
  rw [e, Outcome.bind_ok]
  obtain ⟨_, e, h⟩ := Outcome.bind_eq_ok.1 h
  rw [show createSolution sh pred fuel { c with cflNumber := x, fixedDt := true, rkOrder := 1 } = createSolution sh pred fuel c from rfl, e, Outcome.bind_ok]
  dsimp only at h ⊢
  split at h
  · rename_i hm
    rw [if_pos hm]
    cases h
    rw [hc, mul_one]
  · cases h

/-- The configuration of the run. -/
noncomputable def runOptions : Config.Config ℝ :=
  let p : SMap (Config.Param ℝ) := [(Runs.kCpi, .dbl 0), (Runs.kDfi, .dbl 1), (Runs.kTsi, .dbl 0), (Runs.kOutdir, .str "out".toList), (Runs.kRestart, .str []),
    (Runs.kTfinal, .dbl 0)]
  ⟨p, p⟩

theorem mark_example : Sched.markTasks [(Runs.kCheckpoint, ⟨Runs.kCheckpoint, 0 + 1, 0 + 0, false⟩), (Runs.kDiagnostics, ⟨Runs.kDiagnostics, 0 + 1, 0 + 0, false⟩),
      (Runs.kRecord, ⟨Runs.kRecord, 0 + 1, 0 + 0, false⟩)] (0 : ℝ)
      [(Runs.kCheckpoint, 0 * (2 * Real.pi)), (Runs.kDiagnostics, 1 * (2 * Real.pi)), (Runs.kRecord, 0 * (2 * Real.pi))] =
    .ok [(Runs.kCheckpoint, ⟨Runs.kCheckpoint, 1, 0 + 0 + 0 * (2 * Real.pi), true⟩), (Runs.kDiagnostics, ⟨Runs.kDiagnostics, 1, 0 + 0, false⟩),
      (Runs.kRecord, ⟨Runs.kRecord, 1, 0 + 0 + 0 * (2 * Real.pi), true⟩)] := by
  obtain ⟨n1, n2, n3, _, _⟩ := Runs.names_ne
  simp [Sched.markTasks, Sched.markLoop, Sched.Schedule.lastPerformed, Sched.Schedule.at', SMap.get?, SMap.set, n1, n2, n3, n1.symm, n2.symm, n3.symm,
    Outcome.map, Outcome.bind, Sched.Schedule.markAsDue, Real.pi_pos]

/-- Non-vacuity of `series_run_partial` and `new_run_partial`: a whole run, in both modes, whose last checkpoint has two rows, at different times. -/
theorem run_exists (lin : Bool) (z : Fin 9 → Bool) : ∃ (x : ℝ) (n0 : Nat) (m : SolverData) (s0 : Solution)
    (st : Runs.Binary.State Solution ℝ Row) (w1 w2 : Runs.Binary.World Solution ℝ Row Unit), 0 < x ∧
    let c : RunConfig := { defaults with conserveLinear := lin, cflNumber := x, fixedDt := true, rkOrder := 1 }
    (∀ k, n0 ≤ k → createSolverData exShift defaultFocus k c = .ok m ∧ createSolution exShift defaultFocus k c = .ok s0) ∧
    (∀ k, n0 ≤ k → Runs.Binary.createState (fun _ => createSolution exShift defaultFocus k c) (fun _ => none) runOptions = .ok st) ∧
    Runs.Binary.runTasks (env exShift 1 z m fun _ _ => .ok ()) (st, []) = .ok w1 ∧
    Runs.Binary.Finishes (env exShift 1 z m fun _ _ => .ok ()) w1 0 w2 ∧
    ∃ f ck r0 r1, (f, .checkpoint ck) ∈ w2.2 ∧ Runs.openSeries ck Runs.kTimeSeries = .ok [r0, r1] ∧ r0.time < r1.time := by
  have hc : Sensible { defaults with conserveLinear := lin, cflNumber := 1 } := by constructor <;> norm_num [defaults]
  obtain ⟨n0, m, s0, b, hcr, hm, hst, _, _, hE, hl, _, hsr, _, ht0, _, _, h, hpos, _, _, _, v, hv, hrec⟩ :=
    start_partial exShift_total hc defaultFocus (.inl (by norm_num [defaults]))
  have hl' : m.conserveLinear = lin := hl
  obtain ⟨f, hst⟩ : ∃ f, StateData lin m 24 s0 f b := ⟨_, hst⟩
  have hm : MeshData lin m 4 24 := hm
  rw [← hl'] at hm hst
  have hsr' : 0 ≤ m.params.sinkRate := by rw [hsr]; norm_num [defaults]
  obtain ⟨ε, hε0, hε⟩ := short_step exShift_total hm hst hE hsr' 0 z false
  have hr : 0 < m.recommendedStep := by
    rw [hrec]
    exact mul_pos (div_pos hpos (by linarith)) one_pos
  have hlive : m.beginLive = 10 ^ 6 := by
    have e := (hcr n0 le_rfl).1
    unfold createSolverData at e
    iterate 8 obtain ⟨_, _, e⟩ := Outcome.bind_eq_ok.1 e
    dsimp only at e
    split at e
    · cases e
      rfl
    · cases e
  have hel : s0.orbit.elements = defaults.elements := by
    rw [(createSolution_totals (hcr n0 le_rfl).2).2.2.2.2.2.2.1]
    rfl
  obtain ⟨s1, e1⟩ := hε ε hε0.le le_rfl
  have hx : 0 < ε / m.recommendedStep := div_pos hε0 hr
  have hdt : m.recommendedStep * (ε / m.recommendedStep) = ε := by field_simp
  -- the step
  obtain ⟨m', em⟩ : ∃ m', m' = { m with cfl := ε / m.recommendedStep, fixedDt := true, rkOrder := 1, recommendedStep := m.recommendedStep * (ε / m.recommendedStep) } :=
    ⟨_, rfl⟩
  have hm' : MeshData m'.conserveLinear m' 4 24 := by
    rw [em]
    exact ⟨hm.shaped, hm.blockSize, hm.radius, hm.vertices, hm.centers, hm.areas, hm.buffer, hm.initial⟩
  have hf : Blocks m'.vertices (cons m'.conserveLinear s0) 24 24 f := by rw [em]; exact hst.blocks
  have hS : Sound m' 24 := by
    rw [em]
    exact ⟨hst.physical.mach, hst.physical.softening, hst.sink, hsr', hst.ramp, hst.offCenter, by show 0 ≤ m.recommendedStep * _; rw [hdt]; exact hε0.le, hx.le⟩
  have hR : Running m' 24 s0 := ⟨⟨f, hf, fun i B hi x hx y hy => (hst.density i B (by rw [em] at hi; exact hi) x hx y hy).le⟩, hE.M, hE.q⟩
  have hn : nextSolution exShift 1 z m' s0 = .ok s1 := by
    unfold nextSolution attempt
    rw [em, if_pos rfl, Outcome.bind_ok, if_pos rfl]
    show (match advance exShift 1 z m s0 (m.recommendedStep * (ε / m.recommendedStep)) false with | .throws _ => _ | r => r) = _
    rw [hdt, e1]
  obtain ⟨_, q2, _, _, _, _, _, g, hg, _⟩ := next_budget exShift_total hm' hS hR hn hf
  have ht1 : s1.time = ε := by
    obtain ⟨_, _, _, _, _, ht, _⟩ := advance_inv e1
    rw [ht, ht0, zero_add]
  have ho1 : s1.orbit.elements = defaults.elements := by
    unfold advance advanceMode at e1
    obtain ⟨_, _, e1⟩ := Outcome.bind_eq_ok.1 e1
    obtain ⟨_, _, e1⟩ := Outcome.bind_eq_ok.1 e1
    obtain ⟨_, _, e1⟩ := Outcome.bind_eq_ok.1 e1
    obtain ⟨_, _, e1⟩ := Outcome.bind_eq_ok.1 e1
    rw [validate_eq e1]
    dsimp only
    rw [if_neg (by rw [ht0, hlive]; norm_num)]
    unfold FullElements.add FullElements.scale
    dsimp only
    simp only [mul_zero, add_zero]
    rw [← hel]
  have hsample : ∀ (s : Solution) (f : Index 2 → Nat → Nat → Tri), Blocks m'.vertices (cons m'.conserveLinear s) 24 24 f → s.orbit.elements = defaults.elements →
      ∃ r, sample m' s = .ok r ∧ r.time = s.time := by
    intro s f hf he
    obtain ⟨b, hb⟩ := full_returns_partial s.orbit s.time (by rw [he]; norm_num [defaults, RunConfig.elements]) (by rw [he]; norm_num [defaults, RunConfig.elements])
      (by rw [he]; norm_num [defaults, RunConfig.elements]) (by rw [he]; norm_num [defaults, RunConfig.elements]) (by rw [he]; norm_num [defaults, RunConfig.elements])
    obtain ⟨r, hr⟩ : ∃ r, sample m' s = .ok r := ⟨_, by
      unfold sample
      rw [hb, Outcome.bind_ok, diskMass_ok hm' hf, Outcome.bind_ok, diskAngmom_ok hm' hf, Outcome.bind_ok]⟩
    obtain ⟨_, _, er⟩ := sample_ok hm' hf hr
    exact ⟨r, hr, by rw [er]⟩
  obtain ⟨r0, hr0, t0⟩ := hsample s0 f hf hel
  obtain ⟨r1, hr1, t1⟩ := hsample s1 g hg ho1
  have ho : runOptions.getString Runs.kOutdir = .ok "out".toList := by rfl
  obtain ⟨w1, hw1, ew1, _⟩ := round_due (e := env exShift 1 z m' fun _ _ => .ok ()) ho (show (env exShift 1 z m' _).sample runOptions s0 = .ok r0 from hr0) rfl
    0 0 0 (0 + 0) (0 + 0) (0 + 0) true [] []
  obtain ⟨w2, hw2, _, f', ck, hck, hser⟩ := round_due (e := env exShift 1 z m' fun _ _ => .ok ()) ho (show (env exShift 1 z m' _).sample runOptions s1 = .ok r1 from hr1) rfl
    1 1 1 (0 + 0 + 0 * (2 * Real.pi)) (0 + 0) (0 + 0 + 0 * (2 * Real.pi)) false [r0] w1.2
  refine ⟨ε / m.recommendedStep, n0, m', s0, _, w1, w2, hx, fun k hk => ⟨?_, (hcr k hk).2⟩, fun k hk => ?_, hw1, .exit ?_ ?_, f', ck, r0, r1, hck, hser, ?_⟩
  · rw [em]
    exact createSolverData_short (hcr k hk).1 rfl _
  · unfold Runs.Binary.createState
    rw [show runOptions.getString Runs.kRestart = .ok [] from rfl, Outcome.bind_ok, if_pos (by rfl)]
    dsimp only
    rw [show createSolution exShift defaultFocus k { defaults with conserveLinear := lin, cflNumber := ε / m.recommendedStep, fixedDt := true, rkOrder := 1 } =
      .ok s0 from (hcr k hk).2, Outcome.bind_ok]
    rfl
  · unfold Runs.Binary.shouldContinue
    rw [ew1, show runOptions.getDouble Runs.kTfinal = .ok 0 from rfl, Outcome.map_ok]
    show Outcome.ok (decide (s0.time / (2 * Real.pi) < 0)) = _
    rw [ht0, zero_div, decide_eq_false (lt_irrefl _)]
  · unfold Runs.Binary.body Runs.Binary.nextState Runs.Binary.nextSchedule
    rw [ew1]
    dsimp only
    rw [show (env exShift 1 z m' fun _ _ => Outcome.ok ()).advance runOptions s0 = .ok s1 from hn, Outcome.bind_ok,
      show runOptions.getDouble Runs.kCpi = .ok 0 from rfl, Outcome.bind_ok, show runOptions.getDouble Runs.kDfi = .ok 1 from rfl, Outcome.bind_ok,
      show runOptions.getDouble Runs.kTsi = .ok 0 from rfl, Outcome.bind_ok]
    show Outcome.bind (Outcome.bind (Sched.markTasks _ s0.time _) _) _ = _
    rw [ht0]
    refine Eq.trans (congrArg (fun o => Outcome.bind (Outcome.bind o _) _) mark_example) ?_
    exact hw2
  · rw [t0, t1, ht0, ht1]
    exact hε0

end Verif.Binary
