import Verif.Lemmas.Restart
import Verif.Lemmas.Path
import Verif.Props.Schedule

/-!
# Properties of restarts of the binary program (C36)
-/

namespace Verif.Runs
open Verif Verif.Text Verif.Config Verif.Sched

variable {σ τ μ D : Type}

namespace Binary

private theorem reachable_config {stod : Str → Outcome τ} {t : Template τ}
    {fs : Str → Option (Checkpoint σ τ μ)} {group : Str} {args : SMap Str} {cfg : Config τ}
    (h : createRunConfig stod t fs group args = .ok cfg) : Reachable stod t cfg := by
  unfold createRunConfig at h
  split at h
  · split at h
    · cases h
    · simp only [Outcome.bind_eq_ok] at h
      obtain ⟨m, _, c1, h1, h2⟩ := h
      exact .updateText (.update .create h1) h2
  · exact .updateText .create h

private theorem round_files {e : Env σ τ μ D} {w w' : World σ τ μ D} (h : Binary.runTasks e w = .ok w') :
    ∃ N, w'.2 = w.2 ++ N ∧
      (∀ p ∈ N, ∃ outdir, w.1.config.getString kOutdir = .ok outdir ∧
        ((∃ m, p.1 = diagPath outdir m) ∨ p.1 = chkptPath outdir (performed w.1.schedule kCheckpoint))) ∧
      (∀ f c, (f, Content.checkpoint c) ∈ N → c = writeState w'.1 ∧
        (∃ F, w'.2 = F ++ [(f, Content.checkpoint c)]) ∧
        ∃ outdir m, w.1.config.getString kOutdir = .ok outdir ∧ f = chkptPath outdir m ∧
          performed w'.1.schedule kCheckpoint = m + 1) := by
  have hget := runTasks_get? h (k := kCheckpoint) (by simp)
  obtain ⟨tD, tR, tC, gD, gR, gC, hsch, _, _, _, Nd, Nc, hf, hd, hc⟩ := runTasks_ok h
  obtain ⟨u, gu, gu'⟩ := hget
  rw [gC] at gu; cases gu
  have hp : performed w.1.schedule kCheckpoint = tC.num := by simp [performed, gC]
  have hp' : performed w'.1.schedule kCheckpoint = (fin tC).num := by simp [performed, gu']
  refine ⟨Nd ++ Nc, hf, ?_, ?_⟩
  · intro p hpm
    rcases List.mem_append.1 hpm with hpm | hpm
    · split at hd
      · obtain ⟨outdir, d, ho, _, rfl⟩ := hd
        rw [List.mem_singleton] at hpm
        exact ⟨outdir, ho, .inl ⟨tD.num, by rw [hpm]⟩⟩
      · subst hd; cases hpm
    · split at hc
      · obtain ⟨outdir, ho, rfl⟩ := hc
        rw [List.mem_singleton] at hpm
        exact ⟨outdir, ho, .inr (by rw [hpm, hp])⟩
      · subst hc; cases hpm
  · intro f c hm
    rcases List.mem_append.1 hm with hm | hm
    · split at hd
      · obtain ⟨outdir, d, ho, _, rfl⟩ := hd
        simp at hm
      · subst hd; cases hm
    · split at hc
      · rename_i hdue
        obtain ⟨outdir, ho, rfl⟩ := hc
        simp only [List.mem_singleton, Prod.mk.injEq, Content.checkpoint.injEq] at hm
        obtain ⟨rfl, rfl⟩ := hm
        refine ⟨rfl, ⟨w.2 ++ Nd, by rw [hf, List.append_assoc]⟩, outdir, tC.num, ho, rfl, ?_⟩
        rw [hp', fin_num, hdue]; rfl
      · subst hc; cases hm

/-- What holds after every round of a run. -/
private structure Good (stod : Str → Outcome τ) (t : Template τ) (cfg : Config τ) (s : State σ τ μ) : Prop where
  config : s.config = cfg
  tidy : Tidy s.schedule
  idle : ∀ k x, s.schedule.get? k = some x → x.due = false
  known : ∀ k ∈ [kDiagnostics, kRecord, kCheckpoint], ∃ x, s.schedule.get? k = some x

private theorem good_round {stod : Str → Outcome τ} {t : Template τ} {cfg : Config τ} {e : Env σ τ μ D}
    {w w' : World σ τ μ D} (hc : w.1.config = cfg) (hs : Tidy w.1.schedule)
    (h : Binary.runTasks e w = .ok w') : Good stod t cfg w'.1 := by
  obtain ⟨h1, h2⟩ := tidy_runTasks hs h
  refine ⟨?_, h1, h2, fun k hk => ?_⟩
  · obtain ⟨_, _, _, _, _, _, _, _, e, _⟩ := runTasks_ok h
    rw [e, hc]
  · obtain ⟨x, _, hx⟩ := runTasks_get? h hk
    exact ⟨_, hx⟩

private theorem good_body [Zero τ] [Add τ] [Sub τ] [Mul τ] [Div τ] [LinearOrder τ] {stod : Str → Outcome τ} {t : Template τ} {cfg : Config τ}
    {e : Env σ τ μ D} {w w' : World σ τ μ D} (hg : Good stod t cfg w.1) (h : Binary.body e w = .ok w') :
    Good stod t cfg w'.1 ∧ performed w.1.schedule kCheckpoint ≤ performed w'.1.schedule kCheckpoint ∧
    ∃ N, w'.2 = w.2 ++ N ∧
      (∀ p ∈ N, ∃ outdir, cfg.getString kOutdir = .ok outdir ∧
        ((∃ m, p.1 = diagPath outdir m) ∨ p.1 = chkptPath outdir (performed w.1.schedule kCheckpoint))) ∧
      (∀ f c, (f, Content.checkpoint c) ∈ N → c = writeState w'.1 ∧
        (∃ F, w'.2 = F ++ [(f, Content.checkpoint c)]) ∧
        ∃ outdir m, cfg.getString kOutdir = .ok outdir ∧ f = chkptPath outdir m ∧
          performed w'.1.schedule kCheckpoint = m + 1) := by
  simp only [Binary.body, Outcome.bind_eq_ok] at h
  obtain ⟨s, hs, h⟩ := h
  have hcfg : s.config = cfg := by rw [(nextState_ok hs).1, hg.config]
  have hperf : performed s.schedule kCheckpoint = performed w.1.schedule kCheckpoint := by
    obtain ⟨x, u, _, hu, hu'⟩ := (nextState_ok hs).2.2.2.2 (kCheckpoint, kCpi) (by simp)
    simp only at hu hu'
    simp only [performed, hu, hu', Option.elim_some]
    split <;> rfl
  obtain ⟨N, h1, h2, h3⟩ := round_files h
  simp only [hcfg, hperf] at h2 h3
  refine ⟨good_round (w := (s, w.2)) hcfg (tidy_next hg.tidy hs) h, ?_, N, h1, h2, h3⟩
  obtain ⟨u, hu, hu'⟩ := runTasks_get? h (k := kCheckpoint) (by simp)
  rw [← hperf]
  have hu0 : s.schedule.get? kCheckpoint = some u := hu
  simp only [performed, hu0, hu', Option.elim_some, fin_num]
  omega

private theorem paths_ne {outdir : Str} {n m : Nat} (hn : n < 2 ^ 31) (hm : m < 2 ^ 31) :
    (n ≠ m → chkptPath outdir n ≠ chkptPath outdir m) ∧ chkptPath outdir n ≠ diagPath outdir m := by
  have hj : ∀ a b : Str, Path.join [a, b] = a ++ '/' :: b := by
    intro a b; rw [Path.join_cons]; simp
  constructor
  · intro h e
    simp only [chkptPath, hj] at e
    have := List.append_cancel_left e
    simp only [List.cons.injEq, true_and] at this
    exact h (Path.numbered_inj hn hm (by decide) this)
  · intro e
    simp only [chkptPath, diagPath, hj] at e
    have := List.append_cancel_left e
    simp only [List.cons.injEq, true_and, Path.numbered] at this
    have := congrArg List.head? this
    simp at this

/-- C36 (partial): take any checkpoint of a run of the binary program that was written in the loop.
Restarting from it with no other argument, the program starts from the state after the round in which the
checkpoint was written, writes no file to begin with, and then in `j` further rounds of the loop it gets
to the state of the uninterrupted run, and writes the same files, up to the entry `restart` of the
configurations stored in them.  It never writes the checkpoint it was restarted from.  The hypotheses on
the run: the template has no duplicate keys (it is a `std::map`), the numerics do not look at the entry
`restart`, no string parameter other than `restart` is empty (C43), and there are fewer than 2^31 files of
a kind.  Missing: checkpoints written after the loop, see `binary_restart_violated`. -/
theorem binary_restart_partial [Zero τ] [Add τ] [Sub τ] [Mul τ] [Div τ] [LinearOrder τ] {stod : Str → Outcome τ} {t : Template τ}
    {fresh : Config τ → Outcome σ} {e : Env σ τ μ D} {fs : Str → Option (Checkpoint σ τ μ)}
    {args : SMap Str} {w : Nat → World σ τ μ D} {n : Nat}
    (ht : t.WF) (he : e.IgnoresRestart)
    (h0 : begin stod t fresh e fs args = .ok (w 0))
    (hb : ∀ i < n, Binary.body e (w i) = .ok (w (i + 1)))
    (hne : ∀ k ≠ kRestart, (w 0).1.config.params.get? k ≠ some (.str []))
    (hcount : ∀ i ≤ n, ∀ k, performed (w i).1.schedule k < 2 ^ 31)
    {f : Str} {c : Checkpoint σ τ μ} (hc : (f, .checkpoint c) ∈ (w n).2)
    {fs' : Str → Option (Checkpoint σ τ μ)} (hf : fs' f = some c) :
    ∃ i ≤ n, ∃ F, (w i).2 = F ++ [(f, .checkpoint c)] ∧
      ∃ v : Nat → World σ τ μ D,
        begin stod t fresh e fs' [(kRestart, f)] = .ok (v 0) ∧ (v 0).2 = [] ∧
        (∀ j < n - i, Binary.body e (v j) = .ok (v (j + 1))) ∧
        (∀ j ≤ n - i, (v j).1 = (w (i + j)).1.restartAt f ∧
          blankFiles (w (i + j)).2 = blankFiles (w i).2 ++ blankFiles (v j).2 ∧
          f ∉ (v j).2.map Prod.fst) ∧
        ∀ m w', Finishes e (w n) m w' → ∃ v', Finishes e (v (n - i)) m v' ∧ v'.1 = w'.1.restartAt f ∧
          blankFiles w'.2 = blankFiles (w i).2 ++ blankFiles v'.2 := by
  -- the beginning
  simp only [begin, Outcome.bind_eq_ok] at h0
  obtain ⟨cfg, hcfg, s0, hs0, hr0⟩ := h0
  have hreach := reachable_config hcfg
  obtain ⟨tidy0, hc0, r, hr⟩ := tidy_create hs0
  have g0 : Good stod t cfg (w 0).1 := good_round (w := (s0, [])) hc0 tidy0 hr0
  -- all rounds
  have hg : ∀ i ≤ n, Good stod t cfg (w i).1 := by
    intro i
    induction i with
    | zero => intro _; exact g0
    | succ i ih => intro hi; exact (good_body (ih (by omega)) (hb i (by omega))).1
  have hmono : ∀ i j, i + j ≤ n → performed (w i).1.schedule kCheckpoint ≤
      performed (w (i + j)).1.schedule kCheckpoint := by
    intro i j
    induction j with
    | zero => intro _; exact le_rfl
    | succ j ih =>
      intro hj
      exact (ih (by omega)).trans (good_body (hg (i + j) (by omega)) (hb (i + j) (by omega))).2.1
  -- the round of the checkpoint
  have hround : ∀ m ≤ n, (f, Content.checkpoint c) ∈ (w m).2 → ∃ i ≤ m, c = writeState (w i).1 ∧
      (∃ F, (w i).2 = F ++ [(f, Content.checkpoint c)]) ∧
        ∃ outdir m, cfg.getString kOutdir = .ok outdir ∧ f = chkptPath outdir m ∧
          performed (w i).1.schedule kCheckpoint = m + 1 := by
    intro m
    induction m with
    | zero =>
      intro _ hm
      obtain ⟨N, e1, _, e3⟩ := round_files hr0
      rw [e1] at hm
      obtain ⟨a, b, c'⟩ := e3 f c (by simpa using hm)
      simp only [hc0] at c'
      exact ⟨0, le_rfl, a, b, c'⟩
    | succ m ih =>
      intro hmn hm
      obtain ⟨_, _, N, e1, _, e3⟩ := good_body (hg m (by omega)) (hb m (by omega))
      rw [e1] at hm
      rcases List.mem_append.1 hm with hm | hm
      · obtain ⟨i, hi, h⟩ := ih (by omega) hm
        exact ⟨i, by omega, h⟩
      · exact ⟨m + 1, le_rfl, e3 f c hm⟩
  obtain ⟨i, hi, rfl, ⟨F, hF⟩, outdir, m, ho, rfl, hm⟩ := hround n le_rfl hc
  refine ⟨i, hi, F, hF, ?_⟩
  have gi := hg i hi
  -- the beginning of the restarted run
  have hrs : ∃ r, cfg.params.get? kRestart = some (.str r) := by
    simp only [Config.getString, Config.get] at hr
    split at hr
    · cases hr
    · split at hr
      · cases hr
      · rename_i v hv
        simp only [Outcome.bind_ok] at hr
        split at hr
        · cases hr; exact ⟨_, hv⟩
        · cases hr
  have hcfg' : createRunConfig stod t fs' kRunConfig [(kRestart, chkptPath outdir m)] =
      .ok (restartAt (chkptPath outdir m) cfg) := by
    refine createRunConfig_restart hreach ht hrs ?_ hf ?_
    · rw [← g0.config]; exact hne
    · have : SMap.get? (writeState (w i).1) kRunConfig = some (.config (writeConfig (w i).1.config)) := by
        have h1 : kSolution ≠ kRunConfig := by decide
        have h2 : kSchedule ≠ kRunConfig := by decide
        have h3 : kTimeSeries ≠ kRunConfig := by decide
        simp [writeState, SMap.get?, h1, h2, h3]
      rw [this, gi.config]
  have hnil : (chkptPath outdir m).isEmpty = false := by
    simp [chkptPath, Path.join_cons]
  have hstate : createState fresh fs' (restartAt (chkptPath outdir m) cfg) =
      .ok ((w i).1.restartAt (chkptPath outdir m)) := by
    have h1 : (restartAt (chkptPath outdir m) cfg).getString kRestart = .ok (chkptPath outdir m) := by
      obtain ⟨r, hrs⟩ := hrs
      have : ∃ d, cfg.template.get? kRestart = some d := by
        simp only [Config.getString, Config.get] at hr
        split at hr
        · cases hr
        · exact ⟨_, by assumption⟩
      obtain ⟨d, hd⟩ := this
      simp [Config.getString, Config.get, restartAt, hd, SMap.get?_set]
    simp only [createState, h1, Outcome.bind_ok, hnil, Bool.false_eq_true, if_false, hf]
    have k1 : SMap.get? (writeState (w i).1) kSolution = some (.solution (w i).1.solution) := by
      simp [writeState, SMap.get?]
    have k2 : SMap.get? (writeState (w i).1) kSchedule = some (.schedule (writeSchedule (w i).1.schedule)) := by
      have : kSolution ≠ kSchedule := by decide
      simp [writeState, SMap.get?, this]
    have k3 : SMap.get? (writeState (w i).1) kTimeSeries = some (.series (w i).1.series.reverse) := by
      have h1 : kSolution ≠ kTimeSeries := by decide
      have h2 : kSchedule ≠ kTimeSeries := by decide
      simp [writeState, SMap.get?, h1, h2]
    simp only [readState, openSolution, openSeries, openSchedule, k1, k2, k3, Outcome.bind_ok,
      read_write_tidy gi.tidy gi.idle, List.reverse_reverse]
    rw [State.restartAt, gi.config]
  have hbegin : begin stod t fresh e fs' [(kRestart, chkptPath outdir m)] =
      .ok ((w i).1.restartAt (chkptPath outdir m), []) := by
    simp only [begin, hcfg', Outcome.bind_ok, hstate]
    refine runTasks_idle fun k hk => ?_
    obtain ⟨x, hx⟩ := gi.known k hk
    exact ⟨x, hx, gi.idle k x hx⟩
  -- the rest
  have hrun : ∀ k, i + k ≤ n → ∃ v : Nat → World σ τ μ D,
      v 0 = ((w i).1.restartAt (chkptPath outdir m), []) ∧
      (∀ j < k, Binary.body e (v j) = .ok (v (j + 1))) ∧
      ∀ j ≤ k, Rel (chkptPath outdir m) (w i).2 (w (i + j)) (v j) := by
    intro k
    induction k with
    | zero =>
      intro _
      refine ⟨fun _ => ((w i).1.restartAt (chkptPath outdir m), []), rfl, by simp, ?_⟩
      intro j hj
      obtain rfl : j = 0 := by omega
      exact ⟨rfl, by simp [blankFiles]⟩
    | succ k ih =>
      intro hk
      obtain ⟨v, v0, vb, vr⟩ := ih (by omega)
      obtain ⟨x, hx, hxr⟩ := (vr k le_rfl).body he (hb (i + k) (by omega))
      refine ⟨fun j => if j ≤ k then v j else x, by simp [v0], ?_, ?_⟩
      · intro j hj
        by_cases hjk : j < k
        · simp [show j ≤ k by omega, show j + 1 ≤ k by omega, vb j hjk]
        · obtain rfl : j = k := by omega
          simp [hx]
      · intro j hj
        by_cases hjk : j ≤ k
        · simp only [hjk, if_true]; exact vr j hjk
        · obtain rfl : j = k + 1 := by omega
          simp only [hjk, if_false]
          exact hxr
  obtain ⟨v, v0, vb, vr⟩ := hrun (n - i) (by omega)
  refine ⟨v, by rw [hbegin, v0], by rw [v0], vb, ?_, ?_⟩
  · intro j hj
    refine ⟨(vr j hj).1, (vr j hj).2, ?_⟩
    -- names
    have names : ∀ j, i + j ≤ n → ∃ N, (w (i + j)).2 = (w i).2 ++ N ∧ ∀ p ∈ N, p.1 ≠ chkptPath outdir m := by
      intro j
      induction j with
      | zero => intro _; exact ⟨[], by simp, by simp⟩
      | succ j ih =>
        intro hj
        obtain ⟨N, hN, hN'⟩ := ih (by omega)
        obtain ⟨_, _, M, e1, e2, _⟩ := good_body (hg (i + j) (by omega)) (hb (i + j) (by omega))
        refine ⟨N ++ M, by rw [← Nat.add_assoc, e1, hN, List.append_assoc], ?_⟩
        intro p hp
        rcases List.mem_append.1 hp with hp | hp
        · exact hN' p hp
        · obtain ⟨o, ho', hcase⟩ := e2 p hp
          have : o = outdir := Outcome.ok.inj (ho'.symm.trans ho)
          subst this
          have b1 := hcount i hi kCheckpoint
          have b2 := hcount (i + j) (by omega) kCheckpoint
          have b3 := hmono i j (by omega)
          rcases hcase with ⟨q, hq⟩ | hq
          · rw [hq]
            intro e
            have h1 : Path.join [o, Path.numbered "diagnostics".toList q "h5".toList] = o ++ '/' ::
                Path.numbered "diagnostics".toList q "h5".toList := by rw [Path.join_cons]; simp
            have h2 : Path.join [o, Path.numbered "chkpt".toList m "h5".toList] = o ++ '/' ::
                Path.numbered "chkpt".toList m "h5".toList := by rw [Path.join_cons]; simp
            rw [diagPath, chkptPath, h1, h2] at e
            have := congrArg List.head? (List.cons.inj (List.append_cancel_left e)).2
            simp [Path.numbered] at this
          · rw [hq]
            exact (paths_ne (by omega) (by omega)).1 (by omega)
    obtain ⟨N, hN, hN'⟩ := names j (by omega)
    have hb2 := (vr j hj).2
    rw [hN, blankFiles_append] at hb2
    have hb3 := List.append_cancel_left hb2
    intro hmem
    have hmem' : chkptPath outdir m ∈ N.map Prod.fst := by
      rw [← blankFiles_names N, hb3, blankFiles_names]; exact hmem
    obtain ⟨p, hp, he'⟩ := List.mem_map.1 hmem'
    exact hN' p hp he'
  · intro k w' hw'
    have := vr (n - i) le_rfl
    rw [show i + (n - i) = n by omega] at this
    obtain ⟨v', hv, hrel⟩ := this.finishes he hw'
    exact ⟨v', hv, hrel.1, hrel.2⟩

/-! A run that meets the hypotheses, and the violation. -/

def exTemplate (tfinal cpi : ℚ) : Template ℚ :=
  [(kCpi, .dbl cpi), (kDfi, .dbl 2), (kTsi, .dbl 7), (kOutdir, .str "out".toList), (kRestart, .str []),
   (kTfinal, .dbl tfinal)]

/-- The run, up to a round of the loop. -/
def exRounds (t : Template ℚ) : Nat → Outcome (World ℚ ℚ ℚ ℚ)
  | 0 => begin (fun _ => .throws .invalidArgument) t (fun _ => .ok 0) exBinary (fun _ => none) []
  | i + 1 => (exRounds t i).bind (Binary.body exBinary)

def exOk (o : Outcome (World ℚ ℚ ℚ ℚ)) : Bool :=
  match o with
  | .ok _ => true
  | _ => false

def exGet (o : Outcome (World ℚ ℚ ℚ ℚ)) : World ℚ ℚ ℚ ℚ :=
  match o with
  | .ok w => w
  | _ => (⟨0, [], [], ⟨[], []⟩⟩, [])

theorem exGet_eq {o : Outcome (World ℚ ℚ ℚ ℚ)} (h : exOk o = true) : o = .ok (exGet o) := by
  cases o <;> simp_all [exOk, exGet]

/-- The names of the files. -/
def exNames (w : World ℚ ℚ ℚ ℚ) : List Str := w.2.map Prod.fst

example : exNames (exGet (exRounds (exTemplate 9 3) 5)) = ["out/diagnostics.0000.h5".toList,
    "out/chkpt.0000.h5".toList, "out/diagnostics.0001.h5".toList, "out/chkpt.0001.h5".toList,
    "out/diagnostics.0002.h5".toList] := by decide +kernel

theorem exBinary_ignores : exBinary.IgnoresRestart := ⟨fun _ _ _ => rfl, fun _ _ _ => rfl, fun _ _ _ => rfl⟩

/-- The hypotheses of `binary_restart_partial` are met by five rounds of the example. -/
example : ∃ w : Nat → World ℚ ℚ ℚ ℚ,
    begin (fun _ => .throws .invalidArgument) (exTemplate 9 3) (fun _ => .ok 0) exBinary (fun _ => none) [] =
      .ok (w 0) ∧
    (∀ i < 5, Binary.body exBinary (w i) = .ok (w (i + 1))) ∧
    (∀ k ≠ kRestart, (w 0).1.config.params.get? k ≠ some (.str [])) ∧
    (∀ i ≤ 5, ∀ k, performed (w i).1.schedule k < 2 ^ 31) ∧
    ∃ c, ("out/chkpt.0001.h5".toList, Content.checkpoint c) ∈ (w 5).2 := by
  have hok : ∀ i < 6, exOk (exRounds (exTemplate 9 3) i) = true := by decide +kernel
  refine ⟨fun i => exGet (exRounds (exTemplate 9 3) i), exGet_eq (hok 0 (by decide)), ?_, ?_, ?_, ?_⟩
  · intro i hi
    have h1 := exGet_eq (hok i (by omega))
    have h2 := exGet_eq (hok (i + 1) (by omega))
    rw [← h2, exRounds]
    conv_rhs => rw [h1, Outcome.bind_ok]
  · intro k hk
    have hp : (exGet (exRounds (exTemplate 9 3) 0)).1.config.params = exTemplate 9 3 := by decide +kernel
    have h3 : ¬ kRestart = k := fun e => hk e.symm
    have h4 : (exTemplate 9 3).get? k ≠ some (.str []) := by
      simp only [exTemplate, SMap.get?, h3, if_false]
      repeat' split
      all_goals simp
    rw [← hp] at h4
    exact h4
  · intro i hi k
    have h : ∀ i < 6, ∀ p ∈ (exGet (exRounds (exTemplate 9 3) i)).1.schedule, p.2.num < 2 ^ 31 := by
      decide +kernel
    simp only [performed]
    cases hk : SMap.get? (exGet (exRounds (exTemplate 9 3) i)).1.schedule k with
    | none => simp
    | some x => exact h i (by omega) _ (SMap.mem_of_get? hk)
  · have h : ((exGet (exRounds (exTemplate 9 3) 5)).2.any fun p =>
        match p with
        | (n, .checkpoint _) => decide (n = "out/chkpt.0001.h5".toList)
        | _ => false) = true := by decide +kernel
    obtain ⟨⟨n, p⟩, hp, hp'⟩ := List.any_eq_true.1 h
    cases p with
    | checkpoint c => simp only [decide_eq_true_eq] at hp'; subst hp'; exact ⟨c, hp⟩
    | diagnostics d g => cases hp'
    | row n d => cases hp'

/-- The finished run of the violation: one round of the loop, and the one after it. -/
def exFinal : World ℚ ℚ ℚ ℚ := exGet (exRounds (exTemplate 1 1) 2)

/-- The file system for the restart from its last checkpoint. -/
def exDisk (f : Str) : Option (Checkpoint ℚ ℚ ℚ) :=
  if f = "out/chkpt.0001.h5".toList then some (writeState exFinal.1) else none

/-- The restarted run: before the loop, and after the final round. -/
def exAgain : Nat → Outcome (World ℚ ℚ ℚ ℚ)
  | 0 => begin (fun _ => .throws .invalidArgument) (exTemplate 1 1) (fun _ => .ok 0) exBinary exDisk
      [(kRestart, "out/chkpt.0001.h5".toList)]
  | i + 1 => (exAgain i).bind (Binary.body exBinary)

/-- C36 is violated by a checkpoint written after the loop: a run that is finished leaves a checkpoint, and
restarting from it takes a further step and writes a checkpoint that the run did not have. -/
theorem binary_restart_violated :
    ∃ (stod : Str → Outcome ℚ) (t : Template ℚ) (fresh : Config ℚ → Outcome ℚ) (e : Env ℚ ℚ ℚ ℚ)
      (w0 : World ℚ ℚ ℚ ℚ) (n : Nat) (w : World ℚ ℚ ℚ ℚ) (f : Str) (c : Checkpoint ℚ ℚ ℚ)
      (fs : Str → Option (Checkpoint ℚ ℚ ℚ)) (v0 : World ℚ ℚ ℚ ℚ) (m : Nat) (v : World ℚ ℚ ℚ ℚ),
      t.WF ∧ e.IgnoresRestart ∧
      begin stod t fresh e (fun _ => none) [] = .ok w0 ∧ Finishes e w0 n w ∧
      (f, .checkpoint c) ∈ w.2 ∧ fs f = some c ∧
      begin stod t fresh e fs [(kRestart, f)] = .ok v0 ∧ Finishes e v0 m v ∧
      ∃ p ∈ v.2, p.1 ∉ w.2.map Prod.fst := by
  have hok : ∀ i < 3, exOk (exRounds (exTemplate 1 1) i) = true := by decide +kernel
  have hok' : ∀ i < 2, exOk (exAgain i) = true := by decide +kernel
  have step : ∀ i < 2, Binary.body exBinary (exGet (exRounds (exTemplate 1 1) i)) =
      .ok (exGet (exRounds (exTemplate 1 1) (i + 1))) := by
    intro i hi
    have h1 := exGet_eq (hok i (by omega))
    have h2 := exGet_eq (hok (i + 1) (by omega))
    rw [← h2, exRounds]
    conv_rhs => rw [h1, Outcome.bind_ok]
  have step' : Binary.body exBinary (exGet (exAgain 0)) = .ok (exGet (exAgain 1)) := by
    have h1 := exGet_eq (hok' 0 (by omega))
    have h2 := exGet_eq (hok' 1 (by omega))
    rw [← h2, show exAgain 1 = (exAgain 0).bind (Binary.body exBinary) from rfl]
    conv_rhs => rw [h1, Outcome.bind_ok]
  refine ⟨fun _ => .throws .invalidArgument, exTemplate 1 1, fun _ => .ok 0, exBinary,
    exGet (exRounds (exTemplate 1 1) 0), 1, exFinal, "out/chkpt.0001.h5".toList, writeState exFinal.1, exDisk,
    exGet (exAgain 0), 0, exGet (exAgain 1), by decide, exBinary_ignores, exGet_eq (hok 0 (by decide)),
    ?_, ?_, by simp [exDisk], exGet_eq (hok' 0 (by decide)), ?_, ?_⟩
  · exact .loop (by decide +kernel) (step 0 (by decide)) (.exit (by decide +kernel) (step 1 (by decide)))
  · have h : (exFinal.2.any fun p =>
        match p with
        | (n, .checkpoint _) => decide (n = "out/chkpt.0001.h5".toList)
        | _ => false) = true := by decide +kernel
    obtain ⟨c, hc⟩ : ∃ c, ("out/chkpt.0001.h5".toList, Content.checkpoint c) ∈ exFinal.2 := by
      obtain ⟨⟨n, p⟩, hp, hp'⟩ := List.any_eq_true.1 h
      cases p with
      | checkpoint c => simp only [decide_eq_true_eq] at hp'; subst hp'; exact ⟨c, hp⟩
      | diagnostics d g => cases hp'
      | row n d => cases hp'
    have h1 := step 1 (by decide)
    simp only [Binary.body, Outcome.bind_eq_ok] at h1
    obtain ⟨s, _, h1⟩ := h1
    obtain ⟨N, e1, _, e3⟩ := round_files h1
    have hc' := hc
    rw [exFinal, e1] at hc'
    rcases List.mem_append.1 hc' with h2 | h2
    · exfalso
      have h3 : "out/chkpt.0001.h5".toList ∉ (exGet (exRounds (exTemplate 1 1) 1)).2.map Prod.fst := by
        decide +kernel
      exact h3 (List.mem_map.2 ⟨_, h2, rfl⟩)
    · have h4 : c = writeState exFinal.1 := (e3 _ _ h2).1
      rw [← h4]; exact hc
  · exact .exit (by decide +kernel) step'
  · have h : ((exGet (exAgain 1)).2.any fun p => decide (p.1 ∉ exFinal.2.map Prod.fst)) = true := by
      decide +kernel
    obtain ⟨p, hp, hp'⟩ := List.any_eq_true.1 h
    exact ⟨p, hp, by simpa using hp'⟩

end Binary
end Verif.Runs
