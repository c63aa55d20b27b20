import Verif.Model.Runs

/-!
# C147: restarting from a file that is not there, or lacks a part, is refused
-/

namespace Verif.Runs
open Verif Verif.Text Verif.Sched Verif.Config

variable {σ τ μ D : Type}

/-- What a checkpoint has under a name. -/
def HasSolution (c : Checkpoint σ τ μ) : Prop := ∃ s, c.get? kSolution = some (.solution s)
def HasSchedule (c : Checkpoint σ τ μ) : Prop := ∃ g, c.get? kSchedule = some (.schedule g)
def HasSeries (c : Checkpoint σ τ μ) : Prop := ∃ l, c.get? kTimeSeries = some (.series l)
def HasConfig (c : Checkpoint σ τ μ) (name : Str) : Prop := ∃ g, c.get? name = some (.config g)

theorem openSolution_not {c : Checkpoint σ τ μ} (h : ¬ HasSolution c) : openSolution c kSolution = .throws .invalidArgument := by
  unfold openSolution
  split
  · next s e => exact absurd ⟨s, e⟩ h
  · rfl

theorem openSchedule_not {c : Checkpoint σ τ μ} (h : ¬ HasSchedule c) : openSchedule c kSchedule = .throws .invalidArgument := by
  unfold openSchedule
  split
  · next s e => exact absurd ⟨s, e⟩ h
  · rfl

theorem openSeries_not {c : Checkpoint σ τ μ} (h : ¬ HasSeries c) : openSeries c kTimeSeries = .throws .invalidArgument := by
  unfold openSeries
  split
  · next s e => exact absurd ⟨s, e⟩ h
  · rfl

theorem openConfig_not {c : Checkpoint σ τ μ} {name : Str} (h : ¬ HasConfig c name) : openConfig c name = .throws .invalidArgument := by
  unfold openConfig
  split
  · next s e => exact absurd ⟨s, e⟩ h
  · rfl

/-- **C147.** If the file named by `restart` is not there, or has no configuration under the name that the program looks for, the configuration is not made: an exception. -/
theorem config_refused {stod : Str → Outcome τ} {t : Template τ} {fs : Str → Option (Checkpoint σ τ μ)} {group f : Str} {args : SMap Str} (ha : args.get? kRestart = some f)
    (h : ∀ c, fs f = some c → ¬ HasConfig c group) : createRunConfig stod t fs group args = .throws .invalidArgument := by
  unfold createRunConfig
  rw [ha]
  cases hf : fs f with
  | none => simp only [hf]
  | some c =>
    simp only [hf, openConfig_not (h c hf)]
    rfl

/-- **C147.** The boilerplate, sedov and cloud programs: no state is made from a file that is not there, or has no solution or no schedule. -/
theorem App.state_refused [Zero τ] [Add τ] {k : App.Kind} {fresh : Config τ → Outcome σ} {fs : Str → Option (Checkpoint σ τ Unit)} {cfg : Config τ} {f : Str}
    (hr : cfg.getString kRestart = .ok f) (hne : f ≠ []) (h : ∀ c, fs f = some c → ¬ (HasSolution c ∧ HasSchedule c)) : App.createState k fresh fs cfg = .throws .invalidArgument := by
  have he : f.isEmpty = false := by cases f <;> simp_all
  unfold App.createState
  rw [hr]
  simp only [Outcome.bind_ok, he, Bool.false_eq_true, if_false]
  cases hf : fs f with
  | none => rfl
  | some c =>
    by_cases h1 : HasSolution c
    · have h2 : ¬ HasSchedule c := fun h2 => h c hf ⟨h1, h2⟩
      obtain ⟨s, hs⟩ := h1
      simp only [openSolution, hs, openSchedule_not h2]
      rfl
    · simp only [openSolution_not h1]
      rfl

/-- **C147.** The binary program: the time series has to be there, too. -/
theorem Binary.state_refused [Zero τ] [Add τ] {fresh : Config τ → Outcome σ} {fs : Str → Option (Checkpoint σ τ μ)} {cfg : Config τ} {f : Str}
    (hr : cfg.getString kRestart = .ok f) (hne : f ≠ []) (h : ∀ c, fs f = some c → ¬ (HasSolution c ∧ HasSeries c ∧ HasSchedule c)) :
    Binary.createState fresh fs cfg = .throws .invalidArgument := by
  have he : f.isEmpty = false := by cases f <;> simp_all
  unfold Binary.createState
  rw [hr]
  simp only [Outcome.bind_ok, he, Bool.false_eq_true, if_false]
  cases hf : fs f with
  | none => rfl
  | some c =>
    unfold Binary.readState
    by_cases h1 : HasSolution c
    · by_cases h2 : HasSeries c
      · have h3 : ¬ HasSchedule c := fun h3 => h c hf ⟨h1, h2, h3⟩
        obtain ⟨s, hs⟩ := h1
        obtain ⟨l, hl⟩ := h2
        simp only [openSolution, hs, openSeries, hl, openSchedule_not h3]
        rfl
      · obtain ⟨s, hs⟩ := h1
        simp only [openSolution, hs, openSeries_not h2]
        rfl
    · simp only [openSolution_not h1]
      rfl

/-- **C147.** And with all parts there is a state, with the solution of the file. -/
theorem App.state_taken [Zero τ] [Add τ] {k : App.Kind} {fresh : Config τ → Outcome σ} {fs : Str → Option (Checkpoint σ τ Unit)} {cfg : Config τ} {f : Str} {c : Checkpoint σ τ Unit} {s : σ}
    (hr : cfg.getString kRestart = .ok f) (hne : f ≠ []) (hf : fs f = some c) (h1 : c.get? kSolution = some (.solution s)) (h2 : HasSchedule c) :
    ∃ w, App.createState k fresh fs cfg = .ok w ∧ w.solution = s := by
  have he : f.isEmpty = false := by cases f <;> simp_all
  obtain ⟨g, hg⟩ := h2
  refine ⟨⟨s, readSchedule g, cfg⟩, ?_, rfl⟩
  unfold App.createState
  rw [hr]
  simp only [Outcome.bind_ok, he, Bool.false_eq_true, if_false, hf, openSolution, h1, openSchedule, hg]

/-- **C147.** Likewise for the binary program. -/
theorem Binary.state_taken [Zero τ] [Add τ] {fresh : Config τ → Outcome σ} {fs : Str → Option (Checkpoint σ τ μ)} {cfg : Config τ} {f : Str} {c : Checkpoint σ τ μ} {s : σ} {l : List μ}
    (hr : cfg.getString kRestart = .ok f) (hne : f ≠ []) (hf : fs f = some c) (h1 : c.get? kSolution = some (.solution s)) (h2 : c.get? kTimeSeries = some (.series l)) (h3 : HasSchedule c) :
    ∃ w, Binary.createState fresh fs cfg = .ok w ∧ w.solution = s ∧ w.series = l.reverse := by
  have he : f.isEmpty = false := by cases f <;> simp_all
  obtain ⟨g, hg⟩ := h3
  refine ⟨⟨s, readSchedule g, l.reverse, cfg⟩, ?_, rfl, rfl⟩
  unfold Binary.createState Binary.readState
  rw [hr]
  simp only [Outcome.bind_ok, he, Bool.false_eq_true, if_false, hf, openSolution, h1, openSeries, h2, openSchedule, hg]

/-! ### Examples: a file whose writing was cut short after the solution -/

def exCut : Checkpoint Nat Nat Unit := [(kSolution, .solution 7)]
def exFull : Checkpoint Nat Nat Unit := [(kSolution, .solution 7), (kSchedule, .schedule []), (kTimeSeries, .series [(), ()])]
def exDisk : Str → Option (Checkpoint Nat Nat Unit) := fun f => if f = "cut.h5".toList then some exCut else if f = "full.h5".toList then some exFull else none
def exOptions (f : Str) : Config Nat := Template.create [(kRestart, .str f)]

theorem exCut_not : ¬ HasSchedule exCut := by
  rintro ⟨g, h⟩
  have n1 : kSolution ≠ kSchedule := by decide
  simp [exCut, SMap.get?, n1] at h

example (k : App.Kind) : App.createState k (fun _ => .ok 0) exDisk (exOptions "cut.h5".toList) = .throws .invalidArgument :=
  App.state_refused (f := "cut.h5".toList) rfl (by decide) fun c hc h => by
    have : c = exCut := by
      have e : exDisk "cut.h5".toList = some exCut := rfl
      rw [e] at hc
      exact (Option.some.inj hc).symm
    exact exCut_not (this ▸ h.2)

example : Binary.createState (fun _ => .ok 0) exDisk (exOptions "cut.h5".toList) = .throws .invalidArgument :=
  Binary.state_refused (f := "cut.h5".toList) rfl (by decide) fun c hc h => by
    have : c = exCut := by
      have e : exDisk "cut.h5".toList = some exCut := rfl
      rw [e] at hc
      exact (Option.some.inj hc).symm
    exact exCut_not (this ▸ h.2.2)

example (k : App.Kind) : App.createState k (fun _ => .ok 0) exDisk (exOptions "other.h5".toList) = .throws .invalidArgument :=
  App.state_refused (f := "other.h5".toList) rfl (by decide) fun c hc => by
    have e : exDisk "other.h5".toList = none := by decide
    rw [e] at hc
    cases hc

example (t : Template Nat) : createRunConfig (fun _ => .ok 0) t exDisk kRunConfig [(kRestart, "full.h5".toList)] = .throws .invalidArgument :=
  config_refused (f := "full.h5".toList) rfl fun c hc => by
    have e : exDisk "full.h5".toList = some exFull := rfl
    rw [e] at hc
    cases Option.some.inj hc
    rintro ⟨g, h⟩
    have n1 : kSolution ≠ kRunConfig := by decide
    have n2 : kSchedule ≠ kRunConfig := by decide
    have n3 : kTimeSeries ≠ kRunConfig := by decide
    simp [exFull, SMap.get?, n1, n2, n3] at h

example (k : App.Kind) : ∃ w, App.createState k (fun _ => .ok 0) exDisk (exOptions "full.h5".toList) = .ok w ∧ w.solution = 7 :=
  App.state_taken (f := "full.h5".toList) (c := exFull) rfl (by decide) rfl rfl ⟨[], by rfl⟩

example : ∃ w, Binary.createState (fun _ => .ok 0) exDisk (exOptions "full.h5".toList) = .ok w ∧ w.solution = 7 ∧ w.series = [(), ()] :=
  Binary.state_taken (f := "full.h5".toList) (c := exFull) rfl (by decide) rfl rfl (by rfl) ⟨[], by rfl⟩

end Verif.Runs
