import Verif.Model.Runs

/-!
Vocabulary for restarts: a configuration, or an output file, with another restart file in it.
-/

namespace Verif.Runs
open Verif Verif.Text Verif.Config Verif.Sched

variable {σ τ μ D : Type}

/-- The configuration with `restart` set to `f`. -/
def restartAt (f : Str) (c : Config τ) : Config τ := ⟨c.params.set kRestart (.str f), c.template⟩

/-- The state with `restart` set to `f`. -/
def Binary.State.restartAt (f : Str) (s : Binary.State σ τ μ) : Binary.State σ τ μ :=
  { s with config := Runs.restartAt f s.config }

/-- The program uses the configuration apart from the name of the restart file. -/
structure Binary.Env.IgnoresRestart (e : Binary.Env σ τ μ D) : Prop where
  advance : ∀ f c s, e.advance (Runs.restartAt f c) s = e.advance c s
  sample : ∀ f c s, e.sample (Runs.restartAt f c) s = e.sample c s
  diag : ∀ f c s, e.diag (Runs.restartAt f c) s = e.diag c s

/-- A stored configuration with its restart entry blanked. -/
def blank (g : SMap (Dataset τ)) : SMap (Dataset τ) := g.set kRestart .other

/-- A member of a checkpoint with the restart entry of a stored configuration blanked. -/
def Item.blank : Item σ τ μ → Item σ τ μ
  | .config g => .config (Runs.blank g)
  | i => i

/-- The contents of a file with the restart entry of a stored configuration blanked. -/
def Content.blank : Content σ τ μ D → Content σ τ μ D
  | .checkpoint c => .checkpoint (c.map fun p => (p.1, p.2.blank))
  | .diagnostics d g => .diagnostics d (Runs.blank g)
  | .row n d => .row n d

/-- Files, with the restart entries of stored configurations blanked. -/
def blankFiles (F : Files σ τ μ D) : Files σ τ μ D := F.map fun p => (p.1, p.2.blank)

end Verif.Runs

namespace Verif.Runs
open Verif Verif.Text Verif.Config Verif.Sched

variable {σ τ μ D : Type}

/-- Whether the file is a checkpoint. -/
def Content.isCheckpoint : Content σ τ μ D → Bool
  | .checkpoint _ => true
  | _ => false

/-- Whether the file is one of diagnostics. -/
def Content.isDiagnostics : Content σ τ μ D → Bool
  | .diagnostics _ _ => true
  | _ => false

/-- The names of the checkpoints, in the order they were written. -/
def checkpointNames (F : Files σ τ μ D) : List Str := (F.filter fun p => p.2.isCheckpoint).map Prod.fst

/-- The names of the diagnostics files, in the order they were written. -/
def diagnosticsNames (F : Files σ τ μ D) : List Str := (F.filter fun p => p.2.isDiagnostics).map Prod.fst

end Verif.Runs
