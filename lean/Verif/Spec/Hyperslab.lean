import Verif.Model.Hyperslab
import Verif.Spec.NdArray
import Verif.Spec.Runs

/-!
# Vocabulary for parts of datasets
-/

namespace Verif.H5
open Verif Verif.Nd

variable {R : Nat} {α : Type}

/-- A dataset of rank one holds the given values. -/
def Holds (D : Dataset 1 α) (l : List α) : Prop :=
  D.extent 0 = l.length ∧ ∀ (k : Nat) (h : k < l.length), D.data (fun _ => k) = l[k]

/-- The rows of the time series among the files of a run: their numbers and contents, in the order they
were written. -/
def rows {σ τ μ D : Type} (F : Runs.Files σ τ μ D) : List (Nat × D) :=
  F.filterMap fun p => match p.2 with
    | .row n d => some (n, d)
    | _ => none

end Verif.H5
