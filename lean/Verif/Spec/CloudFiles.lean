import Verif.Model.CloudFiles
import Verif.Spec.Lines

/-!
# What a file of diagnostics of the cloud program has to hold
-/

namespace Verif.CloudFiles

open Verif Verif.Groups Verif.Text

/-- The file has a dataset with this name, with these extents and numbers. -/
def Holds (f : Store) (k : Str) (s : List Nat) (l : List ℝ) : Prop := openDataset f [] k = .ok ([k], ⟨(), s, none, some l⟩)

/-- `n` numbers in order. -/
def column (n : Nat) (y : Nat → ℝ) : List ℝ := (List.range n).map y

/-- `m` rows of `n` numbers, one row after the other. -/
def rows (m n : Nat) (F : Nat → Nat → ℝ) : List ℝ := (List.range m).flatMap fun i => (List.range n).map (F i)

end Verif.CloudFiles
