import Verif.Model.SedovFiles

/-!
# What the file of the time series has to hold
-/

namespace Verif.SedovFiles

open Verif Verif.Sedov Verif.Text Verif.Groups

/-- The columns of the file and the numbers of a row that belong there. -/
def columns : List (Str × (Row → ℝ)) :=
  [("time".toList, Row.time), ("shock_radius".toList, Row.shockRadius), ("shock_radius_upstream".toList, Row.shockRadiusUpstream),
    ("shock_radius_downstream".toList, Row.shockRadiusDownstream), ("shock_radius_interpolated".toList, Row.shockRadiusInterpolated),
    ("shock_velocity".toList, Row.shockVelocity)]

/-- A dataset of the file, which can be extended, has these numbers. -/
def Column (f : Store) (k : Str) (l : List ℝ) : Prop :=
  ∃ v, openDataset f [] k = .ok ([k], ⟨(), some l.length, some [1000], v⟩) ∧ v.getD [] = l

/-- All columns of the file have the numbers of these rows. -/
def Series (f : Store) (rows : List Row) : Prop := ∀ c ∈ columns, Column f c.1 (rows.map c.2)

end Verif.SedovFiles
