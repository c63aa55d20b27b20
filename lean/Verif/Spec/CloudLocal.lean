import Verif.Model.CloudGas

/-!
# How far apart cells of the cloud program are
-/

namespace Verif.Cloud

open Verif.Sedov

/-- The number of faces to cross between two cells. -/
def apart (i j k l : Nat) : Nat := (i - k) + (k - i) + ((j - l) + (l - j))

/-- How many faces away the gas is that a stage looks at: one with piecewise constant states (reconstruct_method=1), otherwise two. -/
def reach (method : Int) : Nat := if method = 1 then 1 else 2

/-- The same content in all cells at most `d` faces away from a cell. -/
def Agree (m n d i j : Nat) (u u' : Nat → Nat → Vec 5 ℝ) : Prop := ∀ k, k < m → ∀ l, l < n → apart i j k l ≤ d → u k l = u' k l

/-- The same gas behind the parts of the inner boundary that are at most `d` faces away from a cell: the gas is one face further than the cell at the boundary. -/
def AgreeInflow (n d i j : Nat) (q : Nat → ℝ) (f f' : ℝ → Vec 5 ℝ) : Prop :=
  ∀ l, l < n → apart i j 0 l + 1 ≤ d → f ((q l + q (l + 1)) / 2) = f' ((q l + q (l + 1)) / 2)

end Verif.Cloud
