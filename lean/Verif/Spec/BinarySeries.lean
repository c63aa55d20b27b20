import Verif.Model.BinarySeries
import Verif.Spec.BinaryRun

/-!
# Specification vocabulary for the time series of the binary program
-/

namespace Verif.Binary

open Verif

/-- The mass the bodies have accreted, by a row. -/
def Row.accreted (r : Row) : ℝ := r.massAccreted 0 + r.massAccreted 1

/-- The angular momentum that the gas has given away, by a row. -/
def Row.angmomGiven (r : Row) : ℝ := r.angmomAccreted 0 + r.angmomAccreted 1 + r.torque 0 + r.torque 1 + r.angmomEjected

/-- `W` is the mass lost through the edges, less what the density floor added, in some number of steps that lead from `s` to `s'`. -/
inductive Losses (sh : Nat → Outcome Nat) (fuel : Nat) (z : Fin 9 → Bool) (m : SolverData) (N : Nat) (s : Solution) : Solution → ℝ → Prop
  | none : Losses sh fuel z m N s s 0
  | step {s' s'' W V} : Losses sh fuel z m N s s' W → nextSolution sh fuel z m s' = .ok s'' → StepLoss sh fuel z m N s' s'' V →
      Losses sh fuel z m N s s'' (W + V)

/-- The row `b` may be recorded after the row `a`: time and the accreted masses do not decrease; angular momentum, in the mode that conserves it, is
exchanged between the gas and what is recorded; the orbit perturbed by accretion has gained the accreted mass, that perturbed by gravity none, and that
of the binary, the accreted mass if it is live.  The change of mass is accounted for up to the losses `W`. -/
structure Later (m : SolverData) (W : ℝ) (a b : Row) : Prop where
  time : a.time ≤ b.time
  accretes : ∀ k, a.massAccreted k ≤ b.massAccreted k
  mass : b.diskMass + b.accreted + b.massEjected + W = a.diskMass + a.accreted + a.massEjected
  angmom : m.conserveLinear = false → b.diskAngmom + b.angmomGiven = a.diskAngmom + a.angmomGiven
  accretionOrbit : b.orbitAcc.elements.totalMass - a.orbitAcc.elements.totalMass = b.accreted - a.accreted
  gravityOrbit : b.orbitGrav.elements.totalMass = a.orbitGrav.elements.totalMass
  live : m.beginLive < a.time → b.orbit.elements.totalMass - a.orbit.elements.totalMass = b.accreted - a.accreted
  fixed : b.time ≤ m.beginLive → b.orbit.elements.totalMass = a.orbit.elements.totalMass

/-- A row that makes sense: the disk has no negative mass, the bodies have positive ones, and their positions are about the centre of mass of the recorded orbit. -/
structure Row.Sane (r : Row) : Prop where
  disk : 0 ≤ r.diskMass
  mass : 0 < r.orbit.elements.totalMass
  ratio : 0 < r.orbit.elements.massRatio
  centreX : r.position1.1 + r.orbit.elements.massRatio * r.position2.1 = (1 + r.orbit.elements.massRatio) * r.orbit.cmX
  centreY : r.position1.2 + r.orbit.elements.massRatio * r.position2.2 = (1 + r.orbit.elements.massRatio) * r.orbit.cmY

/-- `s` can be reached from `s0` by steps of the scheme, and `rows`, the oldest one first, were recorded on the way. -/
inductive History (sh : Nat → Outcome Nat) (fuel : Nat) (z : Fin 9 → Bool) (m : SolverData) (s0 : Solution) : Solution → List Row → Prop
  | start : History sh fuel z m s0 s0 []
  | step {s s' rows} : History sh fuel z m s0 s rows → nextSolution sh fuel z m s = .ok s' → History sh fuel z m s0 s' rows
  | record {s rows r} : History sh fuel z m s0 s rows → sample m s = .ok r → History sh fuel z m s0 s (rows ++ [r])

/-- The ledger of a time series, oldest row first: every row is sane, and any two agree with the conservation laws, where the mass that is not accounted for is
lost in the steps between them. -/
def Ledger (sh : Nat → Outcome Nat) (fuel : Nat) (z : Fin 9 → Bool) (m : SolverData) (N : Nat) (rows : List Row) : Prop :=
  (∀ r ∈ rows, r.Sane) ∧
  rows.Pairwise fun a b => ∃ sa sb W, sample m sa = .ok a ∧ sample m sb = .ok b ∧ Losses sh fuel z m N sa sb W ∧ Later m W a b

end Verif.Binary
