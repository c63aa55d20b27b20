import Verif.Spec.BinaryMesh

/-!
# Specification vocabulary for runs of the binary program
-/

namespace Verif.Binary

open Verif Verif.Nd Verif.Tree Iso2d

/-- Parameters of a run that the steps can work with.  In the mode that conserves angular momentum no cell may have its middle at the origin. -/
structure Sound (m : SolverData) (N : Nat) : Prop where
  mach : m.params.mach ≠ 0
  softening : m.params.softening ≠ 0
  sink : m.params.sinkRadius ≠ 0
  sinkRate : 0 ≤ m.params.sinkRate
  ramp : m.conserveLinear = false → m.params.gstSuppr ≠ 0
  offCenter : m.conserveLinear = false → ∀ i c, LeafAt m.vertices i c → i.level ≠ 0 ∨ N % 2 = 0
  /-- the time step, and the fraction of the longest one, are not negative -/
  step : 0 ≤ m.recommendedStep
  cfl : 0 ≤ m.cfl

/-- A state of a run: the gas has no negative density, and the masses of the bodies are positive. -/
structure Running (m : SolverData) (N : Nat) (s : Solution) : Prop where
  gas : NonNegative m.vertices N (cons m.conserveLinear s)
  mass : 0 < s.orbit.elements.totalMass
  ratio : 0 < s.orbit.elements.massRatio

/-- `W` is the mass that flows out through the edges of the domain in an update that starts from the state `s` and takes the time `dt`, less the mass that the
density floor adds (in the mode that conserves linear momentum, one percent where the density is below the floor). -/
def StageLoss (sh : Nat → Outcome Nat) (fuel : Nat) (z : Fin 9 → Bool) (m : SolverData) (N : Nat) (s : Solution) (dt : ℝ) (safe : Bool) (W : ℝ) : Prop :=
  ∃ gx gy f, StepFluxes sh fuel z m s safe N gx gy ∧ Blocks m.vertices (cons m.conserveLinear s) N N f ∧
    W = dt * ((outflow m.vertices N 0 gx).a + (outflow m.vertices N 1 gy).a) -
      (if m.conserveLinear then diskIntegral m N f (fun u _ => open Classical in if u.a < m.params.densityFloor then u.a / 100 else 0) else 0)

/-- `W` is the mass that is lost in this way in a step from `s` to `s'`: of one update, or the mean of two. -/
def StepLoss (sh : Nat → Outcome Nat) (fuel : Nat) (z : Fin 9 → Bool) (m : SolverData) (N : Nat) (s s' : Solution) (W : ℝ) : Prop :=
  ∃ dt safe, 0 ≤ dt ∧ s'.time = s.time + dt ∧
    ((m.rkOrder = 1 ∧ StageLoss sh fuel z m N s dt safe W) ∨
      (m.rkOrder = 2 ∧ ∃ s1 W0 W1, advance sh fuel z m s dt safe = .ok s1 ∧ StageLoss sh fuel z m N s dt safe W0 ∧ StageLoss sh fuel z m N s1 dt safe W1 ∧
        W = (W0 + W1) / 2))

/-- The mass the bodies have accreted, as it is recorded. -/
def accreted (s : Solution) : ℝ := s.massAccreted 0 + s.massAccreted 1

/-- The angular momentum that the gas has given away to the bodies, by accretion and by gravity, and in the buffer, as it is recorded. -/
def angmomGiven (s : Solution) : ℝ := s.angmomAccreted 0 + s.angmomAccreted 1 + s.torque 0 + s.torque 1 + s.angmomEjected

end Verif.Binary
