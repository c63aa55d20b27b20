import Verif.Model.BinaryStep

/-!
# The binary program in other units

Lengths, times, and the surface density of the gas are measured in other units.  Newton's constant is one in the program: the unit of the masses of
the bodies follows from those of length and time.  The mass of the gas has a unit of its own, unless one asks that the two agree.
-/

namespace Verif.Binary
open Verif Verif.Nd Verif.Tree Iso2d TwoBody

/-- Units in which lengths, times and surface densities are numbers larger by these factors. -/
structure Scale where
  length : ℝ
  time : ℝ
  density : ℝ
  length_pos : 0 < length
  time_pos : 0 < time
  density_pos : 0 < density

namespace Scale

variable (c : Scale)

/-- Velocities. -/
noncomputable def velocity : ℝ := c.length / c.time

/-- Masses of the bodies: `G M` is a length times the square of a velocity. -/
noncomputable def bodyMass : ℝ := c.length ^ 3 / c.time ^ 2

/-- Masses of gas. -/
noncomputable def gasMass : ℝ := c.density * c.length ^ 2

/-- Three numbers of which the last two have the same unit. -/
def tri (k l : ℝ) (x : Tri) : Tri := ⟨k * x.a, l * x.b, l * x.c⟩

/-- The elements of arrays on a tree. -/
def field {α : Type} (f : α → α) (t : Quad α) : Quad α := t.map fun A => A.map f

/-- The options of a run. -/
noncomputable def params (p : Params) : Params where
  sinkRate := p.sinkRate / c.time
  softening := c.length * p.softening
  gstSuppr := c.length * p.gstSuppr
  domainRadius := c.length * p.domainRadius
  sinkRadius := c.length * p.sinkRadius
  densityFloor := c.density * p.densityFloor
  mach := p.mach
  alpha := p.alpha
  alphaCutoff := c.length * p.alphaCutoff
  nu := c.length * c.velocity * p.nu
  plmTheta := p.plmTheta
  axisymmetric := p.axisymmetric

/-- Elements of an orbit. -/
noncomputable def orbit (e : FullElements) : FullElements where
  pomega := e.pomega
  tau := c.time * e.tau
  cmX := c.length * e.cmX
  cmY := c.length * e.cmY
  cmVx := c.velocity * e.cmVx
  cmVy := c.velocity * e.cmVy
  elements := ⟨c.length * e.elements.separation, c.bodyMass * e.elements.totalMass, e.elements.massRatio, e.elements.eccentricity⟩

/-- What does not change during a run. -/
noncomputable def solver (m : SolverData) : SolverData where
  params := c.params m.params
  recommendedStep := c.time * m.recommendedStep
  cfl := m.cfl
  beginLive := c.time * m.beginLive
  rkOrder := m.rkOrder
  conserveLinear := m.conserveLinear
  fixedDt := m.fixedDt
  noAccretionForce := m.noAccretionForce
  blockSize := m.blockSize
  vertices := field (fun x => (c.length * x.1, c.length * x.2)) m.vertices
  centers := field (fun x => (c.length * x.1, c.length * x.2)) m.centers
  areas := field (fun x => c.length ^ 2 * x) m.areas
  initialU := field (tri c.density (c.density * c.velocity)) m.initialU
  initialQ := field (tri c.density (c.density * c.length * c.velocity)) m.initialQ
  bufferRate := field (fun x => c.time⁻¹ * x) m.bufferRate

/-- The state of a run: densities, momenta and angular momenta of the gas by area, and the records. -/
noncomputable def solution (s : Solution) : Solution where
  time := c.time * s.time
  iteration := s.iteration
  u := field (tri c.density (c.density * c.velocity)) s.u
  q := field (tri c.density (c.density * c.length * c.velocity)) s.q
  massAccreted k := c.gasMass * s.massAccreted k
  angmomAccreted k := c.gasMass * (c.length * c.velocity) * s.angmomAccreted k
  torque k := c.gasMass * (c.length * c.velocity) * s.torque k
  work k := c.gasMass * c.velocity ^ 2 * s.work k
  massEjected := c.gasMass * s.massEjected
  angmomEjected := c.gasMass * (c.length * c.velocity) * s.angmomEjected
  orbitAcc := c.orbit s.orbitAcc
  orbitGrav := c.orbit s.orbitGrav
  orbit := c.orbit s.orbit

/-- The options for which the program knows no units: the width of the cutoff of the viscosity is a third of the unit of length
(`subprog_binary_scheme.cpp:182`), and the axisymmetric temperature is that around a mass one (164-166). -/
def Fits (p : Params) : Prop := (p.alphaCutoff ≤ 0 ∨ c.length = 1) ∧ (p.axisymmetric = false ∨ c.bodyMass = 1)

end Scale

/-- Steps of the program one after the other. -/
noncomputable def steps (sh : Nat → Outcome Nat) (fuel : Nat) (z : Fin 9 → Bool) (m : SolverData) : Nat → Solution → Outcome Solution
  | 0, s => .ok s
  | n + 1, s => (nextSolution sh fuel z m s).bind (steps sh fuel z m n)

end Verif.Binary
