import Verif.Model.Iso2d
import Verif.Model.Srhd
import Verif.Model.Euler

/-!
# Frames and units

What becomes of the states of a gas when it is described in axes that are turned or mirrored, or in other units.
-/

namespace Verif.Frame
open Verif Geometry

/-- Axes that are turned or mirrored in space: an orthogonal matrix. -/
structure Axes where
  q : Fin 3 → Fin 3 → ℝ
  orthogonal : ∀ i j, q 0 i * q 0 j + q 1 i * q 1 j + q 2 i * q 2 j = if i = j then 1 else 0

/-- A component of a vector in the new axes. -/
def Axes.turn (Q : Axes) (x y z : ℝ) (i : Fin 3) : ℝ := Q.q i 0 * x + Q.q i 1 * y + Q.q i 2 * z

/-- Five numbers of which the middle three are a vector: primitive and conserved quantities, and fluxes. -/
def Axes.state (Q : Axes) (P : Fin 5 → ℝ) : Fin 5 → ℝ :=
  ![P 0, Q.turn (P 1) (P 2) (P 3) 0, Q.turn (P 1) (P 2) (P 3) 1, Q.turn (P 1) (P 2) (P 3) 2, P 4]

/-- A unit vector. -/
def Axes.normal (Q : Axes) (n : UnitVec ℝ) : UnitVec ℝ := ⟨Q.turn n.n1 n.n2 n.n3 0, Q.turn n.n1 n.n2 n.n3 1, Q.turn n.n1 n.n2 n.n3 2⟩

/-- Axes that are turned or mirrored in the plane. -/
structure PlaneAxes where
  q : Fin 2 → Fin 2 → ℝ
  orthogonal : ∀ i j, q 0 i * q 0 j + q 1 i * q 1 j = if i = j then 1 else 0

/-- A component of a vector in the new axes. -/
def PlaneAxes.turn (Q : PlaneAxes) (x y : ℝ) (i : Fin 2) : ℝ := Q.q i 0 * x + Q.q i 1 * y

/-- Three numbers of which the last two are a vector. -/
def PlaneAxes.state (Q : PlaneAxes) (P : Iso2d.Tri) : Iso2d.Tri := ⟨P.a, Q.turn P.b P.c 0, Q.turn P.b P.c 1⟩

/-- A unit vector of the plane. -/
def PlaneAxes.normal (Q : PlaneAxes) (n : UnitVec ℝ) : UnitVec ℝ := ⟨Q.turn n.n1 n.n2 0, Q.turn n.n1 n.n2 1, n.n3⟩

/-- One if the axes are turned, minus one if they are mirrored. -/
def PlaneAxes.hand (Q : PlaneAxes) : ℝ := Q.q 0 0 * Q.q 1 1 - Q.q 0 1 * Q.q 1 0

/-- Mass, momentum along and momentum across the position: the last changes its sign in a mirror. -/
def PlaneAxes.around (Q : PlaneAxes) (U : Iso2d.Tri) : Iso2d.Tri := ⟨U.a, U.b, Q.hand * U.c⟩

/-- Units in which the numbers for densities and for velocities are larger by these factors. -/
structure Units where
  density : ℝ
  velocity : ℝ
  density_pos : 0 < density
  velocity_pos : 0 < velocity

/-- Density, velocities, pressure. -/
def Units.primitive (s : Units) (P : Fin 5 → ℝ) : Fin 5 → ℝ :=
  ![s.density * P 0, s.velocity * P 1, s.velocity * P 2, s.velocity * P 3, s.density * s.velocity ^ 2 * P 4]

/-- Densities of mass, momentum and energy. -/
def Units.conserved (s : Units) (U : Fin 5 → ℝ) : Fin 5 → ℝ :=
  ![s.density * U 0, s.density * s.velocity * U 1, s.density * s.velocity * U 2, s.density * s.velocity * U 3, s.density * s.velocity ^ 2 * U 4]

/-- Their fluxes. -/
def Units.flux (s : Units) (F : Fin 5 → ℝ) : Fin 5 → ℝ := fun i => s.velocity * s.conserved F i

/-- The same in the plane, without energy. -/
def Units.planePrimitive (s : Units) (P : Iso2d.Tri) : Iso2d.Tri := ⟨s.density * P.a, s.velocity * P.b, s.velocity * P.c⟩

/-- Densities of mass and momentum. -/
def Units.planeConserved (s : Units) (U : Iso2d.Tri) : Iso2d.Tri :=
  ⟨s.density * U.a, s.density * s.velocity * U.b, s.density * s.velocity * U.c⟩

/-- Their fluxes. -/
def Units.planeFlux (s : Units) (F : Iso2d.Tri) : Iso2d.Tri :=
  ⟨s.velocity * (s.density * F.a), s.velocity * (s.density * s.velocity * F.b), s.velocity * (s.density * s.velocity * F.c)⟩

/-- Relativistic: velocities are in units of the speed of light, so that only the unit of density is free. -/
def rest (l : ℝ) (P : Fin 5 → ℝ) : Fin 5 → ℝ := ![l * P 0, P 1, P 2, P 3, l * P 4]

end Verif.Frame
