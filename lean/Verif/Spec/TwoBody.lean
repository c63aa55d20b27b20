import Verif.Model.TwoBody
import Mathlib.Analysis.Calculus.Deriv.Basic

/-!
# Two point masses under their mutual gravity

What is meant by mass, momentum, energy and angular momentum of two bodies, and by a motion under Newton's law of gravity
(with `G = 1`).  Nothing here refers to how the code computes anything.
-/

namespace Verif.TwoBody.Spec

/-- The distance of the two bodies. -/
noncomputable def distance (s : State) : ℝ := Real.sqrt ((s.body2.x - s.body1.x) ^ 2 + (s.body2.y - s.body1.y) ^ 2)

/-- Kinetic and potential energy. -/
noncomputable def energy (s : State) : ℝ :=
  s.body1.mass * (s.body1.vx ^ 2 + s.body1.vy ^ 2) / 2 + s.body2.mass * (s.body2.vx ^ 2 + s.body2.vy ^ 2) / 2
    - s.body1.mass * s.body2.mass / distance s

/-- Angular momentum about the origin. -/
noncomputable def angularMomentum (s : State) : ℝ :=
  s.body1.mass * (s.body1.x * s.body1.vy - s.body1.y * s.body1.vx)
    + s.body2.mass * (s.body2.x * s.body2.vy - s.body2.y * s.body2.vx)

/-- The state seen by an observer at `(X, Y)` moving with velocity `(U, V)`. -/
noncomputable def seenFrom (s : State) (X Y U V : ℝ) : State :=
  ⟨⟨s.body1.mass, s.body1.x - X, s.body1.y - Y, s.body1.vx - U, s.body1.vy - V⟩,
    ⟨s.body2.mass, s.body2.x - X, s.body2.y - Y, s.body2.vx - U, s.body2.vy - V⟩⟩

/-- The centre of mass is at `(X, Y)` and moves with velocity `(U, V)`. -/
def CentreOfMass (s : State) (X Y U V : ℝ) : Prop :=
  s.body1.mass * s.body1.x + s.body2.mass * s.body2.x = (s.body1.mass + s.body2.mass) * X
  ∧ s.body1.mass * s.body1.y + s.body2.mass * s.body2.y = (s.body1.mass + s.body2.mass) * Y
  ∧ s.body1.mass * s.body1.vx + s.body2.mass * s.body2.vx = (s.body1.mass + s.body2.mass) * U
  ∧ s.body1.mass * s.body1.vy + s.body2.mass * s.body2.vy = (s.body1.mass + s.body2.mass) * V

/-- A motion of two bodies of masses `m1` and `m2` that obeys Newton's law of gravity at all times. -/
structure NewtonMotion (m1 m2 : ℝ) (s : ℝ → State) : Prop where
  mass1 : ∀ t, (s t).body1.mass = m1
  mass2 : ∀ t, (s t).body2.mass = m2
  apart : ∀ t, 0 < distance (s t)
  x1 : ∀ t, HasDerivAt (fun t => (s t).body1.x) (s t).body1.vx t
  y1 : ∀ t, HasDerivAt (fun t => (s t).body1.y) (s t).body1.vy t
  x2 : ∀ t, HasDerivAt (fun t => (s t).body2.x) (s t).body2.vx t
  y2 : ∀ t, HasDerivAt (fun t => (s t).body2.y) (s t).body2.vy t
  vx1 : ∀ t, HasDerivAt (fun t => (s t).body1.vx) (m2 * ((s t).body2.x - (s t).body1.x) / distance (s t) ^ 3) t
  vy1 : ∀ t, HasDerivAt (fun t => (s t).body1.vy) (m2 * ((s t).body2.y - (s t).body1.y) / distance (s t) ^ 3) t
  vx2 : ∀ t, HasDerivAt (fun t => (s t).body2.vx) (m1 * ((s t).body1.x - (s t).body2.x) / distance (s t) ^ 3) t
  vy2 : ∀ t, HasDerivAt (fun t => (s t).body2.vy) (m1 * ((s t).body1.y - (s t).body2.y) / distance (s t) ^ 3) t

/-- The motion that orbital elements stand for, as seen from the centre of mass: it obeys Newton's law of gravity; it has the
energy of an orbit with the given semi-major axis; and at the time of periapse body 1 is in the direction of periapse, the
bodies are as close as the eccentricity says, and move at right angles to the line between them, counterclockwise. -/
structure IsOrbit (p : FullElements) (s : ℝ → State) : Prop where
  newton : NewtonMotion (p.elements.totalMass / (1 + p.elements.massRatio))
    (p.elements.totalMass * p.elements.massRatio / (1 + p.elements.massRatio)) s
  rest : ∀ t, CentreOfMass (s t) 0 0 0 0
  energy : ∀ t, energy (s t) = -((s t).body1.mass * (s t).body2.mass) / (2 * p.elements.separation)
  closest : distance (s p.tau) = p.elements.separation * (1 - p.elements.eccentricity)
  direction : ∃ r, 0 < r ∧ (s p.tau).body1.x = r * Real.cos p.pomega ∧ (s p.tau).body1.y = r * Real.sin p.pomega
  across : ∃ v, 0 < v ∧ (s p.tau).body1.vx = -(v * Real.sin p.pomega) ∧ (s p.tau).body1.vy = v * Real.cos p.pomega

/-- Kepler's third law. -/
noncomputable def period (p : Elements) : ℝ := 2 * Real.pi * Real.sqrt (p.separation ^ 3 / p.totalMass)

/-- The semi-major axis of the orbit of two bodies, from their energy as seen from the centre of mass. -/
noncomputable def semiMajorAxis (s : State) : ℝ :=
  -(s.body1.mass * s.body2.mass) / (2 * energy (seenFrom s 0 0
    ((s.body1.mass * s.body1.vx + s.body2.mass * s.body2.vx) / (s.body1.mass + s.body2.mass))
    ((s.body1.mass * s.body1.vy + s.body2.mass * s.body2.vy) / (s.body1.mass + s.body2.mass))))

/-- The point a fraction `r` of the way from `x` to `y`. -/
noncomputable def lerp (x y r : ℝ) : ℝ := x + r * (y - x)

/-- Masses and velocities a fraction `r` of the way from one state to the other, with the bodies in the places of the first. -/
noncomputable def between (s s' : State) (r : ℝ) : State :=
  ⟨⟨lerp s.body1.mass s'.body1.mass r, s.body1.x, s.body1.y, lerp s.body1.vx s'.body1.vx r, lerp s.body1.vy s'.body1.vy r⟩,
    ⟨lerp s.body2.mass s'.body2.mass r, s.body2.x, s.body2.y, lerp s.body2.vx s'.body2.vx r, lerp s.body2.vy s'.body2.vy r⟩⟩

/-- All positions of two states agree up to `ε`. -/
def Near (ε : ℝ) (s s' : State) : Prop :=
  |s.body1.x - s'.body1.x| ≤ ε ∧ |s.body1.y - s'.body1.y| ≤ ε ∧ |s.body2.x - s'.body2.x| ≤ ε ∧ |s.body2.y - s'.body2.y| ≤ ε

end Verif.TwoBody.Spec
