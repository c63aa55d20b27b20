import Verif.Model.Loop
import Mathlib.Analysis.SpecialFunctions.Complex.Arg
import Mathlib.Analysis.Real.Sqrt

/-!
# The binary as two point masses (`model_two_body.hpp`)

`double` is `ℝ`, with exact square roots and trigonometric functions; Newton's constant is one, as in the code.  A division
by zero and the square root of a negative number are undefined behaviour.
-/

namespace Verif.TwoBody

/-- model_two_body.hpp:43-49 `orbital_elements_t`. -/
@[ext] structure Elements where
  separation : ℝ
  totalMass : ℝ
  massRatio : ℝ
  eccentricity : ℝ

/-- model_two_body.hpp:53-66 `full_orbital_elements_t`. -/
@[ext] structure FullElements where
  pomega : ℝ
  tau : ℝ
  cmX : ℝ
  cmY : ℝ
  cmVx : ℝ
  cmVy : ℝ
  elements : Elements

/-- model_two_body.hpp:70-77 `point_mass_t`. -/
@[ext] structure PointMass where
  mass : ℝ
  x : ℝ
  y : ℝ
  vx : ℝ
  vy : ℝ

/-- model_two_body.hpp:81-85 `two_body_state_t`. -/
@[ext] structure State where
  body1 : PointMass
  body2 : PointMass

open Classical in
/-- model_two_body.hpp:139-143: one pass of the loop of `solve_newton_rapheson`. -/
noncomputable def newtonStep (f g : ℝ → ℝ) (tol : ℝ) (x : ℝ) : Outcome (ℝ ⊕ ℝ) :=
  if |f x| > tol then (if g x = 0 then .ub else .ok (.inl (x - f x / g x))) else .ok (.inr x)

/-- model_two_body.hpp:130-145 `solve_newton_rapheson`. -/
noncomputable def solveNewton (f g : ℝ → ℝ) (guess tol : ℝ) : Outcome ℝ := Loop.whileLoop (newtonStep f g tol) guess

/-- model_two_body.hpp:120: the default tolerance. -/
noncomputable def tolerance : ℝ := 1 / 10 ^ 10

open Classical in
/-- model_two_body.hpp:173. -/
noncomputable def frequency (p : Elements) : ℝ :=
  if p.separation = 0 then 0 else Real.sqrt (p.totalMass / p.separation / p.separation / p.separation)

open Classical in
/-- model_two_body.hpp:176-192 `make_result_from_E_and_a`. -/
noncomputable def makeResult (p : Elements) (E : ℝ) : Outcome State :=
  let e := p.eccentricity
  let q := p.massRatio
  let a := p.separation
  let omega := frequency p
  let mu := q / (1 + q)
  if q = 0 ∨ 1 - e * Real.cos E = 0 ∨ 1 - e * e < 0 then .ub
  else
    let x1 := -a * mu * (e - Real.cos E)
    let y1 := a * mu * (0 + Real.sin E) * Real.sqrt (1 - e * e)
    let vx1 := -a * mu * omega / (1 - e * Real.cos E) * Real.sin E
    let vy1 := a * mu * omega / (1 - e * Real.cos E) * Real.cos E * Real.sqrt (1 - e * e)
    .ok ⟨⟨p.totalMass * (1 - mu), x1, y1, vx1, vy1⟩, ⟨p.totalMass * mu, -x1 / q, -y1 / q, -vx1 / q, -vy1 / q⟩⟩

open Classical in
/-- model_two_body.hpp:168-209 `compute_two_body_state` for plain elements. -/
noncomputable def twoBodyState (p : Elements) (t : ℝ) : Outcome State :=
  let e := p.eccentricity
  let a := p.separation
  if a ≠ 0 ∧ p.totalMass / a / a / a < 0 ∨ 1 + p.massRatio = 0 then .ub
  else
    let omega := frequency p
    if e > 0 then
      let M := omega * t
      (solveNewton (fun E => E - e * Real.sin E - M) (fun E => 1 - e * Real.cos E) M tolerance).bind (makeResult p)
    else makeResult p (omega * t)

open Classical in
/-- model_two_body.hpp:415-420 `orbital_period`. -/
noncomputable def orbitalPeriod (p : Elements) : Outcome ℝ :=
  let a := p.separation
  if a = 0 ∨ p.totalMass / a / a / a ≤ 0 then .ub
  else .ok (2 * Real.pi / Real.sqrt (p.totalMass / a / a / a))

open Classical in
/-- model_two_body.hpp:213-216 and 484-487: whole periods are added until the time of periapse is passed. -/
noncomputable def catchUp (p : FullElements) (t : ℝ) : Outcome ℝ :=
  Loop.whileLoop (fun t : ℝ => if t < p.tau then (orbitalPeriod p.elements).map (fun P => Sum.inl (t + P)) else .ok (.inr t)) t

/-- model_two_body.hpp:219-266: one body turned by the argument of periapse and moved to the centre of mass. -/
noncomputable def place (p : FullElements) (b : PointMass) : PointMass :=
  let c := Real.cos (-p.pomega)
  let s := Real.sin (-p.pomega)
  ⟨b.mass, (b.x * c + b.y * s) + p.cmX, (-b.x * s + b.y * c) + p.cmY,
    (b.vx * c + b.vy * s) + p.cmVx, (-b.vx * s + b.vy * c) + p.cmVy⟩

/-- model_two_body.hpp:211-268 `compute_two_body_state` for full elements. -/
noncomputable def fullTwoBodyState (p : FullElements) (t : ℝ) : Outcome State :=
  (catchUp p t).bind fun t' =>
    (twoBodyState p.elements (t' - p.tau)).map fun s => ⟨place p s.body1, place p s.body2⟩

/-- model_two_body.hpp:159-162 `clamp`. -/
noncomputable def clamp (x0 x1 x : ℝ) : ℝ := min (max x x0) x1

/-- `std::atan2`, at finite arguments. -/
noncomputable def atan2 (y x : ℝ) : ℝ := Complex.arg ⟨x, y⟩

/-- model_two_body.hpp:304-341: the quantities of a state in the frame of its centre of mass. -/
structure Frame where
  xcm : ℝ
  ycm : ℝ
  vxcm : ℝ
  vycm : ℝ
  x1 : ℝ
  y1 : ℝ
  vx1 : ℝ
  vy1 : ℝ
  r1 : ℝ
  v1 : ℝ
  L : ℝ
  E : ℝ

/-- model_two_body.hpp:304-341.  The divisors `M`, `r1`, `r2` and `R` are checked by `computeOrbitalElements`. -/
noncomputable def frameOf (s : State) : Frame :=
  let c1 := s.body1
  let c2 := s.body2
  let M1 := c1.mass
  let M2 := c2.mass
  let M := M1 + M2
  let x_cm := (c1.x * c1.mass + c2.x * c2.mass) / M
  let y_cm := (c1.y * c1.mass + c2.y * c2.mass) / M
  let vx_cm := (c1.vx * c1.mass + c2.vx * c2.mass) / M
  let vy_cm := (c1.vy * c1.mass + c2.vy * c2.mass) / M
  let x1 := c1.x - x_cm
  let y1 := c1.y - y_cm
  let x2 := c2.x - x_cm
  let y2 := c2.y - y_cm
  let r1 := Real.sqrt (x1 * x1 + y1 * y1)
  let r2 := Real.sqrt (x2 * x2 + y2 * y2)
  let vx1 := c1.vx - vx_cm
  let vy1 := c1.vy - vy_cm
  let vx2 := c2.vx - vx_cm
  let vy2 := c2.vy - vy_cm
  let vf1 := -vx1 * y1 / r1 + vy1 * x1 / r1
  let vf2 := -vx2 * y2 / r2 + vy2 * x2 / r2
  let v1 := Real.sqrt (vx1 * vx1 + vy1 * vy1)
  let E1 := 1 / 2 * M1 * (vx1 * vx1 + vy1 * vy1)
  let E2 := 1 / 2 * M2 * (vx2 * vx2 + vy2 * vy2)
  let L1 := M1 * r1 * vf1
  let L2 := M2 * r2 * vf2
  let R := r1 + r2
  ⟨x_cm, y_cm, vx_cm, vy_cm, x1, y1, vx1, vy1, r1, v1, L1 + L2, E1 + E2 - M1 * M2 / R⟩

open Classical in
/-- model_two_body.hpp:344-401: the elements from the quantities of the frame, for a bound orbit. -/
noncomputable def elementsOf (M1 M2 : ℝ) (F : Frame) (t : ℝ) : Outcome FullElements :=
  let M := M1 + M2
  let q := M2 / M1
  let a := -(1 / 2) * M1 * M2 / F.E
  let b := Real.sqrt (-(1 / 2) * F.L * F.L / F.E * (M1 + M2) / (M1 * M2))
  let e := Real.sqrt (clamp 0 1 (1 - b * b / a / a))
  let omega := Real.sqrt (M / a / a / a)
  let a1 := a * q / (1 + q)
  let b1 := b * q / (1 + q)
  let cn := if e = 0 then F.x1 / F.r1 else (1 - F.r1 / a1) / e
  let cf := a1 / F.r1 * (cn - e)
  let sn := if e = 0 then F.y1 / F.r1 else (F.vx1 * F.x1 + F.vy1 * F.y1) / (e * F.v1 * F.r1) * Real.sqrt (1 - e * e * cn * cn)
  let sf := b1 / F.r1 * sn
  let cE := (e + cf) / (1 + e * cf)
  let sE := Real.sqrt (1 - e * e) * sf / (1 + e * cf)
  let EE := atan2 sE cE
  let MM := EE - e * sE
  let tau := t - MM / omega
  let ax := (cn - e) * F.x1 + sn * Real.sqrt (1 - e * e) * F.y1
  let ay := (cn - e) * F.y1 - sn * Real.sqrt (1 - e * e) * F.x1
  if a = 0 ∨ omega = 0 ∨ 1 + q = 0 ∨ a1 = 0 ∨ (e ≠ 0 ∧ (F.v1 = 0 ∨ 1 - e * e * cn * cn < 0)) ∨ 1 + e * cf = 0 then .ub
  else .ok ⟨atan2 ay ax, tau, F.xcm, F.ycm, F.vxcm, F.vycm, ⟨a, M, q, e⟩⟩

open Classical in
/-- model_two_body.hpp:295-402 `compute_orbital_elements`.  For an unbound state the square roots at lines 346-382 are of
negative numbers and give NaN; nothing is done with them before the exception is thrown at lines 385-386. -/
noncomputable def computeOrbitalElements (s : State) (t : ℝ) : Outcome FullElements :=
  let M1 := s.body1.mass
  let M2 := s.body2.mass
  let F := frameOf s
  let x2 := s.body2.x - F.xcm
  let y2 := s.body2.y - F.ycm
  if M1 + M2 = 0 ∨ M1 = 0 ∨ M2 = 0 ∨ F.r1 = 0 ∨ (x2 = 0 ∧ y2 = 0) ∨ F.E = 0 then .ub
  else if F.E ≥ 0 then .throws .invalidArgument
  else elementsOf M1 M2 F t

/-- model_two_body.hpp:404-413 `orbital_energy`. -/
noncomputable def orbitalEnergy (p : Elements) : ℝ :=
  let M1 := p.totalMass / (1 + p.massRatio)
  let M2 := p.totalMass - M1
  let E := -(1 / 2) * M1 * M2 / p.separation
  E

/-- model_two_body.hpp:422-434 `orbital_angular_momentum`. -/
noncomputable def orbitalAngularMomentum (p : Elements) : ℝ :=
  let a := p.separation
  let e := p.eccentricity
  let M1 := p.totalMass / (1 + p.massRatio)
  let M2 := p.totalMass - M1
  let mu := M1 * M2 / p.totalMass
  let b2 := a * a * (1 - e * e)
  Real.sqrt (-2 * orbitalEnergy p * b2 * mu)

/-- model_two_body.hpp:449-452 `separation`. -/
noncomputable def separation (s : State) : ℝ :=
  Real.sqrt ((s.body1.x - s.body2.x) ^ 2 + (s.body1.y - s.body2.y) ^ 2)

/-- model_two_body.hpp:436-442 `total_energy`, for bodies at different places. -/
noncomputable def totalEnergy (s : State) : ℝ :=
  let T1 := 1 / 2 * s.body1.mass * (s.body1.vx * s.body1.vx + s.body1.vy * s.body1.vy)
  let T2 := 1 / 2 * s.body2.mass * (s.body2.vx * s.body2.vx + s.body2.vy * s.body2.vy)
  T1 + T2 + -s.body1.mass * s.body2.mass / separation s

/-- model_two_body.hpp:444-447 `total_mass`. -/
def totalMass (s : State) : ℝ := s.body1.mass + s.body2.mass

/-- model_two_body.hpp:454-478 `delta_a_over_a`. -/
noncomputable def deltaAOverA (s2 s1 : State) : ℝ :=
  let E := totalEnergy s1
  let M1 := s1.body1.mass
  let M2 := s1.body2.mass
  let dM1 := s2.body1.mass - s1.body1.mass
  let dM2 := s2.body2.mass - s1.body2.mass
  let ax1 := s2.body1.vx - s1.body1.vx
  let ay1 := s2.body1.vy - s1.body1.vy
  let ax2 := s2.body2.vx - s1.body2.vx
  let ay2 := s2.body2.vy - s1.body2.vy
  let vx1 := s1.body1.vx
  let vy1 := s1.body1.vy
  let vx2 := s1.body2.vx
  let vy2 := s1.body2.vy
  let T1 := 1 / 2 * M1 * (vx1 * vx1 + vy1 * vy1)
  let T2 := 1 / 2 * M2 * (vx2 * vx2 + vy2 * vy2)
  let dT1 := M1 * (ax1 * vx1 + ay1 * vy1)
  let dT2 := M2 * (ax2 * vx2 + ay2 * vy2)
  (T2 * dM1 / M1 + T1 * dM2 / M2) / E - (dT1 + dT2) / E

/-- model_two_body.hpp:480-490 `mean_anomaly`. -/
noncomputable def meanAnomaly (p : FullElements) (t : ℝ) : Outcome ℝ :=
  (orbitalPeriod p.elements).bind fun P => (catchUp p t).map fun t' => 2 * Real.pi / P * t'

open Classical in
/-- model_two_body.hpp:494-505: the `wrap` of `diff`. -/
noncomputable def wrapDiff (delta period : ℝ) : ℝ :=
  let a := delta
  let b := delta + period
  let c := delta - period
  if |a| < min |b| |c| then a else if |b| < |c| then b else c

/-- model_two_body.hpp:492-521 `diff`. -/
noncomputable def diff (a b : FullElements) : Outcome FullElements :=
  (orbitalPeriod b.elements).map fun P =>
    ⟨wrapDiff (b.pomega - a.pomega) (2 * Real.pi), wrapDiff (b.tau - a.tau) P, b.cmX - a.cmX, b.cmY - a.cmY,
      b.cmVx - a.cmVx, b.cmVy - a.cmVy,
      ⟨b.elements.separation - a.elements.separation, b.elements.totalMass - a.elements.totalMass,
        b.elements.massRatio - a.elements.massRatio, b.elements.eccentricity - a.elements.eccentricity⟩⟩

/-- model_two_body.hpp:523-529 `diff_cm`. -/
noncomputable def diffCm (a : FullElements) (dt : ℝ) : FullElements :=
  ⟨0, 0, a.cmVx * dt, a.cmVy * dt, 0, 0, ⟨0, 0, 0, 0⟩⟩

/-- model_two_body.hpp:530-547 `operator+`. -/
noncomputable def FullElements.add (a b : FullElements) : FullElements :=
  ⟨a.pomega + b.pomega, a.tau + b.tau, a.cmX + b.cmX, a.cmY + b.cmY, a.cmVx + b.cmVx, a.cmVy + b.cmVy,
    ⟨a.elements.separation + b.elements.separation, a.elements.totalMass + b.elements.totalMass,
      a.elements.massRatio + b.elements.massRatio, a.elements.eccentricity + b.elements.eccentricity⟩⟩

/-- model_two_body.hpp:566-583 `operator*`. -/
noncomputable def FullElements.scale (a : FullElements) (k : ℝ) : FullElements :=
  ⟨a.pomega * k, a.tau * k, a.cmX * k, a.cmY * k, a.cmVx * k, a.cmVy * k,
    ⟨a.elements.separation * k, a.elements.totalMass * k, a.elements.massRatio * k, a.elements.eccentricity * k⟩⟩

end Verif.TwoBody
