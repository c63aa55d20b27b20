import Verif.Model.SedovGas
import Verif.Model.Shock
import Verif.Model.Polynomial
import Verif.Model.CloudSetup

/-!
# Initial state and time series of the Sedov program (`subprog_sedov.cpp`)

Over `ℝ`.  A division by zero and the logarithm of a number that is not positive, which give infinities or NaN, are
undefined behaviour.
-/

namespace Verif.Sedov

open Verif.Nd Verif.Cloud

/-- subprog_sedov.cpp:55-70 `config_template`: what the initial state depends on. -/
structure RunConfig where
  nr : Int
  outerRadius : ℝ
  explosionDensity : ℝ
  explosionPressure : ℝ
  densityIndex : ℝ

open Classical in
/-- subprog_sedov.cpp:353-363 `initial_p`; the velocities of a new state are zero. -/
noncomputable def RunConfig.initial (c : RunConfig) (r : ℝ) : Vec 5 ℝ :=
  ![if r < 1 then c.explosionDensity else r ^ (-c.densityIndex), 0, 0, 0,
    if r < 1 then c.explosionPressure else r ^ (-c.densityIndex) * (1 / 10 ^ 6)]

open Classical in
/-- subprog_sedov.cpp:348-383 `new_solution`; `toConserved` is that of the gas, with the adiabatic index bound.  The array of
vertices is evaluated for the state only, and otherwise computed anew with the same values. -/
noncomputable def newSolution (toConserved : Vec 5 ℝ → Vec 5 ℝ) (c : RunConfig) : Outcome (State 5 ℝ) :=
  if c.outerRadius ≤ 0 then .ub
  else
    let decades := Real.logb 10 c.outerRadius
    (toInt (decades * c.nr)).bind fun k =>
    (countAfter k).bind fun count =>
    (evaluate ((linspace (-1 / 2) decades count).map fun y => (10 : ℝ) ^ y)).bind fun vertices =>
    (cellVolumes vertices).bind fun dv =>
    (midpoint (1 / 2) 0 vertices).bind fun xc =>
    (binaryOp scale ((xc.map c.initial).map toConserved) dv).bind fun U =>
    (evaluate U).map fun U => ⟨0, vertices, U⟩

open Classical in
/-- physics_euler.hpp:147-150 and physics_srhd.hpp:138-141 `specific_entropy`. -/
noncomputable def specificEntropy (g : ℝ) (P : Vec 5 ℝ) : Outcome ℝ :=
  if 0 < P 0 ∧ 0 < P 4 then .ok (Real.log (P 4 / P 0 ^ g)) else .ub

open Classical in
/-- The logarithm of the pressure (post_shock_locator.hpp:152-153). -/
noncomputable def logPressure (P : Vec 5 ℝ) : Outcome ℝ := if 0 < P 4 then .ok (Real.log (P 4)) else .ub

open Classical in
/-- subprog_sedov.cpp:107-114 `solve_for_shock_velocity` with the Euler equations. -/
noncomputable def shockVelocityEuler (p1 p2 : Vec 5 ℝ) : Outcome ℝ :=
  divide (p2 0 * p2 1 - p1 0 * p1 1) (p2 0 - p1 0)

open Classical in
/-- subprog_sedov.cpp:96-105 `solve_for_shock_velocity` with relativistic gas. -/
noncomputable def shockVelocitySrhd (p1 p2 : Vec 5 ℝ) : Outcome ℝ :=
  divide (p2 0 * p2 1 - p1 0 * p1 1) (p2 0 * Srhd.lorentzFactor p2 - p1 0 * Srhd.lorentzFactor p1)

/-- subprog_sedov.cpp:299-307: one row of the time series. -/
structure Row where
  time : ℝ
  shockRadius : ℝ
  shockRadiusUpstream : ℝ
  shockRadiusDownstream : ℝ
  shockRadiusInterpolated : ℝ
  shockVelocity : ℝ

/-- subprog_sedov.cpp:292-297 `find_vertex`; indexes are of type `size_t`. -/
noncomputable def findVertex (rc vc : Arr 1 ℝ) (i : Nat) : Outcome ℝ :=
  (rc.get fun _ => wsub i 1).bind fun x1 => (rc.get fun _ => i).bind fun x2 => (rc.get fun _ => w (i + 1)).bind fun x3 =>
  (vc.get fun _ => wsub i 1).bind fun y1 => (vc.get fun _ => i).bind fun y2 => (vc.get fun _ => w (i + 1)).bind fun y3 =>
  (Polynomial.parabolaVertex x1 x2 x3 y1 y2 y3).map Prod.fst

open Classical in
/-- subprog_sedov.cpp:281-284: the primitive quantities. -/
noncomputable def primitives (H : Hydro 5 ℝ (Vec 5 ℝ)) (st : State 5 ℝ) : Outcome (Arr 1 (Vec 5 ℝ)) :=
  (cellVolumes st.vertices).bind fun dv =>
  (binaryOpO divideVec st.conserved dv).bind fun d =>
  evaluate (d.mapO H.recover)

/-- subprog_sedov.cpp:275-308 `compute_time_series_data`.  The radial velocity or radial four-velocity (subprog_sedov.cpp:76-84)
is the second of the primitive quantities, the pressure the last. -/
noncomputable def timeSeries (H : Hydro 5 ℝ (Vec 5 ℝ)) (velocity : Vec 5 ℝ → Vec 5 ℝ → Outcome ℝ) (g : ℝ) (st : State 5 ℝ) :
    Outcome Row :=
  (primitives H st).bind fun p =>
  (Shock.findShockIndex (p.mapO (specificEntropy g))).bind fun k =>
  (Shock.maximumBehind (p.map fun P => P 4) (k 0)).bind fun down =>
  (Shock.plateauAhead (p.mapO logPressure) (k 0)).bind fun up =>
  (midpoint (1 / 2) 0 st.vertices).bind fun rc =>
  let vc := p.map fun P => P 1
  (st.vertices.get k).bind fun radius =>
  (rc.get fun _ => up).bind fun upstream =>
  (rc.get fun _ => down).bind fun downstream =>
  (findVertex rc vc down).bind fun interpolated =>
  (p.get fun _ => up).bind fun p1 => (p.get fun _ => down).bind fun p2 =>
  (velocity p1 p2).map fun v => ⟨st.time, radius, upstream, downstream, interpolated, v⟩

end Verif.Sedov
