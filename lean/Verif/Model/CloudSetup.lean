import Verif.Model.CloudGas
import Verif.Model.Envelope
import Verif.Model.NdFreeze
import Mathlib.Algebra.Order.Floor.Ring

/-!
# Initial state, units and diagnostics of the cloud program (`subprog_cloud.cpp`)

Over `ℝ`.  The values of the configuration are given.
-/

namespace Verif.Cloud

open Verif.Nd Verif.Sedov

/-- subprog_cloud.cpp:60-86 `config_template`: what the initial state depends on. -/
structure RunConfig where
  nr : Int
  numDecades : ℝ
  innerRadius : ℝ
  cloudCutoff : ℝ
  cloudMass : ℝ
  densityIndex : ℝ
  densityIndex2 : ℝ
  jetDelayTime : ℝ

/-- subprog_cloud.cpp:177-196 `unit_system_t`. -/
structure UnitSystem where
  length : ℝ
  mass : ℝ
  time : ℝ

/-- subprog_cloud.cpp:187 `energy`. -/
noncomputable def UnitSystem.energy (u : UnitSystem) : ℝ := u.mass * Envelope.lightSpeed ^ 2

/-- subprog_cloud.cpp:188 `mass_density`. -/
noncomputable def UnitSystem.massDensity (u : UnitSystem) : Outcome ℝ := Atmosphere.div u.mass (u.length ^ 3)

/-- subprog_cloud.cpp:296-301 `make_cloud_envelop_model`. -/
noncomputable def RunConfig.envelope (c : RunConfig) : Envelope.Model := Envelope.Model.make c.innerRadius c.densityIndex

/-- subprog_cloud.cpp:303-311 `make_atmosphere_model`. -/
noncomputable def RunConfig.atmosphere (c : RunConfig) : Outcome Atmosphere.Model :=
  ({ Atmosphere.Model.default with
      r0 := c.innerRadius, rc := c.cloudCutoff, n1 := c.densityIndex, n2 := c.densityIndex2 } : Atmosphere.Model).withTotalMass (c.cloudMass * Envelope.solarMass)

/-- subprog_cloud.cpp:324-332 `make_reference_units`. -/
noncomputable def RunConfig.reference (c : RunConfig) : Outcome UnitSystem :=
  c.atmosphere.bind fun a => a.totalMass.map fun M => ⟨a.r0, M, a.r0 / Envelope.lightSpeed⟩

/-- subprog_cloud.cpp:863-890 `print_run_dimensions`: the numbers printed as reference length, time, mass and energy. -/
noncomputable def RunConfig.printed (c : RunConfig) : Outcome (UnitSystem × ℝ) :=
  (c.envelope.totalMass c.jetDelayTime).map fun M =>
    (⟨c.envelope.innerRadius, M, c.envelope.innerRadius / Envelope.lightSpeed⟩, M * (Envelope.lightSpeed * Envelope.lightSpeed))

/-- subprog_cloud.cpp:627-643 `initial_p_v2`. The angle is not used. -/
noncomputable def RunConfig.initial (c : RunConfig) (u : UnitSystem) (x : ℝ × ℝ) : Outcome (Vec 5 ℝ) :=
  (c.envelope.densityAt (x.1 * u.length) c.jetDelayTime).bind fun d =>
  u.massDensity.bind fun k =>
  (Atmosphere.div d k).bind fun density =>
  (c.envelope.gammaBetaAt (x.1 * u.length) c.jetDelayTime).map fun gb =>
  ![density, gb, 0, 0, density * (1 / 10 ^ 6)]

open Classical in
/-- Conversion of a `double` to an `int`. -/
noncomputable def toInt (x : ℝ) : Outcome Int :=
  if x < 2 ^ 31 ∧ -2 ^ 31 - 1 < x then .ok (if 0 ≤ x then ⌊x⌋ else ⌈x⌉) else .ub

/-- An `int` as a count. The sum of an `int` and one overflows for the largest `int`. -/
def countAfter (n : Int) : Outcome Nat := if n = 2 ^ 31 - 1 then .ub else .ok ((n + 1) % 2 ^ 64).toNat

/-- subprog_cloud.cpp:610-665 `new_solution`. -/
noncomputable def newSolution (c : RunConfig) : Outcome Solution :=
  c.reference.bind fun u =>
  (toInt (c.numDecades * c.nr)).bind fun k =>
  (countAfter k).bind fun nrad =>
  (evaluate ((linspace (0 : ℝ) c.numDecades nrad).map fun y => (10 : ℝ) ^ y)).bind fun rv =>
  (countAfter c.nr).bind fun npol =>
  (evaluate (linspace (0 : ℝ) Real.pi npol)).bind fun qv =>
  (cellVolumes rv qv).bind fun dv =>
  (cellCentroids rv qv).bind fun x =>
  (binaryOp scale ((x.mapO (c.initial u)).map fun P => Srhd.toConserved P (4 / 3)) dv).bind fun U =>
  (evaluate U).bind fun U => .ok ⟨0, rv, qv, U⟩

/-- subprog_cloud.cpp:334-429 `make_diagnostic_fields`: `solid_angle_at_theta` and `total_energy_at_theta`.  The loop fills the arrays element by element. -/
noncomputable def angularFields (u : UnitSystem) (s : Solution) : Outcome (Arr 1 (ℝ × ℝ)) :=
  (radialFaceAreas s.radial s.polar).bind fun A =>
  evaluate ⟨fun _ => wsub (volume s.polar.shape) 1, fun j =>
    (A.get ![0, j 0]).bind fun a => (s.radial.get fun _ => 0).bind fun r =>
    (Atmosphere.div a r).bind fun b => (Atmosphere.div b r).bind fun solid =>
    (freezeAxis 1 (j 0) s.conserved).bind fun uj =>
    (sum ((uj.map fun x => x 4).map fun e => e * u.energy)).map fun E => (solid, E)⟩

end Verif.Cloud
