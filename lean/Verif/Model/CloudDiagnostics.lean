import Verif.Model.CloudSetup
import Verif.Model.SedovSeries

/-!
# Diagnostic fields of the cloud program (`subprog_cloud.cpp`)

Over `ℝ`.  The fields `solid_angle_at_theta` and `total_energy_at_theta` are in `Verif.Model.CloudSetup`.
-/

namespace Verif.Cloud

open Verif.Nd Verif.Sedov

/-- subprog_cloud.cpp:190 `energy_density`. -/
noncomputable def UnitSystem.energyDensity (u : UnitSystem) : Outcome ℝ := Atmosphere.div u.energy (u.length ^ 3)

/-- subprog_cloud.cpp:191 `power`. -/
noncomputable def UnitSystem.power (u : UnitSystem) : Outcome ℝ := Atmosphere.div u.energy u.time

/-- subprog_cloud.cpp:344-346 `primitive`; the adiabatic index is 4/3, `T` is the temperature floor.  The array is lazy: an element is computed when it is
read. -/
noncomputable def primitives (T : ℝ) (s : Solution) : Outcome (Arr 2 (Vec 5 ℝ)) :=
  (cellVolumes s.radial s.polar).bind fun dv =>
  (binaryOpO divideVec s.conserved dv).map fun d => d.mapO fun U => Srhd.recover U (4 / 3) T

/-- The fifth component of `p.flux(rhat, gamma_law_index)` (subprog_cloud.cpp:369, 421); the density has been found positive by `recover_primitive`. -/
noncomputable def energyFlux (P : Vec 5 ℝ) : ℝ := Srhd.flux P ⟨1, 0, 0⟩ (4 / 3) 4

/-- subprog_cloud.cpp:350-362: the fields for one bin in angle that have to do with the shock.  `powers` has `postshock_flow_power02` to
`postshock_flow_power64`. -/
structure ShockColumn where
  midpointRadius : ℝ
  upstreamRadius : ℝ
  pressureRadius : ℝ
  luminosityRadius : ℝ
  gamma : ℝ
  power : ℝ
  powers : Fin 6 → ℝ
  powerMax : ℝ

instance : Inhabited ShockColumn := ⟨⟨0, 0, 0, 0, 0, 0, fun _ => 0, 0⟩⟩

/-- subprog_cloud.cpp:376-381 `i02` to `i64`, for cells `2^(a+1)` behind. -/
def behind (k : Nat) (a : Fin 6) : Nat := if k > 2 ^ (a.val + 1) then wsub k (2 ^ (a.val + 1)) else 0

/-- The six values of an array at the indexes `i02` to `i64`. -/
noncomputable def readPowers (L : Arr 1 ℝ) (k : Nat) : Outcome (Fin 6 → ℝ) :=
  (L.get fun _ => behind k 0).bind fun a => (L.get fun _ => behind k 1).bind fun b => (L.get fun _ => behind k 2).bind fun c =>
  (L.get fun _ => behind k 3).bind fun d => (L.get fun _ => behind k 4).bind fun e => (L.get fun _ => behind k 5).map fun f =>
    ![a, b, c, d, e, f]

/-- subprog_cloud.cpp:364-399: one pass of the loop over the bins in angle. -/
noncomputable def shockColumn (u : UnitSystem) (primitive : Arr 2 (Vec 5 ℝ)) (dAr : Arr 2 ℝ) (rc : Arr 1 ℝ) (j : Nat) : Outcome ShockColumn :=
  (freezeAxis 1 j primitive).bind fun pj => (evaluate pj).bind fun pj =>
  (freezeAxis 1 j dAr).bind fun Aj => (midpoint (1 / 2) 0 Aj).bind fun Aj =>
  u.power.bind fun W =>
  (binaryOp (fun F a => F * a) (pj.map energyFlux) Aj).bind fun Lj =>
  let Lj := Lj.map fun L => L * W
  (Shock.findShockIndex (pj.mapO (specificEntropy (4 / 3)))).bind fun k =>
  (Shock.plateauAhead (pj.mapO logPressure) (k 0)).bind fun upstream =>
  (Shock.maximumBehind (pj.map fun P => P 4) (k 0)).bind fun pressure =>
  (Shock.maximumBehind Lj (k 0)).bind fun luminosity =>
  (rc.get fun _ => k 0).bind fun r1 => (rc.get fun _ => upstream).bind fun r2 =>
  (rc.get fun _ => pressure).bind fun r3 => (rc.get fun _ => luminosity).bind fun r4 =>
  (primitive.get ![pressure, j]).bind fun P =>
  (Lj.get fun _ => pressure).bind fun L =>
  (readPowers Lj (k 0)).bind fun Ls =>
  (Lj.get fun _ => luminosity).map fun Lmax =>
    ⟨r1 * u.length, r2 * u.length, r3 * u.length, r4 * u.length, Srhd.lorentzFactor P, L, Ls, Lmax⟩

/-- subprog_cloud.cpp:334-399 `make_diagnostic_fields`: the fields of the loop over bins in angle, but for those of `angularFields`.  Fifteen arrays are
filled element by element; here they are one array of records. -/
noncomputable def shockColumns (u : UnitSystem) (T : ℝ) (s : Solution) : Outcome (Arr 1 ShockColumn) :=
  (radialFaceAreas s.radial s.polar).bind fun dAr =>
  (midpoint (1 / 2) 0 s.radial).bind fun rc =>
  (primitives T s).bind fun primitive =>
  evaluate ⟨fun _ => wsub (volume s.polar.shape) 1, fun j => shockColumn u primitive dAr rc (j 0)⟩

/-- subprog_cloud.cpp:401-427: the fields with one value for each cell, and those of the mesh. -/
structure CellFields where
  time : ℝ
  radial : Arr 1 ℝ
  polar : Arr 1 ℝ
  entropy : Arr 2 ℝ
  pressure : Arr 2 ℝ
  density : Arr 2 ℝ
  gammaBeta : Arr 2 ℝ
  energyFlow : Arr 2 ℝ

/-- subprog_cloud.cpp:401-427 `make_diagnostic_fields`.  The fluxes are multiplied with the areas before their fifth component is taken. -/
noncomputable def cellFields (u : UnitSystem) (T : ℝ) (s : Solution) : Outcome CellFields :=
  (radialFaceAreas s.radial s.polar).bind fun dAr =>
  (primitives T s).bind fun primitive =>
  (evaluate (s.radial.map fun r => r * u.length)).bind fun radial =>
  (evaluate (primitive.mapO (specificEntropy (4 / 3)))).bind fun entropy =>
  u.energyDensity.bind fun e =>
  (evaluate ((primitive.map fun P => P 4).map fun p => p * e)).bind fun pressure =>
  u.massDensity.bind fun d =>
  (evaluate ((primitive.map fun P => P 0).map fun x => x * d)).bind fun density =>
  (evaluate (primitive.map fun P => P 1)).bind fun gammaBeta =>
  (selectAxis 0 0 1 1 true dAr).bind fun inner =>
  u.power.bind fun W =>
  (binaryOp scale (primitive.map fun P => Srhd.flux P ⟨1, 0, 0⟩ (4 / 3)) inner).bind fun F =>
  (evaluate ((F.map fun L => L 4).map fun L => L * W)).map fun energyFlow =>
    ⟨s.time * u.time, radial, s.polar, entropy, pressure, density, gammaBeta, energyFlow⟩

end Verif.Cloud
