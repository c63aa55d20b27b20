import Verif.Model.CloudDiagnostics
import Verif.Model.SedovFiles

/-!
# The files of diagnostics and of the time series of the cloud program (`subprog_cloud.cpp`)

Files are those of `Model/Groups.lean`.  Every dataset has numbers of type `double`; the data space is given by its extents, none for a scalar.  The name of a file is a parameter (C137).  What the group
`config` of the time series has in it is left out (C139), and so is the line printed.
-/

namespace Verif.CloudFiles

open Verif Verif.Nd Verif.Cloud Verif.Text Verif.Groups

/-- An open file. -/
abbrev Store := Groups.File Unit (List Nat) (List ℝ)

/-- "time" -/
def timeKey : Str := ['t', 'i', 'm', 'e']
/-- "gas_pressure" -/
def gasPressureKey : Str := ['g', 'a', 's', '_', 'p', 'r', 'e', 's', 's', 'u', 'r', 'e']
/-- "mass_density" -/
def massDensityKey : Str := ['m', 'a', 's', 's', '_', 'd', 'e', 'n', 's', 'i', 't', 'y']
/-- "specific_entropy" -/
def specificEntropyKey : Str := ['s', 'p', 'e', 'c', 'i', 'f', 'i', 'c', '_', 'e', 'n', 't', 'r', 'o', 'p', 'y']
/-- "radial_energy_flow" -/
def radialEnergyFlowKey : Str := ['r', 'a', 'd', 'i', 'a', 'l', '_', 'e', 'n', 'e', 'r', 'g', 'y', '_', 'f', 'l', 'o', 'w']
/-- "radial_gamma_beta" -/
def radialGammaBetaKey : Str := ['r', 'a', 'd', 'i', 'a', 'l', '_', 'g', 'a', 'm', 'm', 'a', '_', 'b', 'e', 't', 'a']
/-- "radial_vertices" -/
def radialVerticesKey : Str := ['r', 'a', 'd', 'i', 'a', 'l', '_', 'v', 'e', 'r', 't', 'i', 'c', 'e', 's']
/-- "polar_vertices" -/
def polarVerticesKey : Str := ['p', 'o', 'l', 'a', 'r', '_', 'v', 'e', 'r', 't', 'i', 'c', 'e', 's']
/-- "solid_angle_at_theta" -/
def solidAngleAtThetaKey : Str := ['s', 'o', 'l', 'i', 'd', '_', 'a', 'n', 'g', 'l', 'e', '_', 'a', 't', '_', 't', 'h', 'e', 't', 'a']
/-- "total_energy_at_theta" -/
def totalEnergyAtThetaKey : Str := ['t', 'o', 't', 'a', 'l', '_', 'e', 'n', 'e', 'r', 'g', 'y', '_', 'a', 't', '_', 't', 'h', 'e', 't', 'a']
/-- "shock_midpoint_radius" -/
def shockMidpointRadiusKey : Str := ['s', 'h', 'o', 'c', 'k', '_', 'm', 'i', 'd', 'p', 'o', 'i', 'n', 't', '_', 'r', 'a', 'd', 'i', 'u', 's']
/-- "shock_upstream_radius" -/
def shockUpstreamRadiusKey : Str := ['s', 'h', 'o', 'c', 'k', '_', 'u', 'p', 's', 't', 'r', 'e', 'a', 'm', '_', 'r', 'a', 'd', 'i', 'u', 's']
/-- "shock_pressure_radius" -/
def shockPressureRadiusKey : Str := ['s', 'h', 'o', 'c', 'k', '_', 'p', 'r', 'e', 's', 's', 'u', 'r', 'e', '_', 'r', 'a', 'd', 'i', 'u', 's']
/-- "shock_luminosity_radius" -/
def shockLuminosityRadiusKey : Str := ['s', 'h', 'o', 'c', 'k', '_', 'l', 'u', 'm', 'i', 'n', 'o', 's', 'i', 't', 'y', '_', 'r', 'a', 'd', 'i', 'u', 's']
/-- "postshock_flow_gamma" -/
def postshockFlowGammaKey : Str := ['p', 'o', 's', 't', 's', 'h', 'o', 'c', 'k', '_', 'f', 'l', 'o', 'w', '_', 'g', 'a', 'm', 'm', 'a']
/-- "postshock_flow_power" -/
def postshockFlowPowerKey : Str := ['p', 'o', 's', 't', 's', 'h', 'o', 'c', 'k', '_', 'f', 'l', 'o', 'w', '_', 'p', 'o', 'w', 'e', 'r']
/-- "postshock_flow_power02" -/
def postshockFlowPower02Key : Str := ['p', 'o', 's', 't', 's', 'h', 'o', 'c', 'k', '_', 'f', 'l', 'o', 'w', '_', 'p', 'o', 'w', 'e', 'r', '0', '2']
/-- "postshock_flow_power04" -/
def postshockFlowPower04Key : Str := ['p', 'o', 's', 't', 's', 'h', 'o', 'c', 'k', '_', 'f', 'l', 'o', 'w', '_', 'p', 'o', 'w', 'e', 'r', '0', '4']
/-- "postshock_flow_power08" -/
def postshockFlowPower08Key : Str := ['p', 'o', 's', 't', 's', 'h', 'o', 'c', 'k', '_', 'f', 'l', 'o', 'w', '_', 'p', 'o', 'w', 'e', 'r', '0', '8']
/-- "postshock_flow_power16" -/
def postshockFlowPower16Key : Str := ['p', 'o', 's', 't', 's', 'h', 'o', 'c', 'k', '_', 'f', 'l', 'o', 'w', '_', 'p', 'o', 'w', 'e', 'r', '1', '6']
/-- "postshock_flow_power32" -/
def postshockFlowPower32Key : Str := ['p', 'o', 's', 't', 's', 'h', 'o', 'c', 'k', '_', 'f', 'l', 'o', 'w', '_', 'p', 'o', 'w', 'e', 'r', '3', '2']
/-- "postshock_flow_power64" -/
def postshockFlowPower64Key : Str := ['p', 'o', 's', 't', 's', 'h', 'o', 'c', 'k', '_', 'f', 'l', 'o', 'w', '_', 'p', 'o', 'w', 'e', 'r', '6', '4']
/-- "postshock_flow_power_max" -/
def postshockFlowPowerMaxKey : Str := ['p', 'o', 's', 't', 's', 'h', 'o', 'c', 'k', '_', 'f', 'l', 'o', 'w', '_', 'p', 'o', 'w', 'e', 'r', '_', 'm', 'a', 'x']
/-- "config" -/
def configKey : Str := ['c', 'o', 'n', 'f', 'i', 'g']

/-- subprog_cloud.cpp:139-165 `diagnostic_fields_t`.  The arrays with one value for each bin in angle are in two arrays of records here. -/
structure Diagnostics where
  cells : CellFields
  angular : Arr 1 (ℝ × ℝ)
  shocks : Arr 1 ShockColumn

/-- subprog_cloud.cpp:334-434 `make_diagnostic_fields`; the loop over bins is done in two parts.  `u` are the units of the atmosphere, `T` is the temperature floor. -/
noncomputable def makeFields (u : UnitSystem) (T : ℝ) (s : Solution) : Outcome Diagnostics :=
  (shockColumns u T s).bind fun shocks => (angularFields u s).bind fun angular => (cellFields u T s).map fun cells => ⟨cells, angular, shocks⟩

/-- What is given to `write`. -/
inductive Field
  | number (x : ℝ)
  | line (A : Arr 1 ℝ)
  | grid (A : Arr 2 ℝ)

/-- subprog_cloud.cpp:775-797 `file.write`: for an array, its elements in row-major order (core_hdf5.hpp:869-876, app_serialize.hpp:193-215). -/
def writeField (f : Store) (name : Str) : Field → Outcome Store
  | .number x => write f [] name () [] [x]
  | .line A => (readAll A (H5.allPoints A.shape)).bind fun l => write f [] name () [A.shape 0] l
  | .grid A => (readAll A (H5.allPoints A.shape)).bind fun l => write f [] name () [A.shape 0, A.shape 1] l

/-- One call after the other. -/
def writeFields (f : Store) : List (Str × Field) → Outcome Store
  | [] => .ok f
  | (k, x) :: l => (writeField f k x).bind fun f => writeFields f l

/-- subprog_cloud.cpp:775-797: the names and what is written under them. -/
def datasets (d : Diagnostics) : List (Str × Field) :=
  [(timeKey, .number d.cells.time),
    (gasPressureKey, .grid d.cells.pressure),
    (massDensityKey, .grid d.cells.density),
    (specificEntropyKey, .grid d.cells.entropy),
    (radialEnergyFlowKey, .grid d.cells.energyFlow),
    (radialGammaBetaKey, .grid d.cells.gammaBeta),
    (radialVerticesKey, .line d.cells.radial),
    (polarVerticesKey, .line d.cells.polar),
    (solidAngleAtThetaKey, .line (d.angular.map fun x => x.1)),
    (totalEnergyAtThetaKey, .line (d.angular.map fun x => x.2)),
    (shockMidpointRadiusKey, .line (d.shocks.map fun x => x.midpointRadius)),
    (shockUpstreamRadiusKey, .line (d.shocks.map fun x => x.upstreamRadius)),
    (shockPressureRadiusKey, .line (d.shocks.map fun x => x.pressureRadius)),
    (shockLuminosityRadiusKey, .line (d.shocks.map fun x => x.luminosityRadius)),
    (postshockFlowGammaKey, .line (d.shocks.map fun x => x.gamma)),
    (postshockFlowPowerKey, .line (d.shocks.map fun x => x.power)),
    (postshockFlowPower02Key, .line (d.shocks.map fun x => x.powers 0)),
    (postshockFlowPower04Key, .line (d.shocks.map fun x => x.powers 1)),
    (postshockFlowPower08Key, .line (d.shocks.map fun x => x.powers 2)),
    (postshockFlowPower16Key, .line (d.shocks.map fun x => x.powers 3)),
    (postshockFlowPower32Key, .line (d.shocks.map fun x => x.powers 4)),
    (postshockFlowPower64Key, .line (d.shocks.map fun x => x.powers 5)),
    (postshockFlowPowerMaxKey, .line (d.shocks.map fun x => x.powerMax))]

/-- The files after one of them was closed. -/
def close (disk : Disk Unit (List Nat) (List ℝ)) (name : Str) (f : Store) : Disk Unit (List Nat) (List ℝ) := fun n => if n = name then some f.objects else disk n

/-- subprog_cloud.cpp:769-799 `write_diagnostics`; `name` is that of the file. -/
noncomputable def writeDiagnostics (u : UnitSystem) (T : ℝ) (s : Solution) (disk : Disk Unit (List Nat) (List ℝ)) (name : Str) : Outcome (Disk Unit (List Nat) (List ℝ)) :=
  (openFile disk name ['w']).bind fun o =>
  (makeFields u T s).bind fun d =>
  (writeFields o.2 (datasets d)).map fun f => close o.1 name f

/-- subprog_cloud.cpp:891-907 `prepare_filesystem` without a restart; `name` is that of the file of the time series. -/
def prepare (disk : Disk Unit (Option Nat) (List ℝ)) (name : Str) : Outcome (Disk Unit (Option Nat) (List ℝ)) :=
  (openFile disk name ['w']).bind fun o =>
  (SedovFiles.makeColumns o.2 [SedovFiles.timeKey, SedovFiles.shockRadiusKey]).bind fun f =>
  (requireGroup f [] configKey).map fun x => SedovFiles.close o.1 name x.1

/-- subprog_cloud.cpp:801-803 `write_time_series`: there is nothing in it. -/
def writeTimeSeries (disk : Disk Unit (Option Nat) (List ℝ)) (_name : Str) (_s : Solution) : Outcome (Disk Unit (Option Nat) (List ℝ)) := .ok disk

/-- A run: the task is performed for one state after the other. -/
def writeSeries (disk : Disk Unit (Option Nat) (List ℝ)) (name : Str) : List Solution → Outcome (Disk Unit (Option Nat) (List ℝ))
  | [] => .ok disk
  | s :: l => (writeTimeSeries disk name s).bind fun disk => writeSeries disk name l

end Verif.CloudFiles
