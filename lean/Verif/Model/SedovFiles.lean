import Verif.Model.SedovSeries
import Verif.Model.Groups
import Verif.Model.Hyperslab

/-!
# The files of diagnostics and of the time series of the Sedov program (`subprog_sedov.cpp`)

Files are those of `Model/Groups.lean`.  Every dataset here has numbers of type `double`; the data space is a scalar (`none`) or has one axis.  The extent that a space can be given later is not
part of it.  What the group `run_config` has in it is left out (C139).
-/

namespace Verif.SedovFiles

open Verif Verif.Nd Verif.Sedov Verif.Text Verif.Groups

/-- An open file. -/
abbrev Store := Groups.File Unit (Option Nat) (List ℝ)

/-- "gas_pressure" -/
def gasPressureKey : Str := ['g', 'a', 's', '_', 'p', 'r', 'e', 's', 's', 'u', 'r', 'e']
/-- "mass_density" -/
def massDensityKey : Str := ['m', 'a', 's', 's', '_', 'd', 'e', 'n', 's', 'i', 't', 'y']
/-- "specific_entropy" -/
def specificEntropyKey : Str := ['s', 'p', 'e', 'c', 'i', 'f', 'i', 'c', '_', 'e', 'n', 't', 'r', 'o', 'p', 'y']
/-- "radial_gamma_beta" -/
def radialGammaBetaKey : Str := ['r', 'a', 'd', 'i', 'a', 'l', '_', 'g', 'a', 'm', 'm', 'a', '_', 'b', 'e', 't', 'a']
/-- "radial_coordinates" -/
def radialCoordinatesKey : Str := ['r', 'a', 'd', 'i', 'a', 'l', '_', 'c', 'o', 'o', 'r', 'd', 'i', 'n', 'a', 't', 'e', 's']
/-- "time" -/
def timeKey : Str := ['t', 'i', 'm', 'e']
/-- "shock_radius" -/
def shockRadiusKey : Str := ['s', 'h', 'o', 'c', 'k', '_', 'r', 'a', 'd', 'i', 'u', 's']
/-- "shock_radius_upstream" -/
def shockRadiusUpstreamKey : Str := ['s', 'h', 'o', 'c', 'k', '_', 'r', 'a', 'd', 'i', 'u', 's', '_', 'u', 'p', 's', 't', 'r', 'e', 'a', 'm']
/-- "shock_radius_downstream" -/
def shockRadiusDownstreamKey : Str := ['s', 'h', 'o', 'c', 'k', '_', 'r', 'a', 'd', 'i', 'u', 's', '_', 'd', 'o', 'w', 'n', 's', 't', 'r', 'e', 'a', 'm']
/-- "shock_radius_interpolated" -/
def shockRadiusInterpolatedKey : Str := ['s', 'h', 'o', 'c', 'k', '_', 'r', 'a', 'd', 'i', 'u', 's', '_', 'i', 'n', 't', 'e', 'r', 'p', 'o', 'l', 'a', 't', 'e', 'd']
/-- "shock_velocity" -/
def shockVelocityKey : Str := ['s', 'h', 'o', 'c', 'k', '_', 'v', 'e', 'l', 'o', 'c', 'i', 't', 'y']
/-- "run_config" -/
def runConfigKey : Str := ['r', 'u', 'n', '_', 'c', 'o', 'n', 'f', 'i', 'g']

/-- subprog_sedov.cpp:135-144 `diagnostic_fields_t`. -/
structure Fields where
  gasPressure : Arr 1 ℝ
  massDensity : Arr 1 ℝ
  specificEntropy : Arr 1 ℝ
  radialGammaBeta : Arr 1 ℝ
  radialCoordinates : Arr 1 ℝ
  series : Row

open Classical in
/-- subprog_sedov.cpp:252-269 `make_diagnostic_fields`.  The array of primitive quantities is not evaluated, so that every field recovers them anew.  The radial velocity or four-velocity
(subprog_sedov.cpp:76-84) is the second of the primitive quantities, the pressure the last, the density the first. -/
noncomputable def makeFields (H : Hydro 5 ℝ (Vec 5 ℝ)) (velocity : Vec 5 ℝ → Vec 5 ℝ → Outcome ℝ) (g : ℝ) (st : State 5 ℝ) : Outcome Fields :=
  (cellVolumes st.vertices).bind fun dv =>
  (binaryOpO divideVec st.conserved dv).bind fun d =>
  let primitive := d.mapO H.recover
  (evaluate (primitive.mapO (Sedov.specificEntropy g))).bind fun entropy =>
  (evaluate (primitive.map fun P => P 4)).bind fun pressure =>
  (evaluate (primitive.map fun P => P 0)).bind fun density =>
  (evaluate (primitive.map fun P => P 1)).bind fun speed =>
  (midpoint (1 / 2) 0 st.vertices).bind fun mid =>
  (evaluate mid).bind fun radius =>
  (timeSeries H velocity g st).map fun row => ⟨pressure, density, entropy, speed, radius, row⟩

/-- `file.write(name, array)`: the elements in row-major order, with the extent of the array. -/
def writeLine (f : Store) (name : Str) (A : Arr 1 ℝ) : Outcome Store :=
  (readAll A (H5.allPoints A.shape)).bind fun l => write f [] name () (some (A.shape 0)) l

/-- `file.write(name, number)`. -/
def writeNumber (f : Store) (name : Str) (x : ℝ) : Outcome Store := write f [] name () none [x]

/-- subprog_sedov.cpp:299-307: the names and numbers of a row, in the order of `std::map`. -/
def items (r : Row) : List (Str × ℝ) :=
  [(shockRadiusKey, r.shockRadius), (shockRadiusDownstreamKey, r.shockRadiusDownstream), (shockRadiusInterpolatedKey, r.shockRadiusInterpolated),
    (shockRadiusUpstreamKey, r.shockRadiusUpstream), (shockVelocityKey, r.shockVelocity), (timeKey, r.time)]

/-- subprog_sedov.cpp:510-513: the loop. -/
def writeItems (f : Store) : List (Str × ℝ) → Outcome Store
  | [] => .ok f
  | (k, x) :: l => (writeNumber f k x).bind fun f => writeItems f l

/-- The files after one of them was closed. -/
def close (disk : Disk Unit (Option Nat) (List ℝ)) (name : Str) (f : Store) : Disk Unit (Option Nat) (List ℝ) := fun n => if n = name then some f.objects else disk n

/-- subprog_sedov.cpp:496-515 `write_diagnostics`; `name` is that of the file. -/
noncomputable def writeDiagnostics (H : Hydro 5 ℝ (Vec 5 ℝ)) (velocity : Vec 5 ℝ → Vec 5 ℝ → Outcome ℝ) (g : ℝ) (st : State 5 ℝ) (disk : Disk Unit (Option Nat) (List ℝ))
    (name : Str) : Outcome (Disk Unit (Option Nat) (List ℝ)) :=
  (openFile disk name ['w']).bind fun o =>
  (makeFields H velocity g st).bind fun d =>
  (writeLine o.2 gasPressureKey d.gasPressure).bind fun f =>
  (writeLine f massDensityKey d.massDensity).bind fun f =>
  (writeLine f specificEntropyKey d.specificEntropy).bind fun f =>
  (writeLine f radialGammaBetaKey d.radialGammaBeta).bind fun f =>
  (writeLine f radialCoordinatesKey d.radialCoordinates).bind fun f =>
  (writeItems f (items d.series)).map fun f => close o.1 name f

/-- subprog_sedov.cpp:310-322 `get_time_series_column_names`. -/
def columnNames : List Str :=
  [timeKey, shockRadiusKey, shockRadiusUpstreamKey, shockRadiusDownstreamKey, shockRadiusInterpolatedKey, shockVelocityKey]

/-- subprog_sedov.cpp:609-612: the loop; chunks of 1000, nothing in it yet. -/
def makeColumns (f : Store) : List Str → Outcome Store
  | [] => .ok f
  | k :: l => (requireDataset f [] k () (some 0) (some [1000])).bind fun x => makeColumns x.1 l

/-- subprog_sedov.cpp:596-616 `prepare_filesystem` without a restart; `name` is that of the file. -/
def prepare (disk : Disk Unit (Option Nat) (List ℝ)) (name : Str) : Outcome (Disk Unit (Option Nat) (List ℝ)) :=
  (openFile disk name ['w']).bind fun o =>
  (makeColumns o.2 columnNames).bind fun f =>
  (requireGroup f [] runConfigKey).map fun x => close o.1 name x.1

/-- `H5Dset_extent`: entries beyond the new extent are lost, new ones are zero. -/
def resize (l : List ℝ) (n : Nat) : List ℝ := l.take n ++ List.replicate (n - l.length) 0

/-- `set_extent(n + 1)` and the write of entry `n` (subprog_sedov.cpp:527-528; C105 has it with selections). -/
def putEntry (n : Nat) (x : ℝ) : Node Unit (Option Nat) (List ℝ) → Node Unit (Option Nat) (List ℝ)
  | .group => .group
  | .data d => .data { d with space := some (n + 1), value := some ((resize (d.value.getD []) (n + 1)).set n x) }

/-- subprog_sedov.cpp:526-528: the body of the loop.  Only a dataset with one axis and chunks can be given another extent. -/
def writeEntry (f : Store) (k : Str) (n : Nat) (x : ℝ) : Outcome Store :=
  (openDataset f [] k).bind fun d =>
  if f.writable ∧ d.2.space.isSome ∧ d.2.chunk.isSome then .ok { f with objects := f.objects.map fun y => if y.1 = d.1 then (y.1, putEntry n x y.2) else y }
  else .throws .invalidArgument

/-- subprog_sedov.cpp:524-529: the loop. -/
def writeEntries (f : Store) (n : Nat) : List (Str × ℝ) → Outcome Store
  | [] => .ok f
  | (k, x) :: l => (writeEntry f k n x).bind fun f => writeEntries f n l

/-- subprog_sedov.cpp:517-530 `write_time_series`; `n` is the number of times the task was performed, `r` the row of the state. -/
def writeRow (disk : Disk Unit (Option Nat) (List ℝ)) (name : Str) (n : Nat) (r : Row) : Outcome (Disk Unit (Option Nat) (List ℝ)) :=
  (openFile disk name ['r', '+']).bind fun o => (writeEntries o.2 n (items r)).map fun f => close o.1 name f

/-- A run: rows numbered from `n` on are written one after the other. -/
def writeRows (disk : Disk Unit (Option Nat) (List ℝ)) (name : Str) (n : Nat) : List Row → Outcome (Disk Unit (Option Nat) (List ℝ))
  | [] => .ok disk
  | r :: l => (writeRow disk name n r).bind fun disk => writeRows disk name (n + 1) l

end Verif.SedovFiles
