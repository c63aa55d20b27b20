import Verif.Model.JetNozzle
import Verif.Model.Cloud

/-!
# The gas that flows in at the inner boundary of the cloud program (`subprog_cloud.cpp`)
-/

namespace Verif.Cloud

open Verif.Nd Verif.Sedov

/-- subprog_cloud.cpp:466-483 `extend_inflow_nozzle_inner`: the primitive quantities of the inflow at a time and angle, where `density` and `time` are the units of the
program. The pressure and the other velocities are zero. Zero where the computation of the velocity fails. -/
noncomputable def nozzle (jet : JetNozzle.Model) (density time t q : ℝ) : Vec 5 ℝ :=
  match jet.inflow density (t * time) q with
  | .ok (d, u) => ![d, u, 0, 0, 0]
  | _ => 0

end Verif.Cloud
