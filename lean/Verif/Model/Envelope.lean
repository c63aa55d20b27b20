import Verif.Model.Atmosphere
import Verif.Model.Loop
import Mathlib.Analysis.SpecialFunctions.Log.Base

/-!
# The expanding cloud and envelope (`model_atmosphere.hpp`)

`double` is `ℝ`; `std::pow`, `std::log10` and `std::sqrt` are exact.  Dividing by zero, and a power or logarithm of a number that is not positive, are
undefined behaviour.
-/

namespace Verif.Envelope

open Verif Verif.Atmosphere Verif.Loop

open Classical in
/-- model_atmosphere.hpp:56-80 `solve_secant`. -/
noncomputable def solveSecant (f : ℝ → Outcome ℝ) (guess1 guess2 tolerance : ℝ) : Outcome ℝ :=
  (f guess1).bind fun y1 => (f guess2).bind fun y2 =>
  whileLoop (fun s : (ℝ × ℝ) × (ℝ × ℝ) =>
    if tolerance < |s.2.2| then
      if s.2.2 - s.1.2 = 0 then .ub
      else
        let next := s.2.1 - s.2.2 * (s.2.1 - s.1.1) / (s.2.2 - s.1.2)
        (f next).map fun y => Sum.inl (s.2, next, y)
    else .ok (.inr s.2.1)) ((guess1, y1), (guess2, y2))

/-- model_atmosphere.hpp:275-280: the data of `cloud_and_envelop_model`. -/
structure Model where
  innerRadius : ℝ
  envelopMass : ℝ
  u1 : ℝ
  m1 : ℝ
  psi : ℝ
  cloudIndex : ℝ

/-- model_atmosphere.hpp:273 `solar_mass`; also subprog_cloud.cpp:51. -/
noncomputable def solarMass : ℝ := 1989 * 10 ^ 30

/-- model_atmosphere.hpp:274 `light_speed`; also subprog_cloud.cpp:50. -/
noncomputable def lightSpeed : ℝ := 2998 * 10 ^ 7

/-- model_atmosphere.hpp:275-280, 157-165, subprog_cloud.cpp:296-301 `make_cloud_envelop_model`: only the inner radius and the cloud index can be set. -/
noncomputable def Model.make (innerRadius cloudIndex : ℝ) : Model := ⟨innerRadius, 5 / 1000 * solarMass, 4, 10 ^ 26, 1 / 4, cloudIndex⟩

/-- model_atmosphere.hpp:167-170 `gamma_beta`. -/
noncomputable def Model.gammaBeta (e : Model) (m : ℝ) : Outcome ℝ :=
  (Atmosphere.div m e.m1).bind fun x => (pow x (-e.psi)).map fun y => e.u1 * y

/-- model_atmosphere.hpp:172-176 `velocity`. -/
noncomputable def Model.velocity (e : Model) (m : ℝ) : Outcome ℝ :=
  (e.gammaBeta m).map fun u => u / Real.sqrt (1 + u * u) * lightSpeed

/-- model_atmosphere.hpp:178-181 `dudm`. -/
noncomputable def Model.dudm (e : Model) (m : ℝ) : Outcome ℝ :=
  (Atmosphere.div (-e.psi) m).bind fun x => (e.gammaBeta m).map fun u => x * u

/-- model_atmosphere.hpp:183-186 `radius`. -/
noncomputable def Model.radius (e : Model) (m t : ℝ) : Outcome ℝ := (e.velocity m).map fun v => v * t

open Classical in
/-- model_atmosphere.hpp:188-193 `density`. -/
noncomputable def Model.density (e : Model) (m t : ℝ) : Outcome ℝ :=
  (e.gammaBeta m).bind fun u => (e.velocity m).bind fun v => (e.radius m t).bind fun r => (e.dudm m).bind fun d =>
  if r = 0 ∨ d = 0 then .ub else .ok ((1 + u ^ 2) * (v / lightSpeed) / (4 * Real.pi * r ^ 3) / |d|)

open Classical in
/-- model_atmosphere.hpp:195-199 `cloud_gamma_beta`. -/
noncomputable def Model.cloudGammaBeta (e : Model) : Outcome ℝ :=
  (e.velocity e.envelopMass).bind fun v =>
  let b := v / lightSpeed
  if 1 - b * b ≤ 0 then .ub else .ok (b / Real.sqrt (1 - b * b))

/-- model_atmosphere.hpp:201-209 `cloud_velocity`, `cloud_outer_boundary`. -/
noncomputable def Model.cloudBoundary (e : Model) (t : ℝ) : Outcome ℝ := (e.velocity e.envelopMass).map fun v => v * t

/-- model_atmosphere.hpp:211-214 `envelop_outer_boundary`. -/
noncomputable def Model.envelopBoundary (e : Model) (t : ℝ) : Outcome ℝ := e.radius e.m1 t

open Classical in
/-- `std::log10`. -/
noncomputable def log10 (x : ℝ) : Outcome ℝ := if x ≤ 0 then .ub else .ok (Real.logb 10 x)

/-- model_atmosphere.hpp:216-220 `mass_coordinate`. -/
noncomputable def Model.massCoordinate (e : Model) (r t : ℝ) : Outcome ℝ :=
  solveSecant (fun m => (log10 r).bind fun a => (e.radius m t).bind fun x => (log10 x).map fun b => a - b) e.m1 (e.m1 * 2) (1 / 10 ^ 10)

open Classical in
/-- model_atmosphere.hpp:222-238 `power_law_cloud`, `density_at`.  At the radius of the cloud `power_law_cloud` is called only if the envelope ends inside of
the cloud, and then the two functions call each other without end. -/
noncomputable def Model.densityAt (e : Model) (r t : ℝ) : Outcome ℝ :=
  (e.envelopBoundary t).bind fun r1 => (e.cloudBoundary t).bind fun rc =>
  let shell (x : ℝ) : Outcome ℝ := (e.massCoordinate x t).bind fun m => e.density m t
  if r < rc then
    (if r1 < rc then .diverges else shell rc).bind fun d => (Atmosphere.div r rc).bind fun x => (pow x (-e.cloudIndex)).map fun y => d * y
  else if r1 < r then
    (if r1 < rc then .diverges else shell r1).bind fun d => (Atmosphere.div r r1).bind fun x => (pow x (-2)).map fun y => d * y
  else shell r

open Classical in
/-- model_atmosphere.hpp:240-249 `gamma_beta_at`. -/
noncomputable def Model.gammaBetaAt (e : Model) (r t : ℝ) : Outcome ℝ :=
  (e.envelopBoundary t).bind fun r1 => (e.cloudBoundary t).bind fun rc =>
  if r < rc then e.cloudGammaBeta
  else if r1 < r then (e.massCoordinate r1 t).bind e.gammaBeta
  else (e.massCoordinate r t).bind e.gammaBeta

/-- model_atmosphere.hpp:251-255 `velocity_at`. -/
noncomputable def Model.velocityAt (e : Model) (r t : ℝ) : Outcome ℝ :=
  (e.gammaBetaAt r t).map fun u => u / Real.sqrt (1 + u * u) * lightSpeed

open Classical in
/-- model_atmosphere.hpp:257-265 `cloud_mass`. -/
noncomputable def Model.cloudMass (e : Model) (t : ℝ) : Outcome ℝ :=
  (e.cloudBoundary t).bind fun rc =>
  if e.cloudIndex = 3 then
    (e.densityAt rc t).bind fun d => (Atmosphere.div rc e.innerRadius).bind fun x =>
      if x ≤ 0 then .ub else .ok (4 * Real.pi * (d * rc ^ 3 * Real.log x))
  else
    (e.densityAt rc t).bind fun d => (e.densityAt e.innerRadius t).bind fun d0 =>
      .ok (4 * Real.pi * (d * rc ^ 3 - d0 * e.innerRadius ^ 3) / (3 - e.cloudIndex))

/-- model_atmosphere.hpp:267-270 `total_mass`. -/
noncomputable def Model.totalMass (e : Model) (t : ℝ) : Outcome ℝ := (e.cloudMass t).map fun c => c + e.envelopMass

end Verif.Envelope
