import Verif.Model.Outcome
import Mathlib.Analysis.SpecialFunctions.Pow.Real
import Mathlib.Analysis.SpecialFunctions.Trigonometric.Basic

/-!
# The jet nozzle (`model_jet_nozzle.hpp`)

`double` is `ℝ`; `std::pow` and `std::exp` are exact.  Dividing by zero is undefined behaviour, and so are powers of negative numbers and negative powers
of zero.
-/

namespace Verif.JetNozzle

/-- model_jet_nozzle.hpp:54-127 `jet_nozzle_model`. -/
structure Model where
  Ej : ℝ
  G0 : ℝ
  tj : ℝ
  qj : ℝ
  as : ℝ
  r0 : ℝ

/-- model_jet_nozzle.hpp:121-126: the default. -/
noncomputable def Model.default : Model := ⟨1, 2, 1, 1 / 10, 2, 1⟩

/-- model_jet_nozzle.hpp:56 `light_speed_cgs`. -/
noncomputable def lightSpeed : ℝ := 3 * 10 ^ 10

/-- model_jet_nozzle.hpp:58-63, subprog_cloud.cpp:313-322 `make_jet_nozzle_model`: every parameter is set. -/
def Model.make (Ej G0 tj qj as r0 : ℝ) : Model := ⟨Ej, G0, tj, qj, as, r0⟩

open Classical in
/-- `std::pow(x / y, a)`. -/
noncomputable def ratioPow (x y a : ℝ) : Outcome ℝ :=
  if y = 0 ∨ x / y < 0 ∨ (x / y = 0 ∧ a < 0) then .ub else .ok ((x / y) ^ a)

open Classical in
/-- model_jet_nozzle.hpp:115-118 `density_at_base`. -/
noncomputable def Model.densityAtBase (m : Model) : Outcome ℝ :=
  let d := 2 * Real.pi * (m.G0 * m.r0 * m.qj) ^ 2 * m.tj * lightSpeed ^ 3
  if d = 0 then .ub else .ok (m.Ej / d)

open Classical in
/-- model_jet_nozzle.hpp:74-81 `luminosity_per_steradian`. -/
noncomputable def Model.luminosity (m : Model) (q t : ℝ) : Outcome ℝ :=
  m.densityAtBase.bind fun d => (ratioPow q m.qj m.as).bind fun x =>
  if m.tj = 0 then .ub else .ok (d * m.G0 ^ 2 * m.r0 ^ 2 * lightSpeed ^ 3 * Real.exp (-x) * Real.exp (-t / m.tj))

open Classical in
/-- model_jet_nozzle.hpp:96-101 `gamma_beta`. -/
noncomputable def Model.gammaBeta (m : Model) (q t : ℝ) : Outcome ℝ :=
  (ratioPow q m.qj m.as).bind fun x =>
  if m.tj = 0 then .ub else .ok (m.G0 * Real.exp (-(1 / 2) * x) * Real.exp (-(1 / 2) * t / m.tj))

open Classical in
/-- subprog_cloud.cpp:475-483 `inflow_function`: the mass density in code units and the radial gamma-beta of the gas that flows in at the polar angle `q`, at
`t` seconds.  The other velocities and the pressure are zero. -/
noncomputable def Model.inflow (m : Model) (referenceDensity t q : ℝ) : Outcome (ℝ × ℝ) :=
  (m.gammaBeta q t).bind fun u1 => (m.gammaBeta (Real.pi - q) t).bind fun u2 =>
  m.densityAtBase.bind fun d => if referenceDensity = 0 then .ub else .ok (d / referenceDensity, u1 + u2)

end Verif.JetNozzle
