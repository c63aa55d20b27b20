import Verif.Model.Geometry
import Mathlib.Analysis.Real.Sqrt
import Mathlib.Data.Fin.VecNotation

/-!
# Gas dynamics (`physics_euler.hpp`)

`double` is `ℝ`; units, which are dropped with `.value` in the code, are left out.
-/

namespace Verif.Euler

open Geometry Matrices

/-- physics_euler.hpp:48-53, 76: sequences of five numbers. -/
abbrev Vec := Fin 5 → ℝ

/-- physics_euler.hpp:85-89: the primitive quantities by name; the velocities are `P 1`, `P 2`, `P 3`. -/
abbrev massDensity (P : Vec) : ℝ := P 0
/-- physics_euler.hpp:89. -/
abbrev gasPressure (P : Vec) : ℝ := P 4

/-- physics_euler.hpp:132-135 `enthalpy_density`. -/
noncomputable def enthalpyDensity (P : Vec) (g : ℝ) : ℝ := P 4 * (1 + 1 / (g - 1))

/-- physics_euler.hpp:117-120 `specific_enthalpy`. -/
noncomputable def specificEnthalpy (P : Vec) (g : ℝ) : ℝ := enthalpyDensity P g / P 0

/-- physics_euler.hpp:160-164 `velocity_squared`. -/
noncomputable def velocitySquared (P : Vec) : ℝ := P 1 * P 1 + P 2 * P 2 + P 3 * P 3

/-- physics_euler.hpp:177-181 `velocity_along`. -/
noncomputable def velocityAlong (P : Vec) (n : UnitVec ℝ) : ℝ := n.project (P 1) (P 2) (P 3)

/-- physics_euler.hpp:193-196 `sound_speed_squared`. -/
noncomputable def soundSpeedSquared (P : Vec) (g : ℝ) : ℝ := g * P 4 / P 0

/-- physics_euler.hpp:209-220 `to_conserved_density`. -/
noncomputable def toConserved (P : Vec) (g : ℝ) : Vec :=
  ![P 0, P 0 * P 1, P 0 * P 2, P 0 * P 3, 1 / 2 * P 0 * velocitySquared P + P 4 / (g - 1)]

/-- physics_euler.hpp:252-263 `flux` with given conserved densities. -/
noncomputable def fluxWith (P : Vec) (n : UnitVec ℝ) (U : Vec) : Vec :=
  let v := velocityAlong P n
  let p := P 4
  ![v * U 0, v * U 1 + p * n.n1, v * U 2 + p * n.n2, v * U 3 + p * n.n3, v * U 4 + p * v]

/-- physics_euler.hpp:234-237 `flux`. -/
noncomputable def flux (P : Vec) (n : UnitVec ℝ) (g : ℝ) : Vec := fluxWith P n (toConserved P g)

/-- physics_euler.hpp:276-284 `wavespeeds`: the slowest and the fastest. -/
noncomputable def wavespeeds (P : Vec) (n : UnitVec ℝ) (g : ℝ) : ℝ × ℝ :=
  let cs := Real.sqrt (soundSpeedSquared P g)
  let vn := velocityAlong P n
  (vn - cs, vn + cs)

open Classical in
/-- physics_euler.hpp:570-573: the pressure is replaced if it is negative and there is a floor. -/
noncomputable def floored (p d temperatureFloor : ℝ) : ℝ :=
  if p < 0 ∧ 0 < temperatureFloor then temperatureFloor * d else p

/-- physics_euler.hpp:555-575 `recover_primitive`. -/
noncomputable def recover (U : Vec) (g temperatureFloor : ℝ) : Vec :=
  let pSquared := U 1 * U 1 + U 2 * U 2 + U 3 * U 3
  let d := U 0
  let p := (U 4 - 1 / 2 * pSquared / d) * (g - 1)
  ![d, U 1 / d, U 2 / d, U 3 / d, floored p d temperatureFloor]

/-- physics_euler.hpp:592-599 `roe_average`. -/
noncomputable def roeAverage (Pr Pl : Vec) : Vec :=
  let kr := Real.sqrt (Pr 0)
  let kl := Real.sqrt (Pl 0)
  fun i => (Pr i * kr + Pl i * kl) / (kr + kl)

/-- physics_euler.hpp:614-631 `riemann_hlle`. -/
noncomputable def hlle (Pl Pr : Vec) (n : UnitVec ℝ) (g : ℝ) : Vec :=
  let Ul := toConserved Pl g
  let Ur := toConserved Pr g
  let Al := wavespeeds Pl n g
  let Ar := wavespeeds Pr n g
  let Fl := fluxWith Pl n Ul
  let Fr := fluxWith Pr n Ur
  let ap := max 0 (max Al.2 Ar.2)
  let am := min 0 (min Al.1 Ar.1)
  fun i => (Fl i * ap - Fr i * am - (Ul i - Ur i) * ap * am) / (ap - am)

/-- physics_euler.hpp:298-315 `spherical_geometry_source_terms`; `cotq` is `tan (pi/2 - theta)`. -/
noncomputable def sphericalSource (P : Vec) (r cotq : ℝ) : Vec :=
  ![0, (2 * P 4 + P 0 * (P 2 * P 2 + P 3 * P 3)) / r, (cotq * P 4 + P 0 * (P 3 * P 3 * cotq - P 1 * P 2)) / r,
    -P 3 * P 0 * (P 1 + P 2 * cotq) / r, 0]

/-- physics_euler.hpp:328-337 `spherical_geometry_source_terms_radial`. -/
noncomputable def sphericalSourceRadial (P : Vec) (r : ℝ) : Vec :=
  ![0, (2 * P 4 + P 0 * P 2 * P 2) / r, 0, 0, 0]

/-- physics_euler.hpp:347-366, 450-461 `eigensystem_formulas_t`, the numbers kept. -/
structure Formulas where
  g : ℝ
  m : ℝ
  u : ℝ
  v : ℝ
  w : ℝ
  u2 : ℝ
  V2 : ℝ
  a2 : ℝ
  a : ℝ
  H : ℝ

/-- physics_euler.hpp:352-366, the constructor. -/
noncomputable def formulas (P : Vec) (g : ℝ) : Formulas :=
  let m := g - 1
  let u := P 1
  let v := P 2
  let w := P 3
  let u2 := u * u
  let v2 := v * v
  let w2 := w * w
  let V2 := u2 + v2 + w2
  let a2 := soundSpeedSquared P g
  ⟨g, m, u, v, w, u2, V2, a2, Real.sqrt a2, 1 / 2 * V2 + a2 / m⟩

/-- physics_euler.hpp:382-391 `flux_jacobian`. -/
noncomputable def Formulas.fluxJacobian (s : Formulas) : Mat 5 5 ℝ :=
  ![![0, 1, 0, 0, 0],
    ![s.m * s.H - s.u2 - s.a2, (3 - s.g) * s.u, -s.m * s.v, -s.m * s.w, s.m],
    ![-s.u * s.v, s.v, s.u, 0, 0],
    ![-s.u * s.w, s.w, 0, s.u, 0],
    ![s.u * (1 / 2 * s.m * s.V2 - s.H), s.H - s.m * s.u2, -s.m * s.u * s.v, -s.m * s.u * s.w, s.g * s.u]]

/-- physics_euler.hpp:401-404 `eigenvalues`. -/
noncomputable def Formulas.eigenvalues (s : Formulas) : Mat 5 5 ℝ :=
  Mat.diagonal ![s.u - s.a, s.u, s.u, s.u, s.u + s.a]

/-- physics_euler.hpp:415-424 `right_eigenvectors`. -/
noncomputable def Formulas.right (s : Formulas) : Mat 5 5 ℝ :=
  ![![1, 1, 0, 0, 1],
    ![s.u - s.a, s.u, 0, 0, s.u + s.a],
    ![s.v, s.v, 1, 0, s.v],
    ![s.w, s.w, 0, 1, s.w],
    ![s.H - s.u * s.a, 1 / 2 * s.V2, s.v, s.w, s.H + s.u * s.a]]

/-- physics_euler.hpp:435-444 `left_eigenvectors`. -/
noncomputable def Formulas.left (s : Formulas) : Mat 5 5 ℝ :=
  Mat.smul
    ![![s.H + s.a / s.m * (s.u - s.a), -(s.u + s.a / s.m), -s.v, -s.w, 1],
      ![-2 * s.H + 4 / s.m * s.a2, 2 * s.u, 2 * s.v, 2 * s.w, -2],
      ![-2 * s.v * s.a2 / s.m, 0, 2 * s.a2 / s.m, 0, 0],
      ![-2 * s.w * s.a2 / s.m, 0, 0, 2 * s.a2 / s.m, 0],
      ![s.H - s.a / s.m * (s.u + s.a), -(s.u - s.a / s.m), -s.v, -s.w, 1]]
    (s.m / 2 / s.a2)

end Verif.Euler
