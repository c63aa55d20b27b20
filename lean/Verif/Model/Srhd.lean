import Verif.Model.Geometry
import Mathlib.Analysis.Real.Sqrt
import Mathlib.Data.Fin.VecNotation

/-!
# Relativistic gas dynamics (`physics_srhd.hpp`)

`double` is `ℝ`; units, which are dropped with `.value` in the code, are left out.  In `recover` a division by zero is
undefined behaviour, as in the language standard; the other functions divide by numbers which theorems show or ask
to be non-zero.
-/

namespace Verif.Srhd

open Geometry

/-- physics_srhd.hpp:43-49, 72: sequences of five numbers. -/
abbrev Vec := Fin 5 → ℝ

/-- physics_srhd.hpp:123-126 `enthalpy_density`. -/
noncomputable def enthalpyDensity (P : Vec) (g : ℝ) : ℝ := P 0 + P 4 * (1 + 1 / (g - 1))

/-- physics_srhd.hpp:108-111 `specific_enthalpy`. -/
noncomputable def specificEnthalpy (P : Vec) (g : ℝ) : ℝ := enthalpyDensity P g / P 0

/-- physics_srhd.hpp:151-155 `gamma_beta_squared`. -/
noncomputable def gammaBetaSquared (P : Vec) : ℝ := P 1 * P 1 + P 2 * P 2 + P 3 * P 3

/-- physics_srhd.hpp:165-168 `lorentz_factor`. -/
noncomputable def lorentzFactor (P : Vec) : ℝ := Real.sqrt (1 + gammaBetaSquared P)

/-- physics_srhd.hpp:181-185 `beta_along`. -/
noncomputable def betaAlong (P : Vec) (n : UnitVec ℝ) : ℝ := n.project (P 1) (P 2) (P 3) / lorentzFactor P

/-- physics_srhd.hpp:197-200 `sound_speed_squared`. -/
noncomputable def soundSpeedSquared (P : Vec) (g : ℝ) : ℝ := g * P 4 / enthalpyDensity P g

/-- physics_srhd.hpp:213-227 `to_conserved_density`. -/
noncomputable def toConserved (P : Vec) (g : ℝ) : Vec :=
  let W := lorentzFactor P
  let h := specificEnthalpy P g
  let D := P 0 * W
  let p := P 4
  ![D, D * P 1 * h, D * P 2 * h, D * P 3 * h, D * h * W - p - D]

/-- physics_srhd.hpp:259-270 `flux` with given conserved densities. -/
noncomputable def fluxWith (P : Vec) (n : UnitVec ℝ) (U : Vec) : Vec :=
  let v := betaAlong P n
  let p := P 4
  ![v * U 0, v * U 1 + p * n.n1, v * U 2 + p * n.n2, v * U 3 + p * n.n3, v * U 4 + p * v]

/-- physics_srhd.hpp:241-244 `flux`. -/
noncomputable def flux (P : Vec) (n : UnitVec ℝ) (g : ℝ) : Vec := fluxWith P n (toConserved P g)

/-- physics_srhd.hpp:283-295 `wavespeeds`: the slowest and the fastest. -/
noncomputable def wavespeeds (P : Vec) (n : UnitVec ℝ) (g : ℝ) : ℝ × ℝ :=
  let c2 := soundSpeedSquared P g
  let vn := betaAlong P n
  let uu := gammaBetaSquared P
  let vv := uu / (1 + uu)
  let v2 := vn * vn
  let k0 := Real.sqrt (c2 * (1 - vv) * (1 - vv * c2 - v2 * (1 - c2)))
  ((vn * (1 - c2) - k0) / (1 - vv * c2), (vn * (1 - c2) + k0) / (1 - vv * c2))

/-- physics_srhd.hpp:309-327 `spherical_geometry_source_terms`; `cotq` is `tan (pi/2 - theta)`. -/
noncomputable def sphericalSource (P : Vec) (r cotq g : ℝ) : Vec :=
  let H := enthalpyDensity P g
  ![0, (2 * P 4 + H * (P 2 * P 2 + P 3 * P 3)) / r, (cotq * P 4 + H * (P 3 * P 3 * cotq - P 1 * P 2)) / r,
    -P 3 * H * (P 1 + P 2 * cotq) / r, 0]

/-- physics_srhd.hpp:339-348 `spherical_geometry_source_terms_radial`. -/
noncomputable def sphericalSourceRadial (P : Vec) (r g : ℝ) : Vec :=
  ![0, (2 * P 4 + enthalpyDensity P g * P 2 * P 2) / r, 0, 0, 0]

/-- physics_srhd.hpp:370 `error_tolerance`. -/
noncomputable def tolerance : ℝ := 1 / 10000000000

/-- physics_srhd.hpp:384-387 `SS`. -/
noncomputable def momentumSquared (U : Vec) : ℝ := U 1 * U 1 + U 2 * U 2 + U 3 * U 3

/-- physics_srhd.hpp:396: `v2`, the square of the velocity at the guessed pressure. -/
noncomputable def guessV2 (U : Vec) (p : ℝ) : ℝ :=
  min (momentumSquared U / (U 4 + U 0 + p) ^ 2) (1 - 1 / 10000000000)

/-- physics_srhd.hpp:397-398: `W`. -/
noncomputable def guessW (U : Vec) (p : ℝ) : ℝ := Real.sqrt (1 / (1 - guessV2 U p))

/-- physics_srhd.hpp:397-399: `e`, the specific internal energy. -/
noncomputable def guessE (U : Vec) (p : ℝ) : ℝ :=
  (U 4 + U 0 * (1 - guessW U p) + p * (1 - 1 / (1 - guessV2 U p))) / (U 0 * guessW U p)

/-- physics_srhd.hpp:400-401: `d * h`. -/
noncomputable def guessDh (U : Vec) (p : ℝ) : ℝ :=
  U 0 / guessW U p * (1 + guessE U p + p / (U 0 / guessW U p))

/-- physics_srhd.hpp:404: `f`, the difference that is to vanish. -/
noncomputable def guessF (U : Vec) (g p : ℝ) : ℝ := U 0 / guessW U p * guessE U p * (g - 1) - p

/-- physics_srhd.hpp:402, 405: `g`, its estimated derivative. -/
noncomputable def guessG (U : Vec) (g p : ℝ) : ℝ := guessV2 U p * (g * p / guessDh U p) - 1

open Classical in
/-- physics_srhd.hpp:394-415: the loop, with at most `n` further steps from the guess `p`.  Result: whether a solution
was found, the pressure and `W0`. -/
noncomputable def loop (U : Vec) (g : ℝ) : ℕ → ℝ → Outcome (Bool × ℝ × ℝ)
  | 0, p => .ok (false, p, 1)
  | n + 1, p =>
    if U 4 + U 0 + p = 0 ∨ U 0 = 0 ∨ guessDh U p = 0 ∨ guessG U g p = 0 then .ub
    else
      let p' := p - guessF U g p / guessG U g p
      if |guessF U g p| < tolerance then .ok (true, p', guessW U p) else loop U g n p'

open Classical in
/-- physics_srhd.hpp:419-422. -/
noncomputable def floored (p d T : ℝ) : ℝ := if 0 < T then max p (T * d) else p

open Classical in
/-- physics_srhd.hpp:417-450: from the result of the loop to that of the function.  `W0` is never NaN here, as the
square root is that of a positive number. -/
noncomputable def finish (U : Vec) (T : ℝ) (found : Bool) (p W0 : ℝ) : Outcome Vec :=
  let p := floored p (U 0 / W0) T
  let s := U 4 + U 0 + p
  let P : Vec := ![U 0 / W0, W0 * U 1 / s, W0 * U 2 / s, W0 * U 3 / s, p]
  if s = 0 then .ub
  else if found = false then .throws .invalidArgument
  else if P 0 ≤ 0 then .throws .invalidArgument
  else if P 4 ≤ 0 then .throws .invalidArgument
  else .ok P

/-- physics_srhd.hpp:364-451 `recover_primitive`. -/
noncomputable def recover (U : Vec) (g T : ℝ) : Outcome Vec :=
  match loop U g 50 0 with
  | .ok (found, p, W0) => finish U T found p W0
  | .throws e => .throws e
  | .ub => .ub
  | .diverges => .diverges

/-- physics_srhd.hpp:466-483 `riemann_hlle`. -/
noncomputable def hlle (Pl Pr : Vec) (n : UnitVec ℝ) (g : ℝ) : Vec :=
  let Ul := toConserved Pl g
  let Ur := toConserved Pr g
  let Al := wavespeeds Pl n g
  let Ar := wavespeeds Pr n g
  let Fl := fluxWith Pl n Ul
  let Fr := fluxWith Pr n Ur
  let ap := max 0 (max Al.2 Ar.2)
  let am := min 0 (min Al.1 Ar.1)
  fun i => (Fl i * ap - Fr i * am - (Ul i - Ur i) * ap * am) / (ap - am)

end Verif.Srhd
