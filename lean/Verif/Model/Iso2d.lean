import Verif.Model.Geometry
import Mathlib.Analysis.Real.Sqrt

/-!
# Gas with given temperature in two dimensions (`physics_iso2d.hpp`)

`double` is `ℝ`; units are left out.
-/

namespace Verif.Iso2d

open Geometry

/-- physics_iso2d.hpp:156-167 `primitive_t`: surface density and velocity; also 58-96, the conserved tuples of mass and
two components of momentum, or mass, radial and angular momentum. -/
@[ext] structure Tri where
  a : ℝ
  b : ℝ
  c : ℝ

namespace Tri
/-- core_tuple.hpp:134-135: sums and differences by component. -/
noncomputable def add (x y : Tri) : Tri := ⟨x.a + y.a, x.b + y.b, x.c + y.c⟩
/-- core_tuple.hpp:135. -/
noncomputable def sub (x y : Tri) : Tri := ⟨x.a - y.a, x.b - y.b, x.c - y.c⟩
/-- core_tuple.hpp:123: times a number. -/
noncomputable def mul (x : Tri) (s : ℝ) : Tri := ⟨x.a * s, x.b * s, x.c * s⟩
/-- core_tuple.hpp:124: divided by a number. -/
noncomputable def div (x : Tri) (s : ℝ) : Tri := ⟨x.a / s, x.b / s, x.c / s⟩
end Tri

/-- physics_iso2d.hpp:191-195 `velocity_squared`. -/
noncomputable def velocitySquared (P : Tri) : ℝ := P.b * P.b + P.c * P.c

/-- physics_iso2d.hpp:218-222 `velocity_along`. -/
noncomputable def velocityAlong (P : Tri) (n : UnitVec ℝ) : ℝ := n.project P.b P.c 0

/-- physics_iso2d.hpp:235-238 `gas_pressure`. -/
noncomputable def gasPressure (P : Tri) (cs2 : ℝ) : ℝ := P.a * cs2

/-- physics_iso2d.hpp:249-258 `to_conserved_per_area`. -/
noncomputable def toConserved (P : Tri) : Tri := ⟨P.a, P.a * P.b, P.a * P.c⟩

/-- physics_iso2d.hpp:263-272 `to_conserved_angmom_per_area` at the position `(x, y)`. -/
noncomputable def toAngmom (P : Tri) (x y : ℝ) : Tri := ⟨P.a, P.a * (x * P.b + y * P.c), P.a * (x * P.c - y * P.b)⟩

/-- physics_iso2d.hpp:277-285 `source_terms_conserved_angmom`. -/
noncomputable def sourceAngmom (P : Tri) (cs2 : ℝ) : Tri :=
  ⟨0, (1 / 2 * P.a * velocitySquared P + gasPressure P cs2) * 2, 0⟩

/-- physics_iso2d.hpp:299-307 `flux`. -/
noncomputable def flux (P : Tri) (n : UnitVec ℝ) (cs2 : ℝ) : Tri :=
  let v := velocityAlong P n
  let p := gasPressure P cs2
  ⟨v * P.a, v * P.a * P.b + p * n.n1, v * P.a * P.c + p * n.n2⟩

/-- physics_iso2d.hpp:320-328 `wavespeeds`. -/
noncomputable def wavespeeds (P : Tri) (n : UnitVec ℝ) (cs2 : ℝ) : ℝ × ℝ :=
  let cs := Real.sqrt cs2
  let vn := velocityAlong P n
  (vn - cs, vn + cs)

/-- physics_iso2d.hpp:330-337 `max_wavespeed`. -/
noncomputable def maxWavespeed (P : Tri) (cs2 : ℝ) : ℝ :=
  let ax := wavespeeds P ⟨1, 0, 0⟩ cs2
  let ay := wavespeeds P ⟨0, 1, 0⟩ cs2
  max (max |ax.1| |ax.2|) (max |ay.1| |ay.2|)

open Classical in
/-- physics_iso2d.hpp:351-362 `recover_primitive` from mass and momentum.  With density zero the code divides by zero
before it looks at the sign; theorems ask for non-zero density. -/
noncomputable def recover (U : Tri) : Outcome Tri :=
  let vx := U.b / U.a
  let vy := U.c / U.a
  if U.a < 0 then .throws .invalidArgument else .ok ⟨U.a, vx, vy⟩

open Classical in
/-- physics_iso2d.hpp:376-390 `recover_primitive` from mass, radial and angular momentum. -/
noncomputable def recoverAngmom (Q : Tri) (x y : ℝ) : Outcome Tri :=
  let sr := Q.b / Q.a
  let lz := Q.c / Q.a
  let r2 := x * x + y * y
  let vx := (sr * x - lz * y) / r2
  let vy := (sr * y + lz * x) / r2
  if Q.a < 0 then .throws .invalidArgument else .ok ⟨Q.a, vx, vy⟩

/-- physics_iso2d.hpp:404-414 `to_conserved_per_area` from the angular momentum conserving quantities. -/
noncomputable def angmomToConserved (Q : Tri) (x y : ℝ) : Tri :=
  let r2 := x * x + y * y
  ⟨Q.a, (Q.b * x - Q.c * y) / r2, (Q.b * y + Q.c * x) / r2⟩

/-- physics_iso2d.hpp:436-442 `to_conserved_angmom_flux`. -/
noncomputable def angmomFlux (F : Tri) (x y : ℝ) : Tri := ⟨F.a, x * F.b + y * F.c, x * F.c - y * F.b⟩

/-- physics_iso2d.hpp:444-447 `angular_momentum`. -/
noncomputable def angularMomentum (U : Tri) (x y : ℝ) : ℝ := x * U.c - y * U.b

/-- physics_iso2d.hpp:464-471 `roe_average`. -/
noncomputable def roeAverage (Pr Pl : Tri) : Tri :=
  let kr := Real.sqrt Pr.a
  let kl := Real.sqrt Pl.a
  ((Pr.mul kr).add (Pl.mul kl)).div (kr + kl)

/-- physics_iso2d.hpp:488-506 `riemann_hlle`. -/
noncomputable def hlle (Pl Pr : Tri) (cs2l cs2r : ℝ) (n : UnitVec ℝ) : Tri :=
  let Ul := toConserved Pl
  let Ur := toConserved Pr
  let Al := wavespeeds Pl n cs2l
  let Ar := wavespeeds Pr n cs2r
  let Fl := flux Pl n cs2l
  let Fr := flux Pr n cs2r
  let ap := max 0 (max Al.2 Ar.2)
  let am := min 0 (min Al.1 Ar.1)
  (((Fl.mul ap).sub (Fr.mul am)).sub (((Ul.sub Ur).mul ap).mul am)).div (ap - am)

/-- physics_iso2d.hpp:522-554 `riemann_hllc_variables_t`; the variables that are only stored are left out. -/
structure Hllc where
  n : UnitVec ℝ
  Pl : Tri
  Pr : Tri
  /-- the first two components of `v_perp_l` -/
  perpL1 : ℝ
  perpL2 : ℝ
  perpR1 : ℝ
  perpR2 : ℝ
  ul : ℝ
  ur : ℝ
  al : ℝ
  ar : ℝ
  pressL : ℝ
  pressR : ℝ
  sl : ℝ
  sr : ℝ
  sstar : ℝ

/-- physics_iso2d.hpp:610-687 `compute_hllc_variables`. -/
noncomputable def hllcVariables (Pl Pr : Tri) (cs2l cs2r : ℝ) (n : UnitVec ℝ) : Hllc :=
  let ul := velocityAlong Pl n
  let ur := velocityAlong Pr n
  let sigmaBar := 1 / 2 * (Pl.a + Pr.a)
  let al := Real.sqrt cs2l
  let ar := Real.sqrt cs2r
  let aBar := 1 / 2 * (al + ar)
  let pressL := Pl.a * cs2l
  let pressR := Pr.a * cs2r
  let ppvrs := 1 / 2 * (pressL + pressR) - 1 / 2 * (ur - ul) * sigmaBar * aBar
  let pstar := max 0 ppvrs
  let ql := max 1 (Real.sqrt (pstar / pressL))
  let qr := max 1 (Real.sqrt (pstar / pressR))
  let sl := ul - al * ql
  let sr := ur + ar * qr
  let den := Pl.a * (sl - ul) - Pr.a * (sr - ur)
  let sstar := (pressR - pressL + ul * Pl.a * (sl - ul) - ur * Pr.a * (sr - ur)) / den
  { n := n, Pl := Pl, Pr := Pr
    perpL1 := Pl.b - n.n1 * ul, perpL2 := Pl.c - n.n2 * ul
    perpR1 := Pr.b - n.n1 * ur, perpR2 := Pr.c - n.n2 * ur
    ul := ul, ur := ur, al := al, ar := ar, pressL := pressL, pressR := pressR, sl := sl, sr := sr, sstar := sstar }

namespace Hllc

/-- physics_iso2d.hpp:553 `Fl`. -/
noncomputable def Fl (h : Hllc) : Tri := flux h.Pl h.n (h.al * h.al)
/-- physics_iso2d.hpp:554 `Fr`. -/
noncomputable def Fr (h : Hllc) : Tri := flux h.Pr h.n (h.ar * h.ar)
/-- physics_iso2d.hpp:551 `Ul`. -/
noncomputable def Ul (h : Hllc) : Tri := toConserved h.Pl
/-- physics_iso2d.hpp:552 `Ur`. -/
noncomputable def Ur (h : Hllc) : Tri := toConserved h.Pr

/-- physics_iso2d.hpp:556-564 `Ul_star`. -/
noncomputable def UlStar (h : Hllc) : Tri :=
  ⟨h.Pl.a * (h.sl - h.ul) / (h.sl - h.sstar),
    h.Pl.a * (h.sl - h.ul) / (h.sl - h.sstar) * (h.sstar * h.n.n1 + h.perpL1),
    h.Pl.a * (h.sl - h.ul) / (h.sl - h.sstar) * (h.sstar * h.n.n2 + h.perpL2)⟩

/-- physics_iso2d.hpp:566-574 `Ur_star`. -/
noncomputable def UrStar (h : Hllc) : Tri :=
  ⟨h.Pr.a * (h.sr - h.ur) / (h.sr - h.sstar),
    h.Pr.a * (h.sr - h.ur) / (h.sr - h.sstar) * (h.sstar * h.n.n1 + h.perpR1),
    h.Pr.a * (h.sr - h.ur) / (h.sr - h.sstar) * (h.sstar * h.n.n2 + h.perpR2)⟩

open Classical in
/-- physics_iso2d.hpp:576-583 `interface_flux`. -/
noncomputable def interfaceFlux (h : Hllc) : Outcome Tri :=
  if 0 ≤ h.sl then .ok h.Fl
  else if h.sl ≤ 0 ∧ 0 ≤ h.sstar then .ok (h.Fl.add ((h.UlStar.sub h.Ul).mul h.sl))
  else if h.sstar ≤ 0 ∧ 0 ≤ h.sr then .ok (h.Fr.add ((h.UrStar.sub h.Ur).mul h.sr))
  else if h.sr ≤ 0 then .ok h.Fr
  else .throws .invalidArgument

open Classical in
/-- physics_iso2d.hpp:585-592 `interface_conserved_state`. -/
noncomputable def interfaceState (h : Hllc) : Outcome Tri :=
  if 0 ≤ h.sl then .ok h.Ul
  else if h.sl ≤ 0 ∧ 0 ≤ h.sstar then .ok h.UlStar
  else if h.sstar ≤ 0 ∧ 0 ≤ h.sr then .ok h.UrStar
  else if h.sr ≤ 0 then .ok h.Ur
  else .throws .invalidArgument

end Hllc

/-- physics_iso2d.hpp:704-712 `riemann_hllc`. -/
noncomputable def hllc (Pl Pr : Tri) (cs2l cs2r : ℝ) (n : UnitVec ℝ) : Outcome Tri :=
  (hllcVariables Pl Pr cs2l cs2r n).interfaceFlux

end Verif.Iso2d
