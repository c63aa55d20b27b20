import Verif.Model.Iso2d
import Verif.Model.TwoBody
import Verif.Model.Plm
import Mathlib.Analysis.SpecialFunctions.Pow.Real
import Mathlib.Analysis.SpecialFunctions.Trigonometric.DerivHyp

/-!
# Gravity, sinks, viscosity and fluxes of the binary program (`subprog_binary_scheme.cpp`), at a point

`double` is `ℝ`; units are left out; positions are pairs.  A divisor that is zero, or the square root of a negative
number, is the outcome `ub` (the code goes on with infinities or NaNs).
-/

namespace Verif.Binary

open Iso2d Geometry

/-- subprog_binary.hpp:74-104 `solver_data_t`: the numbers that the functions below read. -/
structure Params where
  sinkRate : ℝ
  softening : ℝ
  gstSuppr : ℝ
  domainRadius : ℝ
  sinkRadius : ℝ
  densityFloor : ℝ
  mach : ℝ
  alpha : ℝ
  alphaCutoff : ℝ
  nu : ℝ
  plmTheta : ℝ
  axisymmetric : Bool

open Classical in
/-- subprog_binary_scheme.cpp:85-95 `grav_vdot_field`; the constant `G` is one. -/
noncomputable def gravVdot (s : Params) (body : ℝ × ℝ) (mass : ℝ) (p : ℝ × ℝ) : Outcome (ℝ × ℝ) :=
  let dx := p.1 - body.1
  let dy := p.2 - body.2
  let dr2 := dx * dx + dy * dy
  let rs2 := s.softening * s.softening
  if dr2 + rs2 = 0 then .ub
  else .ok (-dx / (dr2 + rs2) ^ (3 / 2 : ℝ) * 1 * mass, -dy / (dr2 + rs2) ^ (3 / 2 : ℝ) * 1 * mass)

open Classical in
/-- subprog_binary_scheme.cpp:101-111 `grav_phi_field`. -/
noncomputable def gravPhi (s : Params) (body : ℝ × ℝ) (mass : ℝ) (p : ℝ × ℝ) : Outcome ℝ :=
  let dx := p.1 - body.1
  let dy := p.2 - body.2
  let dr2 := dx * dx + dy * dy
  let rs2 := s.softening * s.softening
  if dr2 + rs2 = 0 then .ub else .ok (-1 * mass / (dr2 + rs2) ^ (1 / 2 : ℝ))

open Classical in
/-- subprog_binary_scheme.cpp:117-126 `sink_rate_field`. -/
noncomputable def sinkRate (s : Params) (sink : ℝ × ℝ) (p : ℝ × ℝ) : Outcome ℝ :=
  let dx := p.1 - sink.1
  let dy := p.2 - sink.2
  let s2 := s.sinkRadius * s.sinkRadius
  if s2 = 0 then .ub else .ok (s.sinkRate * Real.exp (-((dx * dx + dy * dy) / s2 / 2)))

/-- subprog_binary_scheme.cpp:170-171, 347-348: where the bodies are. -/
def position (b : TwoBody.PointMass) : ℝ × ℝ := (b.x, b.y)

open Classical in
/-- subprog_binary_scheme.cpp:160-175 `cs2_at_position`. -/
noncomputable def cs2At (s : Params) (b : TwoBody.State) (x : ℝ × ℝ) : Outcome ℝ :=
  if s.mach = 0 then .ub
  else if s.axisymmetric then
    let r2 := x.1 * x.1 + x.2 * x.2
    if r2 = 0 then .ub else .ok (1 / Real.sqrt r2 / s.mach / s.mach)
  else
    (gravPhi s (position b.body1) b.body1.mass x).bind fun phi1 =>
    (gravPhi s (position b.body2) b.body2.mass x).bind fun phi2 =>
    .ok (-(phi1 + phi2) / s.mach / s.mach)

/-- subprog_binary_scheme.cpp:179: the distance from the origin. -/
noncomputable def radius (x : ℝ × ℝ) : ℝ := Real.sqrt (x.1 * x.1 + x.2 * x.2)

open Classical in
/-- subprog_binary_scheme.cpp:180-183: the cutoff of the viscosity. -/
noncomputable def nuProfile (s : Params) (x : ℝ × ℝ) : ℝ :=
  if s.alphaCutoff > 0 then 1 / 2 * (1 + Real.tanh (3 * (radius x - s.alphaCutoff))) else 1

open Classical in
/-- subprog_binary_scheme.cpp:177-193 `nu_at_position`. -/
noncomputable def nuAt (s : Params) (x : ℝ × ℝ) (cs2 : ℝ) : Outcome ℝ :=
  if s.nu > 0 then .ok (nuProfile s x * s.nu)
  else if cs2 < 0 ∨ s.mach = 0 then .ub
  else .ok (nuProfile s x * s.alpha * Real.sqrt cs2 * (radius x / s.mach))

open Classical in
/-- subprog_binary_scheme.cpp:199-214 `to_angmom_fluxes`. -/
noncomputable def toAngmomFluxes (axis : Nat) (rd : ℝ) (x : ℝ × ℝ) (f : Tri) : Tri :=
  let lz := x.1 * f.c - x.2 * f.b
  let lz := if axis = 0 ∧ (x.1 = -rd ∨ x.1 = rd) then 0 else lz
  let lz := if axis = 1 ∧ (x.2 = -rd ∨ x.2 = rd) then 0 else lz
  ⟨f.a, x.1 * f.b + x.2 * f.c, lz⟩

/-- subprog_binary_scheme.cpp:220-262 `viscous_flux`: `long` are the derivatives along the axis on the two sides of the face,
`tran` those along the other axis.  With another axis than 0 or 1 the program ends (a `throw` with nothing to throw again):
the outcome is `ub`. -/
noncomputable def viscousFlux (axis : Nat) (long tran : Tri × Tri) (mu : ℝ) : Outcome Tri :=
  let (gl, gr) := long
  let (hl, hr) := tran
  match axis with
  | 0 =>
    let dxUx := 1 / 2 * (gl.b + gr.b)
    let dxUy := 1 / 2 * (gl.c + gr.c)
    let dyUx := 1 / 2 * (hl.b + hr.b)
    let dyUy := 1 / 2 * (hl.c + hr.c)
    let tauxx := mu * (dxUx - dyUy)
    let tauxy := mu * (dxUy + dyUx)
    .ok ⟨0, -tauxx, -tauxy⟩
  | 1 =>
    let dxUx := 1 / 2 * (hl.b + hr.b)
    let dxUy := 1 / 2 * (hl.c + hr.c)
    let dyUx := 1 / 2 * (gl.b + gr.b)
    let dyUy := 1 / 2 * (gl.c + gr.c)
    let tauyx := mu * (dxUy + dyUx)
    let tauyy := -mu * (dxUx - dyUy)
    .ok ⟨0, -tauyx, -tauyy⟩
  | _ => .ub

open Classical in
/-- physics_iso2d.hpp:488-506 `riemann_hlle`, with the square roots and the divisor `ap - am` checked. -/
noncomputable def hlleChecked (Pl Pr : Tri) (cs2 : ℝ) (n : UnitVec ℝ) : Outcome Tri :=
  if cs2 < 0 ∨ max 0 (max (wavespeeds Pl n cs2).2 (wavespeeds Pr n cs2).2) -
      min 0 (min (wavespeeds Pl n cs2).1 (wavespeeds Pr n cs2).1) = 0 then .ub
  else .ok (hlle Pl Pr cs2 cs2 n)

/-- subprog_binary_scheme.cpp:268-293 `intercell_flux_u`, for the cell size `spacing` (274). -/
noncomputable def intercellFluxU (s : Params) (axis : Nat) (b : TwoBody.State) (spacing : ℝ) (xf : ℝ × ℝ)
    (p0 long tran : Tri × Tri) : Outcome Tri :=
  let plHat := p0.1.add ((long.1.mul (1 / 2)).mul spacing)
  let prHat := p0.2.sub ((long.2.mul (1 / 2)).mul spacing)
  (cs2At s b xf).bind fun cs2 =>
  (nuAt s xf cs2).bind fun nu =>
  let mu := 1 / 2 * nu * (plHat.a + prHat.a)
  (UnitVec.onAxis axis).bind fun nhat =>
  (hlleChecked plHat prHat cs2 nhat).bind fun fhat =>
  (viscousFlux axis long tran mu).bind fun fvisc =>
  .ok (fhat.add fvisc)

/-- subprog_binary_scheme.cpp:295-321 `intercell_flux_q`. -/
noncomputable def intercellFluxQ (s : Params) (axis : Nat) (b : TwoBody.State) (spacing : ℝ) (xf : ℝ × ℝ)
    (p0 long tran : Tri × Tri) : Outcome Tri :=
  (intercellFluxU s axis b spacing xf p0 long tran).map (toAngmomFluxes axis s.domainRadius xf)

/-- subprog_binary_scheme.cpp:327-331 `force_to_source_terms_u`. -/
def forceToSourceU (f : ℝ × ℝ) : Tri := ⟨0, f.1, f.2⟩

/-- subprog_binary_scheme.cpp:333-339 `force_to_source_terms_q`. -/
noncomputable def forceToSourceQ (x f : ℝ × ℝ) : Tri := ⟨0, x.1 * f.1 + x.2 * f.2, x.1 * f.2 - x.2 * f.1⟩

/-- subprog_binary_scheme.cpp:148-154 and 798-799: a limited difference of states over the cell size, by component.  `z` are the
signs of differences that are zero. -/
noncomputable def gradient (z : Fin 9 → Bool) (theta spacing : ℝ) (a b c : Tri) : Tri :=
  Tri.div ⟨Plm.plmGradient (z 0) (z 1) (z 2) theta a.a b.a c.a,
    Plm.plmGradient (z 3) (z 4) (z 5) theta a.b b.b c.b,
    Plm.plmGradient (z 6) (z 7) (z 8) theta a.c b.c c.c⟩ spacing

end Verif.Binary
