import Verif.Model.BinaryStep

/-!
# Diagnostic fields of the binary program (subprog_binary_diagnostics.cpp)
-/

namespace Verif.Binary

open Verif Verif.Nd Verif.Tree Iso2d TwoBody

/-- subprog_binary.hpp:130-140 `diagnostic_fields_t`, apart from the configuration. -/
structure DiagnosticFields where
  time : ℝ
  vertices : Quad (ℝ × ℝ)
  sigma : Quad ℝ
  radialVelocity : Quad ℝ
  phiVelocity : Quad ℝ
  position1 : ℝ × ℝ
  position2 : ℝ × ℝ

open Classical in
/-- subprog_binary_diagnostics.cpp:60-69: `rc`, the unit vectors `rhat` and `phat`, and the components `vr` and `vp`, of one cell. -/
noncomputable def polarVelocity (p : Tri) (x : ℝ × ℝ) : Outcome (ℝ × ℝ) :=
  let rc := Real.sqrt (x.1 * x.1 + x.2 * x.2)
  if rc = 0 then .ub
  else .ok (p.b * (x.1 / rc) + p.c * (x.2 / rc), p.b * (-x.2 / rc) + p.c * (x.1 / rc))

/-- subprog_binary_diagnostics.cpp:48-82 `diagnostic_fields`.  The solver data are those made from the configuration; the code makes the trees of
coordinates, radii and unit vectors one by one, here a block of velocities and positions is treated at once. -/
noncomputable def diagnosticFields (m : SolverData) (s : Solution) : Outcome DiagnosticFields :=
  (fullTwoBodyState s.orbit s.time).bind fun b =>
  (recoverPrimitive m.conserveLinear m s).bind fun p0 =>
  (p0.pair m.centers).bind fun pc =>
  (Tree.mapM (fun P => evaluate (P.map Tri.a)) p0).bind fun sigma =>
  (Tree.mapM (fun q : Arr 2 Tri × Arr 2 (ℝ × ℝ) => (binaryOpO polarVelocity q.1 q.2).bind fun V => evaluate (V.map Prod.fst)) pc).bind fun vr =>
  (Tree.mapM (fun q : Arr 2 Tri × Arr 2 (ℝ × ℝ) => (binaryOpO polarVelocity q.1 q.2).bind fun V => evaluate (V.map Prod.snd)) pc).map fun vp =>
  ⟨s.time, m.vertices, sigma, vr, vp, position b.body1, position b.body2⟩

end Verif.Binary
