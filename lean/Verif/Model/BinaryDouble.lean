import Verif.Model.QuadtreeDouble
import Verif.Model.BinarySetup
import Verif.Model.FluxCorrection

/-!
# The mesh of the binary program in double precision

The functions of `Model/BinarySetup.lean` that make the mesh, with the numbers of `Model/Double.lean`.
-/

namespace Verif.Binary
open Verif Verif.Nd Verif.Tree Verif.Double

variable (sh : Nat → Outcome Nat) {R : Rounding}

/-- subprog_binary.cpp:166-184 `create_vertices`.  `pred` is the comparison in line 176 and `rd` the option `domain_radius`. -/
noncomputable def createVerticesDouble (sqrt : Dbl R → Dbl R) (pred : Nat → Dbl R → Bool) (fuel blockSize depth : Nat) (rd : Dbl R) :
    Outcome (Quad (Dbl R × Dbl R)) :=
  (createVertexQuadtreeDouble sh sqrt pred blockSize blockSize depth fuel).bind
    (Tree.mapM fun B => evaluate (B.map fun p => (p.1 * rd, p.2 * rd)))

/-- subprog_binary_solver_data.cpp:29-34, 105: the areas of the cells of a block. -/
noncomputable def blockAreasDouble (B : Arr 2 (Dbl R × Dbl R)) : Outcome (Arr 2 (Dbl R)) :=
  (difference 0 (B.map Prod.fst)).bind fun dx =>
  (midpoint Dbl.half 1 dx).bind fun dx =>
  (difference 1 (B.map Prod.snd)).bind fun dy =>
  (midpoint Dbl.half 0 dy).bind fun dy =>
  (binaryOp (· * ·) dx dy).bind evaluate

/-- subprog_binary_solver_data.cpp:41-55: the smallest difference of the vertices of a block along an axis. -/
noncomputable def blockStepDouble (a : Fin 2) (B : Arr 2 (Dbl R × Dbl R)) : Outcome (Dbl R) :=
  (difference a (B.map fun p => if a = 0 then p.1 else p.2)).bind (minBy (fun x y => decide (x < y)) 0)

/-- subprog_binary_solver_data.cpp:41-55, 102: the time step; `v` is `max_velocity` (57-62). -/
noncomputable def recommendedStepDouble (v cfl : Dbl R) (V : Quad (Dbl R × Dbl R)) : Outcome (Dbl R) :=
  (Tree.mapM (blockStepDouble 0) V).bind fun dx =>
  (Tree.mapM (blockStepDouble 1) V).bind fun dy =>
  .ok (min dx.min dy.min / v * cfl)

/-- subprog_binary_scheme.cpp:493-494, 539-540 `xf`, `yf`: where the middles of the faces across the axis `a` are. -/
noncomputable def facePositionsDouble (a : Fin 2) (B : Arr 2 (Dbl R × Dbl R)) : Outcome (Arr 2 (Dbl R × Dbl R)) :=
  midpoint (Dbl.half, Dbl.half) (other a) B

/-- The negative of a number, which is not rounded. -/
def negDouble (d : Dbl R) : Dbl R := ⟨-d.val, by
  obtain ⟨m, e, h1, h2, h3⟩ := d.isDouble
  exact ⟨-m, e, by rwa [abs_neg], h2, by rw [h3]; push_cast; ring⟩⟩

/-- subprog_binary_scheme.cpp:199-214 `to_angmom_fluxes`. -/
noncomputable def toAngmomDouble (axis : Fin 2) (rd : Dbl R) (x : Dbl R × Dbl R) (f : Dbl R × Dbl R × Dbl R) : Dbl R × Dbl R × Dbl R :=
  let sr := x.1 * f.2.1 + x.2 * f.2.2
  let lz := x.1 * f.2.2 - x.2 * f.2.1
  let lz := if axis = 0 ∧ (x.1 = negDouble rd ∨ x.1 = rd) then 0 else lz
  let lz := if axis = 1 ∧ (x.2 = negDouble rd ∨ x.2 = rd) then 0 else lz
  (f.1, sr, lz)

/-- subprog_binary_scheme.cpp:537-557: from the fluxes of mass and linear momentum through the faces across the axis `a` of a block with the
vertices `B` to those of angular momentum, times the length of the face.  The fluxes `F` of mass and linear momentum (268-293) are given. -/
noncomputable def blockAngmomDouble (a : Fin 2) (rd : Dbl R) (B : Arr 2 (Dbl R × Dbl R)) (F : Arr 2 (Dbl R × Dbl R × Dbl R)) :
    Outcome (Arr 2 (Dbl R × Dbl R × Dbl R)) :=
  (difference (other a) (B.map fun p => if a = 0 then p.2 else p.1)).bind fun d =>
  (facePositionsDouble a B).bind fun xf =>
  (binaryOp (toAngmomDouble a rd) xf F).bind fun G =>
  (binaryOp (fun f d => (f.1 * d, f.2.1 * d, f.2.2 * d)) G d).bind evaluate

end Verif.Binary
