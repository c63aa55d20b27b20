import Verif.Model.Quadtree
import Verif.Model.Double
import Mathlib.Tactic.NormNum

/-!
# The mesh in double precision

The functions of `Model/Quadtree.lean`, that work in any arithmetic, with the numbers of `Model/Double.lean`.
-/

namespace Verif.Tree
open Verif Verif.Seq Verif.Nd Verif.Double

variable {R : Rounding}

noncomputable instance : Inhabited (Dbl R) := ⟨0⟩

/-- The conversion of an integer to `double`. -/
noncomputable instance : NatCast (Dbl R) := ⟨fun n => Dbl.near R n⟩

/-- The literal `-1`. -/
def Dbl.minusOne : Dbl R := ⟨-1, -1, 0, by norm_num, by norm_num, by norm_num⟩

/-- The literal `1`. -/
def Dbl.one : Dbl R := ⟨1, 1, 0, by norm_num, by norm_num, by norm_num⟩

/-- The literal `0.5`. -/
noncomputable def Dbl.half : Dbl R := ⟨1 / 2, 1, -1, by norm_num, by norm_num, by norm_num⟩

/-- `mesh_prolong_restrict.hpp:154-156`: `(l + u) * 0.5`, for the two components of a vertex (`core_sequence.hpp:178, 180`). -/
noncomputable def midDouble (l u : Dbl R × Dbl R) : Dbl R × Dbl R := ((l.1 + u.1) * Dbl.half, (l.2 + u.2) * Dbl.half)

/-- `mesh_tree_operators.hpp:164-168`: the distance of the centroid of a block from the origin, with `sum`
(`core_sequence.hpp:216-224`). Any function may be taken for `std::sqrt`. -/
noncomputable def centroidRadiusDouble (sqrt : Dbl R → Dbl R) (nx ny : Nat) (b : Arr 2 (Dbl R × Dbl R)) : Outcome (Dbl R) :=
  (b.get ![0, 0]).bind fun p =>
  (b.get ![nx, ny]).bind fun q =>
  .ok (sqrt (0 + (midDouble p q).1 * (midDouble p q).1 + (midDouble p q).2 * (midDouble p q).2))

/-- `mesh_tree_operators.hpp:170-175`: the block of the root. -/
noncomputable def rootBlockDouble (R : Rounding) (nx ny : Nat) : Outcome (Arr 2 (Dbl R × Dbl R)) :=
  evaluate (cartesianProduct (linspace Dbl.minusOne Dbl.one (w (nx + 1))) (linspace Dbl.minusOne Dbl.one (w (ny + 1))))

/-- `mesh_tree_operators.hpp:158-190` `create_vertex_quadtree`. -/
noncomputable def createVertexQuadtreeDouble (sh : Nat → Outcome Nat) (sqrt : Dbl R → Dbl R) (predicate : Nat → Dbl R → Bool)
    (nx ny depth fuel : Nat) : Outcome (Tree 2 (Arr 2 (Dbl R × Dbl R))) :=
  createVertexQuadtreeBy sh midDouble (centroidRadiusDouble sqrt nx ny) predicate (rootBlockDouble R nx ny) depth fuel

end Verif.Tree
