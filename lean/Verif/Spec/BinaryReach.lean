import Verif.Spec.BinaryMesh

/-!
# Specification vocabulary for the resolution of the binary program
-/

namespace Verif.Binary

/-- The distance from a body, softened. -/
noncomputable def reach (eps : ℝ) (B : TwoBody.PointMass) (p : ℝ × ℝ) : ℝ := Real.sqrt ((p.1 - B.x) ^ 2 + (p.2 - B.y) ^ 2 + eps ^ 2)

end Verif.Binary
