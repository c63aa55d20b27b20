import Mathlib.LinearAlgebra.Matrix.Trace
import Mathlib.Data.Real.Basic

/-!
# Specification vocabulary for the binary program
-/

namespace Verif.Binary

/-- The viscous stress of a flow in the plane with viscosity `mu`, `G i j` being the derivative along axis `i` of the velocity
along axis `j`. -/
noncomputable def stress (mu : ℝ) (G : Matrix (Fin 2) (Fin 2) ℝ) : Matrix (Fin 2) (Fin 2) ℝ :=
  mu • (G + G.transpose - G.trace • (1 : Matrix (Fin 2) (Fin 2) ℝ))

end Verif.Binary
