import Verif.Model.Sedov
import Verif.Model.QuadtreeDouble

/-!
# The Sedov program in double precision

The step of `Model/Sedov.lean`, that works in any arithmetic, with the numbers of `Model/Double.lean`.  The gas (`recover_primitive`, `riemann_hlle`,
`spherical_geometry_source_terms_radial`) may be any functions of doubles.
-/

namespace Verif.Sedov

open Verif.Nd Verif.Double Verif.Tree

variable {R : Rounding} {m : Nat} {P : Type}

theorem isDouble_neg {x : ℝ} : IsDouble x → IsDouble (-x)
  | ⟨a, e, h1, h2, h3⟩ => ⟨-a, e, by rwa [abs_neg], h2, by rw [h3]; push_cast; ring⟩

/-- Changing the sign, which is exact. -/
instance : Neg (Dbl R) := ⟨fun a => ⟨-a.val, isDouble_neg a.isDouble⟩⟩

/-- The literal `3`. -/
def Dbl.three : Dbl R := ⟨3, 3, 0, by norm_num, by norm_num, by norm_num⟩

/-- subprog_sedov.cpp:173-181 `cell_volumes`. Any function may be taken for `std::pow(_, 3)`. -/
noncomputable def cellVolumesDouble (cube : Dbl R → Dbl R) (vertices : Arr 1 (Dbl R)) : Outcome (Arr 1 (Dbl R)) :=
  (zipAdjacent2 0 vertices).map fun Z => Z.map fun x => (cube x.2 - cube x.1) / Dbl.three

/-- Division of a sequence by a number (core_sequence.hpp:181); a division by zero, which gives infinities or NaN, is undefined behaviour. -/
noncomputable def divideVecDouble (x : Vec m (Dbl R)) (y : Dbl R) : Outcome (Vec m (Dbl R)) := if y = 0 then .ub else .ok fun a => x a / y

/-- subprog_sedov.cpp:394-421 `next_solution`. -/
noncomputable def nextSolutionDouble [Inhabited P] (cube : Dbl R → Dbl R) (H : Hydro m (Dbl R) P) (cfl : Dbl R) (st : State m (Dbl R)) :
    Outcome (State m (Dbl R)) :=
  nextSolutionBy (cellVolumesDouble cube) Dbl.half divideVecDouble H cfl st

end Verif.Sedov
