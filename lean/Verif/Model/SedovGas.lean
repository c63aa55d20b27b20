import Verif.Model.Sedov
import Verif.Model.Euler
import Verif.Model.Srhd

/-!
# The two gases of the Sedov program (`subprog_sedov.cpp`)

Fluxes are modelled for states with positive density and pressure; for others the code may take square roots of negative
numbers or divide by zero, and the outcome here is undefined behaviour.
-/

namespace Verif.Sedov

open Geometry Classical

/-- physics_euler.hpp, as used in subprog_sedov.cpp:91-94, 218-229, 400-401. -/
noncomputable def newtonian (g : ℝ) : Hydro 5 ℝ Euler.Vec where
  recover U := if U 0 = 0 then .ub else .ok (Euler.recover U g 0)
  riemann l r := if 0 < l 0 ∧ 0 < l 4 ∧ 0 < r 0 ∧ 0 < r 4 then .ok (Euler.hlle l r ⟨1, 0, 0⟩ g) else .ub
  source P r := if r = 0 then .ub else .ok (Euler.sphericalSourceRadial P r)
  mirror P := Function.update P 1 (-P 1)

/-- physics_srhd.hpp, as used in subprog_sedov.cpp:86-89, 218-229, 400-401. -/
noncomputable def relativistic (g : ℝ) : Hydro 5 ℝ Srhd.Vec where
  recover U := Srhd.recover U g 0
  riemann l r := if 0 < l 0 ∧ 0 < l 4 ∧ 0 < r 0 ∧ 0 < r 4 then .ok (Srhd.hlle l r ⟨1, 0, 0⟩ g) else .ub
  source P r := if r = 0 then .ub else .ok (Srhd.sphericalSourceRadial P r g)
  mirror P := Function.update P 1 (-P 1)

end Verif.Sedov
