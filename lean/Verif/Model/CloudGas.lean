import Verif.Model.Cloud
import Verif.Model.Srhd

/-!
# The gas of the cloud program (`subprog_cloud.cpp`)
-/

namespace Verif.Cloud

open Geometry Classical

/-- physics_srhd.hpp as used in subprog_cloud.cpp:439-448, 515-523, with the adiabatic index 4/3 (subprog_cloud.cpp:52).  Fluxes are
modelled for states of positive density and pressure not negative, and distinct fastest and slowest waves; for others the code may take
the root of a negative number or divide by zero, and the outcome here is undefined behaviour. The same at a zero radius. -/
noncomputable def srhd (T : ℝ) : Gas where
  recover U := Srhd.recover U (4 / 3) T
  riemann a l r :=
    let n : UnitVec ℝ := if a = 0 then ⟨1, 0, 0⟩ else ⟨0, 1, 0⟩
    if 0 < l 0 ∧ 0 ≤ l 4 ∧ 0 < r 0 ∧ 0 ≤ r 4
        ∧ min 0 (min (Srhd.wavespeeds l n (4 / 3)).1 (Srhd.wavespeeds r n (4 / 3)).1)
          ≠ max 0 (max (Srhd.wavespeeds l n (4 / 3)).2 (Srhd.wavespeeds r n (4 / 3)).2)
    then .ok (Srhd.hlle l r n (4 / 3)) else .ub
  source P r q := if r = 0 then .ub else .ok (Srhd.sphericalSource P r (Real.tan (Real.pi / 2 - q)) (4 / 3))

end Verif.Cloud
