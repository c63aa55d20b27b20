import Verif.Spec.Lines
import Verif.Model.SedovDouble
import Mathlib.Algebra.BigOperators.Group.Finset.Basic

/-!
# What flows through the ends of the Sedov program, and totals, in double precision
-/

namespace Verif.Sedov

open Verif.Nd Verif.Double

variable {R : Rounding} {m : Nat} {P : Type}

/-- `f0` and `fn` are the fluxes through the inner and the outer end, for zones with the contents `u` and radii `r`: those of the gas of the
first zone against its mirror image, and of the gas of the last zone against itself. -/
def EndFluxes (cube : Dbl R → Dbl R) (H : Hydro m (Dbl R) P) (n : Nat) (r : Nat → Dbl R) (u : Nat → Vec m (Dbl R)) (f0 fn : Vec m (Dbl R)) : Prop :=
  let density := fun k => fun a => u k a / ((cube (r (k + 1)) - cube (r k)) / Dbl.three)
  ∃ p q, H.recover (density 0) = .ok p ∧ H.recover (density (n - 1)) = .ok q ∧ H.riemann (H.mirror p) p = .ok f0 ∧ H.riemann q q = .ok fn

/-- What these fluxes of the quantity `a` bring in during the time `dt`. The products of the fluxes with the negative areas of the ends are rounded, as are
these areas; their difference and its product with `dt` are exact. -/
noncomputable def inflow (a : Fin m) (n : Nat) (r : Nat → Dbl R) (dt : Dbl R) (f0 fn : Vec m (Dbl R)) : ℝ :=
  dt.val * (R.rnd ((fn a).val * -(r n * r n).val) - R.rnd ((f0 a).val * -(r 0 * r 0).val))

/-- The exact sum of a quantity over the zones. -/
noncomputable def total (n : Nat) (a : Fin m) (u : Nat → Vec m (Dbl R)) : ℝ := ∑ k ∈ Finset.range n, (u k a).val

/-- The exact sum of its magnitudes. -/
noncomputable def size (n : Nat) (a : Fin m) (u : Nat → Vec m (Dbl R)) : ℝ := ∑ k ∈ Finset.range n, |(u k a).val|

end Verif.Sedov
