import Verif.Model.NdOps
import Verif.Model.Loop
import Mathlib.Algebra.Order.Field.Basic

/-!
# Finding the shock (`post_shock_locator.hpp`)

Arrays are those of `core_ndarray.hpp`; the entropies, pressures and their logarithms are elements of an ordered field.
-/

namespace Verif.Shock

open Verif.Nd

variable {K : Type} [Field K] [LinearOrder K] [IsStrictOrderedRing K]

/-- core_ndarray.hpp:2035-2051 `where`, for an array whose elements are read without side effects: the first pass, which
counts, reads the same elements as the second. -/
def whereTrue {R : Nat} (A : Arr (R + 1) Bool) : Outcome (Arr 1 (Ix (R + 1))) :=
  (makeAccessPattern A.shape).indexes.bind fun l =>
  (readAll A l).bind fun bs =>
  ofList (((l.zip bs).filter fun x => x.2).map fun x => x.1)

/-- post_shock_locator.hpp:71-80 `find_shock_index`, from the array of specific entropies. -/
def findShockIndex (s0 : Arr 1 K) : Outcome (Ix 1) :=
  (difference 0 s0).bind fun ds =>
  (minBy (fun x y => decide (x < y)) 0 ds).bind fun m =>
  (whereTrue (ds.map fun x => decide (x = m))).bind fun W =>
  W.get fun _ => 0

/-- `catch (const std::exception&) { return 0; }`. -/
def orZero : Outcome Nat → Outcome Nat
  | .throws _ => .ok 0
  | r => r

/-- post_shock_locator.hpp:103-106: one pass of the loop, on an array read with `bounds_check`. -/
def behindStep (y : Arr 1 K) (index : Nat) : Outcome (Nat ⊕ Nat) :=
  (y.get fun _ => wsub index 1).bind fun a => (y.get fun _ => index).bind fun b =>
    if a > b then .ok (.inl (wsub index 1)) else .ok (.inr index)

/-- post_shock_locator.hpp:97-113 `find_index_of_maximum_behind`. -/
noncomputable def maximumBehind (A : Arr 1 K) (index : Nat) : Outcome Nat :=
  orZero (Loop.whileLoop (behindStep (boundsCheck A)) index)

/-- post_shock_locator.hpp:159-163: one pass of the loop, on an array read with `bounds_check`. -/
def aheadStep (dlogp : Arr 1 K) (index : Nat) : Outcome (Nat ⊕ Nat) :=
  (dlogp.get fun _ => wsub index 1).bind fun a => (dlogp.get fun _ => wsub index 2).bind fun b =>
    if a < 1 / 2 * b then .ok (.inl (w (index + 1))) else .ok (.inr index)

/-- post_shock_locator.hpp:149-170 `find_index_of_pressure_plateau_ahead`, from the array of the logarithms of the pressures. -/
noncomputable def plateauAhead (logp : Arr 1 K) (index : Nat) : Outcome Nat :=
  (difference 0 logp).bind fun D => orZero (Loop.whileLoop (aheadStep (boundsCheck D)) index)

end Verif.Shock
