import Verif.Model.NdArray
import Mathlib.Algebra.Field.Defs

/-!
# Axis operators (`core_ndarray_ops.hpp`)

Each operator takes the array last, as in `array | op(args)`.
-/

namespace Verif.Nd
open Verif

variable {R : Nat} {α K : Type}

/-- `core_ndarray_ops.hpp:73-85` `select_first`. Indexing the start and final index with an axis that is not
below the rank is undefined. -/
def selectFirst (n a : Nat) (A : Arr R α) : Outcome (Arr R α) :=
  if h : a < R then
    select { makeAccessPattern A.shape with final := Function.update A.shape ⟨a, h⟩ (w (0 + n)) } A
  else .ub

/-- `core_ndarray_ops.hpp:87-99` `select_final`. -/
def selectFinal (n a : Nat) (A : Arr R α) : Outcome (Arr R α) :=
  if h : a < R then
    select { makeAccessPattern A.shape with
      start := Function.update (fun _ => 0) ⟨a, h⟩ (wsub (A.shape ⟨a, h⟩) n) } A
  else .ub

/-- `core_ndarray_ops.hpp:111-114` `drop_first_on_axis`. -/
def dropFirst (a : Nat) (A : Arr R α) : Outcome (Arr R α) := selectAxis a 1 0 1 true A

/-- `core_ndarray_ops.hpp:116-119` `drop_final_on_axis`. -/
def dropFinal (a : Nat) (A : Arr R α) : Outcome (Arr R α) := selectAxis a 0 1 1 true A

/-- `core_ndarray_ops.hpp:121-129` `midpoint_on_axis`; `half` is the factor `0.5`. -/
def midpoint [Add K] [Mul K] (half : K) (a : Nat) (A : Arr R K) : Outcome (Arr R K) :=
  (selectAxis a 0 1 1 true A).bind fun L =>
  (selectAxis a 1 0 1 true A).bind fun U =>
  (binaryOp (· + ·) L U).map fun S => S.map (· * half)

/-- `core_ndarray_ops.hpp:131-139` `difference_on_axis`. -/
def difference [Sub K] (a : Nat) (A : Arr R K) : Outcome (Arr R K) :=
  (selectAxis a 1 0 1 true A).bind fun U =>
  (selectAxis a 0 1 1 true A).bind fun L =>
  binaryOp (· - ·) U L

/-- `core_ndarray_ops.hpp:141-149` `zip_adjacent2_on_axis`. -/
def zipAdjacent2 (a : Nat) (A : Arr R α) : Outcome (Arr R (α × α)) :=
  (selectAxis a 0 1 1 true A).bind fun L =>
  (selectAxis a 1 0 1 true A).bind fun U =>
  binaryOp Prod.mk L U

/-- `core_ndarray_ops.hpp:151-160` `zip_adjacent3_on_axis`. The zip of three arrays is the zip of the first
with the zip of the others. -/
def zipAdjacent3 (a : Nat) (A : Arr R α) : Outcome (Arr R (α × α × α)) :=
  (selectAxis a 0 2 1 true A).bind fun L =>
  (selectAxis a 1 1 1 true A).bind fun M =>
  (selectAxis a 2 0 1 true A).bind fun U =>
  (binaryOp Prod.mk M U).bind fun MU =>
  binaryOp Prod.mk L MU

/-- `core_ndarray_ops.hpp:162-170` `extend_periodic_on_axis`. -/
def extendPeriodic (a g : Nat) (A : Arr R α) : Outcome (Arr R α) :=
  (selectFirst g a A).bind fun xl =>
  (selectFinal g a A).bind fun xr =>
  (concat a A xr).bind fun y =>
  concat a xl y

/-- `core_ndarray_ops.hpp:172-180` `extend_zero_gradient`. -/
def extendZeroGradient (a : Nat) (A : Arr R α) : Outcome (Arr R α) :=
  (selectFirst 1 a A).bind fun xl =>
  (selectFinal 1 a A).bind fun xr =>
  (concat a A xl).bind fun y =>
  concat a xr y

/-- `core_ndarray_ops.hpp:182-190` `extend_zeros`. -/
def extendZeros [Zero K] [Mul K] (a : Nat) (A : Arr R K) : Outcome (Arr R K) :=
  (selectFirst 1 a A).bind fun xl =>
  (selectFinal 1 a A).bind fun xr =>
  (concat a A (xl.map (· * 0))).bind fun y =>
  concat a (xr.map (· * 0)) y

/-- `core_ndarray.hpp:2544-2551` `linspace`, in any arithmetic. The divisor `count - 1` is a `size_t`; for
`count = 1` the code divides zero by zero and gets a NaN, the model has zero for the quotient. -/
def linspace [Add K] [Sub K] [Mul K] [Div K] [NatCast K] (x0 x1 : K) (count : Nat) : Arr 1 K :=
  ⟨fun _ => count, fun i => .ok (x0 + (x1 - x0) * (i 0 : K) / (wsub count 1 : K))⟩

end Verif.Nd
