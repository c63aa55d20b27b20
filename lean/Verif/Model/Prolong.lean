import Verif.Model.NdOps
import Mathlib.Algebra.Module.Defs

/-!
# Prolongation and restriction of blocks (`mesh_prolong_restrict.hpp`)

Values are elements of a vector space `K` over a field `k`, so that they may be numbers or tuples of numbers.
Operators for the ranks one, two and three that differ only in the number of axes
are one definition for all ranks.
-/

namespace Verif.Nd
open Verif

variable {R : Nat} {α K : Type}

/-- Applies an operator on the axes `0, ..., n - 1` in turn. -/
def forAxes (op : Nat → Arr R α → Outcome (Arr R α)) : Nat → Arr R α → Outcome (Arr R α)
  | 0, A => .ok A
  | n + 1, A => (forAxes op n A).bind (op n)

/-- `mesh_prolong_restrict.hpp:116-122` `restrict_verts`. -/
def restrictVerts (a : Nat) (A : Arr R α) : Outcome (Arr R α) := selectAxis a 0 0 2 true A

/-- `mesh_prolong_restrict.hpp:134-142` `restrict_extrinsic`. -/
def restrictExtrinsic [Add K] (a : Nat) (A : Arr R K) : Outcome (Arr R K) :=
  (selectAxis a 0 1 2 true A).bind fun h0 =>
  (selectAxis a 1 0 2 true A).bind fun h1 =>
  binaryOp (· + ·) h0 h1

/-- `mesh_prolong_restrict.hpp:124-132` `restrict_cells`.  The function `half` is the product with `0.5`, in whatever arithmetic. -/
def restrictCellsBy [Add K] (half : K → K) (a : Nat) (A : Arr R K) : Outcome (Arr R K) :=
  (restrictExtrinsic a A).map fun S => S.map half

/-- The same for elements of a vector space. -/
def restrictCells (k : Type) [Field k] [AddCommGroup K] [Module k K] (a : Nat) (A : Arr R K) : Outcome (Arr R K) :=
  restrictCellsBy ((2 : k)⁻¹ • ·) a A

/-- `mesh_prolong_restrict.hpp:148-159` `prolong_verts`, with `prolong_shape_verts` (75-79),
`coarsen_index_lower` (89-94) and `coarsen_index_upper` (97-102). An axis that is not below the rank is
undefined behaviour. The function `mid` is `(l + u) * 0.5`, in whatever arithmetic. -/
def prolongVertsBy (mid : K → K → K) (a : Nat) (A : Arr R K) : Outcome (Arr R K) :=
  if h : a < R then
    .ok ⟨Function.update A.shape ⟨a, h⟩ (wsub (w (A.shape ⟨a, h⟩ * 2)) 1), fun i =>
      (A.get (Function.update i ⟨a, h⟩ (i ⟨a, h⟩ / 2))).bind fun l =>
      (A.get (Function.update i ⟨a, h⟩ (i ⟨a, h⟩ / 2 + if i ⟨a, h⟩ % 2 = 0 then 0 else 1))).bind fun u =>
      .ok (mid l u)⟩
  else .ub

/-- The same for elements of a vector space. -/
def prolongVerts (k : Type) [Field k] [AddCommGroup K] [Module k K] (a : Nat) (A : Arr R K) : Outcome (Arr R K) :=
  prolongVertsBy (fun l u => (2 : k)⁻¹ • (l + u)) a A

/-- `mesh_prolong_restrict.hpp:161-196` `prolong_cells`, with `prolong_shape_cells` (82-86) and
`coarsen_index_cells` (105-110). -/
def prolongCells (a : Nat) (A : Arr R α) : Outcome (Arr R α) :=
  if h : a < R then
    .ok ⟨Function.update A.shape ⟨a, h⟩ (w (A.shape ⟨a, h⟩ * 2)), fun i =>
      (boundsCheck A).get (Function.update i ⟨a, h⟩ (i ⟨a, h⟩ / 2))⟩
  else .ub

/-- `mesh_prolong_restrict.hpp:202-214` `bisect_verts`. -/
def bisectVerts (a : Nat) (A : Arr R α) : Outcome (Arr R α × Arr R α) :=
  if h : a < R then
    if A.shape ⟨a, h⟩ % 2 = 0 then .throws .invalidArgument
    else
      (selectAxis a 0 (A.shape ⟨a, h⟩ / 2 + 1) 1 false A).bind fun h0 =>
      (selectAxis a (A.shape ⟨a, h⟩ / 2) 0 1 true A).bind fun h1 => .ok (h0, h1)
  else .ub

/-- `mesh_prolong_restrict.hpp:216-228` `bisect_cells`. -/
def bisectCells (a : Nat) (A : Arr R α) : Outcome (Arr R α × Arr R α) :=
  if h : a < R then
    if A.shape ⟨a, h⟩ % 2 ≠ 0 then .throws .invalidArgument
    else
      (selectAxis a 0 (A.shape ⟨a, h⟩ / 2) 1 false A).bind fun h0 =>
      (selectAxis a (A.shape ⟨a, h⟩ / 2) 0 1 true A).bind fun h1 => .ok (h0, h1)
  else .ub

/-- `mesh_prolong_restrict.hpp:230-233`: the lower or upper part of a bisection. -/
def bisectHalf (bisect : Nat → Arr R α → Outcome (Arr R α × Arr R α)) (upper : Bool) (a : Nat) (A : Arr R α) :
    Outcome (Arr R α) :=
  (bisect a A).map fun h => if upper then h.2 else h.1

/-- `mesh_prolong_restrict.hpp:301-309, 325-335, 355-369` `refine_cells`: the child block number `k`. The bit
`a` of the number is set for the upper half on axis `a`. -/
def refineCells (k : Nat) (A : Arr R α) : Outcome (Arr R α) :=
  (forAxes prolongCells R A).bind (forAxes (fun a => bisectHalf bisectCells (k.testBit a) a) R)

/-- `mesh_prolong_restrict.hpp:290-298, 312-322, 338-352` `refine_verts`: the child block number `n`. -/
def refineVertsBy (mid : K → K → K) (n : Nat) (A : Arr R K) : Outcome (Arr R K) :=
  (forAxes (prolongVertsBy mid) R A).bind (forAxes (fun a => bisectHalf bisectVerts (n.testBit a) a) R)

/-- The same for elements of a vector space. -/
def refineVerts (k : Type) [Field k] [AddCommGroup K] [Module k K] (n : Nat) (A : Arr R K) : Outcome (Arr R K) :=
  refineVertsBy (fun l u => (2 : k)⁻¹ • (l + u)) n A

/-- `mesh_prolong_restrict.hpp:375-377` `coarsen_verts`. -/
def coarsenVerts (A : Arr R α) : Outcome (Arr R α) := forAxes restrictVerts R A

/-- `mesh_prolong_restrict.hpp:379-381` `coarsen_cells`, in whatever arithmetic. -/
def coarsenCellsBy [Add K] (half : K → K) (A : Arr R K) : Outcome (Arr R K) := forAxes (restrictCellsBy half) R A

/-- `mesh_prolong_restrict.hpp:379-381` `coarsen_cells`, for elements of a vector space. -/
def coarsenCells (k : Type) [Field k] [AddCommGroup K] [Module k K] (A : Arr R K) : Outcome (Arr R K) :=
  forAxes (restrictCells k) R A

/-- Combining blocks pairwise on the axes below `n`: the block number `k` that results. -/
def combineAxes (join : Nat → Arr R α → Arr R α → Outcome (Arr R α)) (c : Nat → Arr R α) :
    Nat → Nat → Outcome (Arr R α)
  | 0, k => .ok (c k)
  | n + 1, k =>
    (combineAxes join c n (2 * k)).bind fun A =>
    (combineAxes join c n (2 * k + 1)).bind fun B => join n A B

/-- `mesh_prolong_restrict.hpp:262-283` `combine_cells`. -/
def combineCells (c : Nat → Arr R α) : Outcome (Arr R α) := combineAxes (fun a A B => concat a B A) c R 0

/-- `mesh_prolong_restrict.hpp:239-256` `combine_verts`; in three dimensions it throws. -/
def combineVerts (c : Nat → Arr R α) : Outcome (Arr R α) :=
  if R < 3 then combineAxes (fun a A B => (dropFinal a A).bind fun A => concat a B A) c R 0
  else .throws .logicError

end Verif.Nd
