import Verif.Model.Outcome
import Mathlib.Algebra.Field.Defs

/-!
# Unit vectors (`core_geometric.hpp`) and matrices (`core_matrix.hpp`)

Over a field in place of `double`.
-/

namespace Verif.Geometry

variable {K : Type} [Field K]

/-- core_geometric.hpp:57-122 `unit_vector_t`. -/
@[ext] structure UnitVec (K : Type) where
  n1 : K
  n2 : K
  n3 : K
deriving DecidableEq

/-- core_geometric.hpp:76, 119-121: the default constructor. -/
def UnitVec.default : UnitVec K := ⟨1, 0, 0⟩

/-- core_geometric.hpp:77-83, the constructor from components.  The members are initialised with the
parameters; the body divides the parameters, which have the same names, by the length `sqrt (…)`, so that
the members stay as they are.  What is computed and forgotten is left out. -/
def UnitVec.make (n1 n2 n3 : K) : UnitVec K := ⟨n1, n2, n3⟩

/-- core_geometric.hpp:62-74 `on_axis`. -/
def UnitVec.onAxis (axis : Nat) : Outcome (UnitVec K) :=
  match axis with
  | 0 => .ok (UnitVec.make 1 0 0)
  | 1 => .ok (UnitVec.make 0 1 0)
  | 2 => .ok (UnitVec.make 0 0 1)
  | _ => .throws .invalidArgument

/-- core_geometric.hpp:85-89 `project`. -/
def UnitVec.project (n : UnitVec K) (v1 v2 v3 : K) : K := v1 * n.n1 + v2 * n.n2 + v3 * n.n3

/-- core_geometric.hpp:91-100 `operator*`. -/
def UnitVec.scale (n : UnitVec K) (s : K) : K × K × K := (n.n1 * s, n.n2 * s, n.n3 * s)

/-- core_geometric.hpp:106-115 `operator[]`. -/
def UnitVec.get (n : UnitVec K) (i : Nat) : Outcome K :=
  match i with
  | 0 => .ok n.n1
  | 1 => .ok n.n2
  | 2 => .ok n.n3
  | _ => .throws .invalidArgument

end Verif.Geometry

namespace Verif.Matrices

/-- core_matrix.hpp:71-172 `matrix_t`. -/
abbrev Mat (n m : Nat) (K : Type) := Fin n → Fin m → K

variable {K : Type}

/-- core_matrix.hpp:110, 125-139 `operator+`. -/
def Mat.add [Add K] (A B : Mat n m K) : Mat n m K := fun i j => A i j + B i j

/-- core_matrix.hpp:111, 125-139 `operator-`. -/
def Mat.sub [Sub K] (A B : Mat n m K) : Mat n m K := fun i j => A i j - B i j

/-- core_matrix.hpp:112, 141-155 `operator*` with a number. -/
def Mat.smul [Mul K] (A : Mat n m K) (s : K) : Mat n m K := fun i j => A i j * s

/-- core_matrix.hpp:186-196 `zero_matrix`. -/
def Mat.zeros [Zero K] (n m : Nat) : Mat n m K := fun _ _ => 0

/-- core_matrix.hpp:209-219 `identity_matrix`. -/
def Mat.identity [Zero K] [One K] (n : Nat) : Mat n n K := fun i j => if i = j then 1 else 0

/-- core_matrix.hpp:234-247 `diagonal_matrix`. -/
def Mat.diagonal [Zero K] (d : Fin n → K) : Mat n n K := fun i j => if i = j then d i else 0

/-- core_matrix.hpp:262-275 `row_vector`. -/
def Mat.row (v : Fin n → K) : Mat 1 n K := fun _ j => v j

/-- core_matrix.hpp:290-303 `column_vector`. -/
def Mat.column (v : Fin n → K) : Mat n 1 K := fun i _ => v i

/-- core_matrix.hpp:325-345 `matrix_product`: the inner loop adds up products, starting from zero. -/
def Mat.product [Add K] [Mul K] [Zero K] (A : Mat n k K) (B : Mat k m K) : Mat n m K := fun i j =>
  (List.finRange k).foldl (fun element l => element + A i l * B l j) 0

/-- core_matrix.hpp:92-99 `operator==`: the loops over the elements. -/
def Mat.equal [DecidableEq K] (A B : Mat n m K) : Bool :=
  (List.finRange n).all fun i => (List.finRange m).all fun j => A i j == B i j

/-- core_matrix.hpp:101-108 `operator!=`. -/
def Mat.notEqual [DecidableEq K] (A B : Mat n m K) : Bool :=
  (List.finRange n).any fun i => (List.finRange m).any fun j => A i j != B i j

end Verif.Matrices
