import Verif.Model.Sequence

/-!
# Types derived from sequences (`core_sequence.hpp`)

`mara::derivable_sequence_t` (lines 500-531), whose values are given by their sequence `__impl`, and `lift`.
-/

namespace Verif.Seq

variable {n : Nat} {α : Type}

/-- `core_sequence.hpp:520` `operator==`; `eq` is `std::equal_to` of the elements (408, 421). -/
def derivedEq (eq : α → α → Bool) (x y : Seq n α) : Bool := all (binaryOp eq x y)

/-- `core_sequence.hpp:521` `operator!=`; `ne` is `std::not_equal_to` of the elements (409, 422). -/
def derivedNe (ne : α → α → Bool) (x y : Seq n α) : Bool := any (binaryOp ne x y)

/-- `core_sequence.hpp:522` `operator*`. -/
def derivedMul [Mul α] (x : Seq n α) (a : α) : Seq n α := binaryScalar (· * ·) x a

/-- `core_sequence.hpp:523` `operator/`. -/
def derivedDiv [Div α] (x : Seq n α) (a : α) : Seq n α := binaryScalar (· / ·) x a

/-- `core_sequence.hpp:524` `operator+`. -/
def derivedAdd [Add α] (x y : Seq n α) : Seq n α := binaryOp (· + ·) x y

/-- `core_sequence.hpp:525` `operator-`. -/
def derivedSub [Sub α] (x y : Seq n α) : Seq n α := binaryOp (· - ·) x y

/-- `core_sequence.hpp:527` `operator-` of one sequence. -/
def derivedNeg [Neg α] (x : Seq n α) : Seq n α := map (- ·) x

/-- `core_sequence.hpp:622-636` `lift` of a function of two elements: the result starts out as the default, and
is overwritten element by element. -/
def lift2 (f : α → α → α) (zero : α) (x y : Seq n α) : Seq n α :=
  Fin.foldl n (fun r i => set r i (f (x i) (y i))) (fun _ => zero)

end Verif.Seq
