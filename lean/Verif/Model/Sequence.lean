import Verif.Model.Outcome

/-!
# Fixed-length sequences (`core_sequence.hpp`)

`mara::arithmetic_sequence_t<ValueType, Rank>` (lines 92-477); the element type is arbitrary.
-/

namespace Verif.Seq
open Verif

/-- `core_sequence.hpp:476`: `ValueType __data[Rank]`. -/
abbrev Seq (n : Nat) (α : Type u) := Fin n → α

variable {n m : Nat} {α β γ : Type}

/-- `core_sequence.hpp:64-72` `iota`. -/
def iota (n : Nat) : Seq n Nat := fun i => i

/-- `core_sequence.hpp:109` `at`. -/
def at? (x : Seq n α) (k : Nat) : Outcome α :=
  if h : k < n then .ok (x ⟨k, h⟩) else .throws .outOfRange

/-- `core_sequence.hpp:108` unchecked `operator[]`. -/
def index (x : Seq n α) (k : Nat) : Outcome α :=
  if h : k < n then .ok (x ⟨k, h⟩) else .ub

/-- `core_sequence.hpp:129-135` `set`. -/
def set (x : Seq n α) (k : Nat) (v : α) : Seq n α := fun i => if k = i then v else x i

/-- `core_sequence.hpp:152-158` `update`. -/
def update (x : Seq n α) (k : Nat) (f : α → α) : Seq n α := fun i => if k = i then f (x i) else x i

/-- `core_sequence.hpp:178-181, 431-434` `map`. -/
def map (f : α → β) (x : Seq n α) : Seq n β := fun i => f (x i)

/-- `core_sequence.hpp:202-205` `apply_to`. -/
def applyTo (f : Seq n (α → β)) (x : Seq n α) : Seq n β := fun i => f i (x i)

/-- `core_sequence.hpp:437-446, 453-464`: an operator between a sequence and a scalar. -/
def binaryScalar (f : α → β → γ) (x : Seq n α) (b : β) : Seq n γ := fun i => f (x i) b

/-- `core_sequence.hpp:437-446, 453-464`: an operator between two sequences. -/
def binaryOp (f : α → β → γ) (x : Seq n α) (y : Seq n β) : Seq n γ := fun i => f (x i) (y i)

/-- `core_sequence.hpp:216-224` `sum`: `result = ValueType{}; for i: result = result + x[i]`. -/
def sum [Zero α] [Add α] (x : Seq n α) : α := Fin.foldl n (fun r i => r + x i) 0

/-- `core_sequence.hpp:235-241` `all`: a loop with early return. -/
def all (x : Seq n Bool) : Bool := (List.ofFn x).all id

/-- `core_sequence.hpp:252-258` `any`. -/
def any (x : Seq n Bool) : Bool := (List.ofFn x).any id

/-- `std::min`. -/
def stdMin [LT α] [DecidableRel (α := α) (· < ·)] (a b : α) : α := if b < a then b else a
/-- `std::max`. -/
def stdMax [LT α] [DecidableRel (α := α) (· < ·)] (a b : α) : α := if a < b then b else a

/-- `core_sequence.hpp:268-276` `min`. -/
def min [LT α] [DecidableRel (α := α) (· < ·)] (x : Seq (n + 1) α) : α :=
  Fin.foldl n (fun r i => stdMin r (x i.succ)) (x 0)

/-- `core_sequence.hpp:286-294` `max`. -/
def max [LT α] [DecidableRel (α := α) (· < ·)] (x : Seq (n + 1) α) : α :=
  Fin.foldl n (fun r i => stdMax r (x i.succ)) (x 0)

/-- `core_sequence.hpp:304-307` `reverse`. -/
def reverse (x : Seq n α) : Seq n α := fun i => x ⟨n - i - 1, by omega⟩

/-- `core_sequence.hpp:320-327` `transpose`. -/
def transpose (x : Seq n (Seq m α)) : Seq m (Seq n α) := fun j i => x i j

/-- `core_sequence.hpp:337` `head`. -/
def head (x : Seq (n + 1) α) : α := x 0

/-- `core_sequence.hpp:338` `last`. -/
def last (x : Seq (n + 1) α) : α := x (Fin.last n)

/-- `core_sequence.hpp:349` `init`. -/
def init (x : Seq (n + 1) α) : Seq n α := fun i => x i.castSucc

/-- `core_sequence.hpp:350` `tail`. -/
def tail (x : Seq (n + 1) α) : Seq n α := fun i => x i.succ

/-- `core_sequence.hpp:365-372` `concat`. -/
def concat (x : Seq n α) (y : Seq m α) : Seq (n + m) α :=
  fun k => if h : k < n then x ⟨k, h⟩ else y ⟨k - n, by omega⟩

/-- `core_sequence.hpp:384` `append`. -/
def append (x : Seq n α) (v : α) : Seq (n + 1) α := concat x (fun _ : Fin 1 => v)

/-- `core_sequence.hpp:396` `prepend`. -/
def prepend (x : Seq n α) (v : α) : Seq (1 + n) α := concat (fun _ : Fin 1 => v) x

end Verif.Seq
