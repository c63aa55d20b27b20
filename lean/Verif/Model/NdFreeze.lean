import Verif.Model.NdArray

/-!
# Freezing and reducing axes (`core_ndarray.hpp`)

Sequences of `size_t` are read and written out of bounds if the axes are not distinct; this is the outcome `ub`.
-/

namespace Verif.Nd
open Verif

variable {α β : Type}

/-- core_ndarray.hpp:2684-2694: the loop of `insert_elements` at the positions that remain, with the values that have not been used. -/
def insertLoop (indexes : List Nat) : List Nat → List Nat → List Nat → Outcome (List Nat)
  | [], _, _ => .ok []
  | n :: l, source, values =>
    if n ∈ indexes then
      match values with
      | [] => .ub
      | v :: values => (insertLoop indexes l source values).map (v :: ·)
    else
      match source with
      | [] => .ub
      | v :: source => (insertLoop indexes l source values).map (v :: ·)

/-- core_ndarray.hpp:2675-2696 `insert_elements`.  The number of elements of the result is a template argument; in the code `T = S + k`. -/
def insertElements {S k : Nat} (T : Nat) (source : Ix S) (indexes values : Ix k) : Outcome (Ix T) :=
  (insertLoop (List.ofFn indexes) (List.range T) (List.ofFn source) (List.ofFn values)).map fun l n => l.getD n 0

/-- core_ndarray.hpp:2704-2709: the elements that are kept by `remove_elements`, from position `n` on. -/
def keepFrom (indexes : List Nat) : Nat → List Nat → List Nat
  | _, [] => []
  | n, x :: l => if n ∈ indexes then keepFrom indexes (n + 1) l else x :: keepFrom indexes (n + 1) l

/-- core_ndarray.hpp:2698-2712 `remove_elements`.  In the code `S = T - k`; elements that are not written stay zero. -/
def removeElements {T k : Nat} (S : Nat) (source : Ix T) (indexes : Ix k) : Outcome (Ix S) :=
  if (keepFrom (List.ofFn indexes) 0 (List.ofFn source)).length > S then .ub
  else .ok fun n => (keepFrom (List.ofFn indexes) 0 (List.ofFn source)).getD n 0

/-- core_ndarray.hpp:957-972 `axis_freezer_t::operator()`. In the code `S = T - k`. -/
def freezeAxes {T k : Nat} (S : Nat) (axes at' : Ix k) (A : Arr T α) : Outcome (Arr S α) :=
  if (List.ofFn axes).any fun a => decide (a ≥ T) then .throws .logicError
  else (removeElements S A.shape axes).bind fun s => .ok ⟨s, fun i => (insertElements T i axes at').bind A.get⟩

/-- core_ndarray.hpp:2081-2084 `freeze_axis(axis).at_index(v)`. -/
def freezeAxis {S : Nat} (a v : Nat) (A : Arr (S + 1) α) : Outcome (Arr S α) := freezeAxes S (fun _ : Fin 1 => a) (fun _ => v) A

/-- core_ndarray.hpp:1006-1024 `axis_reducer_t::operator()`, of `collect(op).along_axis(a)`. The range of axes without the one to be reduced does not
depend on the index, and is computed first. -/
def reduceAxis {S : Nat} (op : Arr 1 α → Outcome β) (a : Nat) (A : Arr (S + 1) α) : Outcome (Arr S β) :=
  if a ≥ S + 1 then .throws .logicError
  else
    (removeElements S (fun n : Fin (S + 1) => (n : Nat)) (fun _ : Fin 1 => a)).bind fun axes =>
    (removeElements S A.shape (fun _ : Fin 1 => a)).bind fun s =>
    .ok ⟨s, fun i => (freezeAxes 1 axes i A).bind op⟩

end Verif.Nd
