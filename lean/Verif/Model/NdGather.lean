import Verif.Model.NdArray

/-!
# Lists of indexes, tuples, and regions given step by step (`core_ndarray.hpp`)
-/

namespace Verif.Nd
open Verif

variable {R S : Nat} {α β γ : Type}

/-- core_ndarray.hpp:1882-1898 `sum` of an array of `bool`: the result is an `unsigned long`. -/
def countTrue (A : Arr (R + 1) Bool) : Outcome Nat := (elements A).map fun l => l.foldl (fun acc b => w (acc + b.toNat)) 0

/-- core_ndarray.hpp:2043-2049: the loop of `where`; `n` is the number of indexes written to the buffer so far. -/
def whereLoop (A : Arr R Bool) : List (Ix R) → Nat → List (Ix R) → Outcome (List (Ix R))
  | [], _, buf => .ok buf
  | i :: l, n, buf => (A.get i).bind fun b =>
    if b then (if n < buf.length then whereLoop A l (n + 1) (buf.set n i) else .ub) else whereLoop A l n buf

/-- core_ndarray.hpp:2035-2052 `where`; memory is allocated as in `evaluate`. -/
def whereIndexes (A : Arr (R + 1) Bool) : Outcome (Arr 1 (Ix (R + 1))) :=
  (countTrue A).bind fun c =>
  if volume (fun _ : Fin 1 => c) ≥ 2 ^ 63 then .throws .badAlloc
  else
    (makeAccessPattern A.shape).indexes.bind fun l =>
    (whereLoop A l 0 (List.replicate (volume fun _ : Fin 1 => c) fun _ => 0)).bind fun buf =>
    ofBuffer (fun _ => c) buf

/-- core_ndarray.hpp:2168-2179 `read_indexes`. -/
def readIndexes (I : Arr S (Ix R)) (A : Arr R α) : Arr S α := ⟨I.shape, fun i => (I.get i).bind A.get⟩

/-- core_ndarray.hpp:1628-1642 `zip` of two arrays. -/
def zip (A : Arr R α) (B : Arr R β) : Outcome (Arr R (α × β)) := binaryOp Prod.mk A B

/-- core_ndarray.hpp:1656-1661, 2669-2673 `unzip` of an array of pairs. -/
def unzip (A : Arr R (α × β)) : Arr R α × Arr R β := (A.map Prod.fst, A.map Prod.snd)

/-- core_ndarray.hpp:2314-2321 `apply` to an array of pairs. -/
def apply (f : α → β → γ) (A : Arr R (α × β)) : Arr R γ := A.map fun x => f x.1 x.2

/-- core_ndarray.hpp:725-728: the region by default. -/
def AccessPattern.default : AccessPattern R := ⟨fun _ => 0, fun _ => 0, fun _ => 1⟩

/-- core_ndarray.hpp:1128-1133, 1168-1173: what can be said of a region of `select` or `replace`, one after the other. -/
inductive Word (R : Nat)
  | from (i : Ix R)
  | to (i : Ix R)
  | jumping (j : Ix R)

/-- core_ndarray.hpp:1131-1133, 1171-1173. -/
def AccessPattern.say (p : AccessPattern R) : Word R → AccessPattern R
  | .from i => { p with start := i }
  | .to i => { p with final := i }
  | .jumping j => { p with jumps := j }

/-- core_ndarray.hpp:2238-2248 `select_from(i)`, followed by words. -/
def selectFrom (i : Ix R) (l : List (Word R)) (A : Arr R α) : Outcome (Arr R α) := select (l.foldl .say (AccessPattern.default.say (.from i))) A

/-- core_ndarray.hpp:2262-2273 `replace_from(i)`, followed by words and `with(B)`. -/
def replaceFrom (i : Ix R) (l : List (Word R)) (B A : Arr R α) : Outcome (Arr R α) := replace (l.foldl .say (AccessPattern.default.say (.from i))) B A

end Verif.Nd
