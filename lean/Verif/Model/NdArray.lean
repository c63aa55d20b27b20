import Verif.Model.Outcome
import Mathlib.Logic.Function.Basic
import Mathlib.Data.Fin.Tuple.Basic
import Mathlib.Data.Fintype.Basic

/-!
# N-dimensional arrays (`core_ndarray.hpp`)

Indexes, shapes and strides are sequences of `size_t`; the model has natural numbers with the
reductions modulo `2^64` written out.  An array is its shape and a partial function from indexes:
reading memory out of bounds is the outcome `ub`, a thrown exception is `throws`.
-/

namespace Verif.Nd
open Verif

/-- `size_t` arithmetic. -/
def w (n : Nat) : Nat := n % 2 ^ 64

/-- `size_t` subtraction (`b ≤ 2^64`). -/
def wsub (a b : Nat) : Nat := (a + 2 ^ 64 - b) % 2 ^ 64

/-- `core_ndarray.hpp:322-434`: `index_t`, `shape_t`, `jumps_t`, `memory_strides_t`.  A jump is a `long`
and takes part in `size_t` expressions only, so it is kept as its `size_t` image. -/
abbrev Ix (R : Nat) := Fin R → Nat

variable {R : Nat} {α β γ : Type}

/-- Conversion of a `size_t` to `int`: the residue modulo `2^32 = 4294967296` with the smallest absolute
value, negative if in doubt. -/
def toInt32 (n : Nat) : Int := Int.bmod n 4294967296

/-- Conversion of an `int` to `size_t`. -/
def ofInt (v : Int) : Nat := (v % 2 ^ 64).toNat

/-- `core_ndarray.hpp:328-331` `volume`: `std::accumulate` with the initial value `1`, an `int`: each
product is computed as `size_t` and stored as `int`. -/
def volume (s : Ix R) : Nat :=
  ofInt ((List.ofFn s).foldl (fun acc n => toInt32 (w (ofInt acc * n))) 1)

/-- `core_ndarray.hpp:333-339` `shape_t::contains`. -/
def contains (s i : Ix R) : Bool := (List.finRange R).all fun a => decide (i a < s a)

/-- `core_ndarray.hpp:777-792` `make_strides_row_major`. -/
def strides : {R : Nat} → Ix R → Ix R
  | 0, _ => Fin.elim0
  | 1, _ => fun _ => 1
  | _ + 2, s => Fin.cons (w (strides (Fin.tail s) 0 * s 1)) (strides (Fin.tail s))

/-- `core_ndarray.hpp:446-455` `compute_offset`. -/
def computeOffset (st i : Ix R) : Nat :=
  (List.finRange R).foldl (fun acc a => w (acc + w (i a * st a))) 0

/-- `core_ndarray.hpp:726-728`: an access pattern. -/
structure AccessPattern (R : Nat) where
  start : Ix R
  final : Ix R
  jumps : Ix R

namespace AccessPattern

/-- `core_ndarray.hpp:550-559` `shape`, for non-zero jumps (see `JumpsOk`). -/
def shape (p : AccessPattern R) : Ix R := fun n =>
  w (wsub (wsub (p.final n) (p.start n)) 1 / p.jumps n + 1)

/-- No jump is zero; otherwise `shape` divides by zero. -/
def JumpsOk (p : AccessPattern R) : Bool := (List.finRange R).all fun a => decide (p.jumps a ≠ 0)

/-- `core_ndarray.hpp:592-604`: the loop of `advance` at axis `n`; `none` is the return value `false`. -/
def advanceFrom (p : AccessPattern (R + 1)) : Nat → Ix (R + 1) → Option (Ix (R + 1))
  | 0, i => if i 0 ≥ p.final 0 then none else some i
  | n + 1, i =>
    if i (Fin.ofNat (R + 1) (n + 1)) ≥ p.final (Fin.ofNat (R + 1) (n + 1)) then
      let i := Function.update i (Fin.ofNat (R + 1) (n + 1)) (p.start (Fin.ofNat (R + 1) (n + 1)))
      advanceFrom p n (Function.update i (Fin.ofNat (R + 1) n)
        (w (i (Fin.ofNat (R + 1) n) + p.jumps (Fin.ofNat (R + 1) n))))
    else some i

/-- `core_ndarray.hpp:586-606` `advance`; on `false` the index becomes `final`. -/
def advance (p : AccessPattern (R + 1)) (i : Ix (R + 1)) : Ix (R + 1) :=
  (p.advanceFrom R (Function.update i (Fin.last R)
    (w (i (Fin.last R) + p.jumps (Fin.last R))))).getD p.final

/-- A range-`for` loop over an access pattern (`core_ndarray.hpp:477-492, 719-720`) from the current
index on: the indexes visited. -/
def visit (p : AccessPattern (R + 1)) : Nat → Ix (R + 1) → Outcome (List (Ix (R + 1)))
  | 0, _ => .diverges
  | fuel + 1, i =>
    if i = p.final then .ok []
    else (p.visit fuel (p.advance i)).bind fun l => .ok (i :: l)

/-- The whole loop.  There are `2^(64·rank)` indexes and the next one is determined by the current
one, so a loop that is still running after that many steps never ends. -/
def indexes (p : AccessPattern (R + 1)) : Outcome (List (Ix (R + 1))) :=
  p.visit (2 ^ (64 * (R + 1)) + 1) p.start

/-- `core_ndarray.hpp:618-626` `map_index`. -/
def mapIndex (p : AccessPattern R) (i : Ix R) : Ix R := fun n => w (p.start n + w (p.jumps n * i n))

/-- `core_ndarray.hpp:638-646` `inverse_map_index`. -/
def inverseMapIndex (p : AccessPattern R) (i : Ix R) : Ix R := fun n => wsub (i n) (p.start n) / p.jumps n

/-- `core_ndarray.hpp:677-689` `generates`. -/
def generates (p : AccessPattern R) (i : Ix R) : Bool :=
  (List.finRange R).all fun n =>
    !(decide (i n < p.start n) || decide (i n ≥ p.final n) || decide (wsub (i n) (p.start n) % p.jumps n ≠ 0))

/-- `core_ndarray.hpp:705-713` `within`; the comparisons with zero of unsigned numbers are true. -/
def within (p : AccessPattern R) (s : Ix R) : Bool :=
  (List.finRange R).all fun n =>
    decide (p.mapIndex (fun _ => 0) n ≤ s n) && decide (p.mapIndex p.shape n ≤ s n)

end AccessPattern

/-- `core_ndarray.hpp:794-798` `make_access_pattern(shape)`. -/
def makeAccessPattern (s : Ix R) : AccessPattern R := ⟨fun _ => 0, s, fun _ => 1⟩

/-- `core_ndarray.hpp:821-834` `partition_shape<N>`. -/
def partitionShape (N : Nat) (s : Ix (R + 1)) (n : Nat) : AccessPattern (R + 1) :=
  { makeAccessPattern s with
    start := Function.update (fun _ => 0) 0 (w (n * s 0) / N)
    final := Function.update s 0 (w ((n + 1) * s 0) / N) }

/-- `core_ndarray.hpp:2371-2482`: an array. -/
structure Arr (R : Nat) (α : Type) where
  shape : Ix R
  get : Ix R → Outcome α

/-- `core_ndarray.hpp:1217-1231`: an array over a buffer. -/
def ofBuffer (s : Ix R) (buf : List α) : Outcome (Arr R α) :=
  if volume s ≠ buf.length then .throws .logicError
  else .ok ⟨s, fun i => match buf[computeOffset (strides s) i]? with
    | some v => .ok v
    | none => .ub⟩

/-- `core_ndarray.hpp:1427-1430`: the loop body of `evaluate_as_unique` over the visited indexes. -/
def writeAll (A : Arr R α) (st : Ix R) : List (Ix R) → List α → Outcome (List α)
  | [], buf => .ok buf
  | i :: l, buf =>
    (A.get i).bind fun v =>
    if computeOffset st i < buf.length then writeAll A st l (buf.set (computeOffset st i) v) else .ub

/-- `core_ndarray.hpp:1406-1438` `evaluate_as_unique`, `evaluate_as_shared`; also `to_shared`,
`to_unique`, `shared()`, `unique()`.  Allocating more than `2^63` elements throws. -/
def evaluate [Inhabited α] (A : Arr (R + 1) α) : Outcome (Arr (R + 1) α) :=
  if volume A.shape ≥ 2 ^ 63 then .throws .badAlloc
  else
    (makeAccessPattern A.shape).indexes.bind fun l =>
    (writeAll A (strides A.shape) l (List.replicate (volume A.shape) default)).bind fun buf =>
    ofBuffer A.shape buf

/-- `core_ndarray.hpp:1856-1870` `bounds_check`. -/
def boundsCheck (A : Arr R α) : Arr R α :=
  ⟨A.shape, fun i => if contains A.shape i then A.get i else .throws .outOfRange⟩

/-- `core_ndarray.hpp:2291-2298` `map`. -/
def Arr.map (f : α → β) (A : Arr R α) : Arr R β := ⟨A.shape, fun i => (A.get i).map f⟩

/-- `core_ndarray.hpp:2337-2351` `binary_op`; also `zip` (1628-1642) of two arrays. -/
def binaryOp (f : α → β → γ) (A : Arr R α) (B : Arr R β) : Outcome (Arr R γ) :=
  if A.shape ≠ B.shape then .throws .logicError
  else .ok ⟨A.shape, fun i => (A.get i).bind fun a => (B.get i).bind fun b => .ok (f a b)⟩

/-- `core_ndarray.hpp:1761-1771` `promote` of a value; also `zeros`, `ones` (1721-1744). -/
def promote (v : α) (s : Ix R) : Arr R α := ⟨s, fun _ => .ok v⟩

/-- `core_ndarray.hpp:1604-1608` `index_array`. -/
def indexArray (s : Ix R) : Arr R (Ix R) := ⟨s, .ok⟩

/-- `core_ndarray.hpp:1157-1165` `selector_t::operator()`. -/
def select (p : AccessPattern R) (A : Arr R α) : Outcome (Arr R α) :=
  if !p.JumpsOk then .ub
  else if !p.within A.shape then .throws .logicError
  else .ok ⟨p.shape, fun i => A.get (p.mapIndex i)⟩

/-- `core_ndarray.hpp:853-870` `axis_selector_t::operator()`. There is no bounds check. -/
def selectAxis (a : Nat) (start final jumps : Nat) (fromTheEnd : Bool) (A : Arr R α) : Outcome (Arr R α) :=
  if h : a < R then
    let p := makeAccessPattern A.shape
    let p : AccessPattern R :=
      ⟨Function.update p.start ⟨a, h⟩ start,
       Function.update p.final ⟨a, h⟩ (if fromTheEnd then wsub (A.shape ⟨a, h⟩) final else final),
       Function.update p.jumps ⟨a, h⟩ jumps⟩
    if jumps = 0 then .ub else .ok ⟨p.shape, fun i => A.get (p.mapIndex i)⟩
  else .throws .logicError

/-- `core_ndarray.hpp:910-929` `axis_shifter_t::operator()`; `delta` is an `int` other than `INT_MIN`. -/
def shiftBy (a : Nat) (delta : Int) (A : Arr R α) : Outcome (Arr R α) :=
  if h : a < R then
    if delta.natAbs ≥ A.shape ⟨a, h⟩ then .throws .logicError
    else .ok ⟨Function.update A.shape ⟨a, h⟩ (A.shape ⟨a, h⟩ - delta.natAbs),
      fun i => A.get (Function.update i ⟨a, h⟩ (wsub (i ⟨a, h⟩) (ofInt delta)))⟩
  else .throws .logicError

/-- `core_ndarray.hpp:1052-1078` `concatenator_t::operator()`: `A | concat(B).on_axis(a)`. -/
def concat (a : Nat) (B A : Arr R α) : Outcome (Arr R α) :=
  if h : a < R then
    if (List.finRange R).any fun n => decide (n ≠ ⟨a, h⟩) && decide (B.shape n ≠ A.shape n) then .throws .logicError
    else .ok ⟨Function.update A.shape ⟨a, h⟩ (w (A.shape ⟨a, h⟩ + B.shape ⟨a, h⟩)), fun i =>
      if i ⟨a, h⟩ ≥ A.shape ⟨a, h⟩ then
        B.get (Function.update i ⟨a, h⟩ (i ⟨a, h⟩ - A.shape ⟨a, h⟩))
      else A.get i⟩
  else .throws .logicError

/-- `core_ndarray.hpp:1107-1123` `replacer_t::operator()`. -/
def replace (p : AccessPattern R) (B A : Arr R α) : Outcome (Arr R α) :=
  if !p.JumpsOk then .ub
  else if p.shape ≠ B.shape then .throws .logicError
  else .ok ⟨A.shape, fun i => if p.generates i then B.get (p.inverseMapIndex i) else A.get i⟩

/-- `core_ndarray.hpp:1794-1806` `reshape` of a memory-backed array with the given buffer. -/
def reshape {S : Nat} (s : Ix S) (sA : Ix R) (buf : List α) : Outcome (Arr S α) :=
  if volume s ≠ volume sA then .throws .logicError else ofBuffer s buf

/-- The values of an array at a list of indexes, stopping at the first failure. -/
def readAll (A : Arr R α) : List (Ix R) → Outcome (List α)
  | [] => .ok []
  | i :: l => (A.get i).bind fun v => (readAll A l).bind fun vs => .ok (v :: vs)

/-- A range-`for` loop over the elements of an array (`core_ndarray.hpp:2388-2403`, 2435). -/
def elements (A : Arr (R + 1) α) : Outcome (List α) :=
  (makeAccessPattern A.shape).indexes.bind (readAll A)

/-- `core_ndarray.hpp:1882-1898` `sum`. -/
def sum [Zero α] [Add α] (A : Arr (R + 1) α) : Outcome α :=
  (elements A).map fun l => l.foldl (· + ·) 0

/-- `core_ndarray.hpp:1909-1916` `all` of an array whose elements do not fail.  The early return is not
modelled: it only skips elements. -/
def all (A : Arr (R + 1) Bool) : Outcome Bool := (elements A).map fun l => l.all id

/-- `core_ndarray.hpp:1927-1934` `any`. -/
def any (A : Arr (R + 1) Bool) : Outcome Bool := (elements A).map fun l => l.any id

/-- `core_ndarray.hpp:1976-1990` `min`; `max` (2005-2019) is the same with `>`. An empty array gives a
default value. -/
def minBy (lt : α → α → Bool) (dflt : α) (A : Arr (R + 1) α) : Outcome α :=
  (elements A).map fun l => (l.foldl (fun r x => match r with
    | none => some x
    | some m => if lt x m then some x else some m) none).getD dflt

/-- `core_ndarray.hpp:2501-2504` `arange(count)`. -/
def arange (count : Nat) : Arr 1 Nat := ⟨fun _ => count, fun i => .ok (i 0)⟩

/-- `core_ndarray.hpp:2518-2528` `arange(start, final, step)`; `int` division truncates. The element
`start + index[0] * step` is computed in `size_t`. -/
def arangeStep (start final step : Int) : Outcome (Arr 1 Nat) :=
  if step = 0 ∨ final.tdiv step - start.tdiv step < 0 then .throws .invalidArgument
  else .ok ⟨fun _ => ofInt (final.tdiv step - start.tdiv step),
    fun i => .ok (ofInt (start + i 0 * step))⟩

/-- `core_ndarray.hpp:2567-2584` `divvy`: for each group the array of its elements. Division by zero
groups does not happen, since there is then no group. -/
def divvy (n : Nat) (A : Arr 1 α) : Arr 1 (Arr 1 α) :=
  ⟨fun _ => n, fun g =>
    let start := w (g 0 * volume A.shape) / n
    let final := w ((g 0 + 1) * volume A.shape) / n
    .ok ⟨fun _ => wsub final start, fun e => A.get (fun _ => w (start + e 0))⟩⟩

/-- `core_ndarray.hpp:1505-1516` `make_array_from` a container. -/
def ofList (l : List α) : Outcome (Arr 1 α) := ofBuffer (fun _ => l.length) l

end Verif.Nd
