import Verif.Model.Sequence
import Mathlib.Algebra.BigOperators.Fin

/-!
# Tree indexes and binary trees of any rank (`core_tree.hpp`)

`mara::tree_index_t<Rank>` and `mara::arithmetic_binary_tree_t<ValueType, Rank>`.

The expression `1 << n` (an `int` shift) is defined for `n ≤ 30` only.  All functions take the
shift operation `sh` as a parameter: `shl1` is the C++ standard (undefined beyond 30; 31 is
implementation defined and treated as undefined), other instances describe a platform that
produces some value instead.
-/

namespace Verif.Tree
open Verif Verif.Seq

/-- `1 << n` for an `int` one, as the C++ standard defines it. -/
def shl1 (n : Nat) : Outcome Nat := if n ≤ 30 then .ok (2 ^ n) else .ub

/-- `size_t` decrement. -/
def decr (n : Nat) : Nat := (n + 2 ^ 64 - 1) % 2 ^ 64

/-- `core_tree.hpp:929-934` `binary_repr<Bits>(value)`: `bool(value & (1 << n))`. -/
def binaryRepr (R : Nat) (value : Nat) : Seq R Bool := fun n => decide (value &&& 2 ^ (n : Nat) ≠ 0)

/-- `core_tree.hpp:949-956` `to_integral`: the sum of `(1 << e) * bit_e`. -/
def toIntegral {R : Nat} (bits : Seq R Bool) : Nat :=
  Seq.sum (fun e : Fin R => if bits e then 2 ^ (e : Nat) else 0)

/-- `core_tree.hpp:217-218`: members of a tree index. -/
@[ext] structure Index (R : Nat) where
  level : Nat
  coords : Seq R Nat

instance (R : Nat) : DecidableEq (Index R) := fun a b =>
  if h : a.level = b.level ∧ a.coords = b.coords then isTrue (Index.ext h.1 h.2)
  else isFalse (fun e => h (by subst e; exact ⟨rfl, rfl⟩))

namespace Index
variable {R : Nat} (sh : Nat → Outcome Nat)

/-- `core_tree.hpp:99-102` `valid`. -/
def valid (i : Index R) : Outcome Bool :=
  (sh i.level).bind fun s => .ok (Seq.all (fun a => decide (i.coords a < s)))

/-- `core_tree.hpp:187-190` `orthant`. -/
def orthant (i : Index R) : Outcome (Seq R Bool) :=
  (sh (decr i.level)).bind fun s =>
  if s = 0 then .ub else .ok (fun a => decide (i.coords a / s ≠ 0))

/-- `core_tree.hpp:115-118` `advance_level`.  The `size_t` subtraction cannot wrap: where the
orthant bit is set the coordinate is at least the subtracted power. -/
def advanceLevel (i : Index R) : Outcome (Index R) :=
  (orthant sh i).bind fun o =>
  (sh (decr i.level)).bind fun s =>
  .ok ⟨decr i.level, fun a => i.coords a - if o a then s else 0⟩

/-- `core_tree.hpp:128-131` `relative_to_parent`. -/
def relativeToParent (i : Index R) : Index R := ⟨1, fun a => i.coords a % 2⟩

/-- `core_tree.hpp:142-145` `parent_index`. -/
def parentIndex (i : Index R) : Index R := ⟨decr i.level, fun a => i.coords a / 2⟩

/-- `core_tree.hpp:156-159` `child_indexes` (`size_t` arithmetic). -/
def childIndexes (i : Index R) : Seq (2 ^ R) (Index R) := fun k =>
  ⟨i.level + 1, fun a => (i.coords a * 2 + if binaryRepr R k a then 1 else 0) % 2 ^ 64⟩

/-- `core_tree.hpp:172-175` `with_level`. -/
def withLevel (i : Index R) (l : Nat) : Index R := ⟨l, i.coords⟩

/-- `core_tree.hpp:203` `next_on`. -/
def nextOn (i : Index R) (a : Nat) : Outcome (Index R) :=
  (Seq.at? i.coords a).bind fun c =>
  (sh i.level).bind fun s =>
  if s = 0 then .ub else .ok ⟨i.level, Seq.set i.coords a ((c + s + 1) % 2 ^ 64 % s)⟩

/-- `core_tree.hpp:204` `prev_on`. -/
def prevOn (i : Index R) (a : Nat) : Outcome (Index R) :=
  (Seq.at? i.coords a).bind fun c =>
  (sh i.level).bind fun s =>
  if s = 0 then .ub else .ok ⟨i.level, Seq.set i.coords a ((c + s - 1) % 2 ^ 64 % s)⟩

/-- `core_tree.hpp:210` `operator==`. -/
def eq (i j : Index R) : Bool :=
  decide (i.level = j.level) && Seq.all (fun a => decide (i.coords a = j.coords a))

/-- `core_tree.hpp:211` `operator!=`. -/
def ne (i j : Index R) : Bool :=
  decide (i.level ≠ j.level) || Seq.any (fun a => decide (i.coords a ≠ j.coords a))

end Index

/-- `core_tree.hpp:911`: a leaf with its value, or `2^Rank` children (behind a shared pointer;
children are immutable, so sharing is not observable). -/
inductive Tree (R : Nat) (α : Type) where
  | leaf (a : α)
  | node (c : Fin (2 ^ R) → Tree R α)

namespace Tree
variable {R : Nat} {α β γ : Type} (sh : Nat → Outcome Nat)

/-- `core_tree.hpp:288-291`. -/
def hasValue : Tree R α → Bool
  | leaf _ => true
  | node _ => false

/-- `core_tree.hpp:302-305`: `std::get<0>` throws `bad_variant_access`. -/
def value : Tree R α → Outcome α
  | leaf a => .ok a
  | node _ => .throws .badVariantAccess

/-- `core_tree.hpp:316-319`. -/
def children : Tree R α → Outcome (Fin (2 ^ R) → Tree R α)
  | leaf _ => .throws .badVariantAccess
  | node c => .ok c

/-- `core_tree.hpp:246-249` `size`. -/
def size : Tree R α → Nat
  | leaf _ => 1
  | node c => Seq.sum (fun k => (c k).size)

/-- `core_tree.hpp:261-264` `depth`. The maximum over the `2^Rank` (at least one) children. -/
def depth : Tree R α → (d : Nat := 0) → Nat
  | leaf _, d => d
  | node c, d => maxNat (fun k => (c k).depth (d + 1))
where
  /-- `Seq.max` on a sequence of positive length given as a power of two. -/
  maxNat (x : Seq (2 ^ R) Nat) : Nat :=
    Seq.max (n := 2 ^ R - 1) (fun k => x ⟨k, by have := Nat.two_pow_pos R; omega⟩)

/-- The first child, number 0. -/
def first : Fin (2 ^ R) := ⟨0, Nat.two_pow_pos R⟩

/-- `core_tree.hpp:275-278` `front`. -/
def front : Tree R α → α
  | leaf a => a
  | node c => (c first).front

/-- `core_tree.hpp:334-337` `child_at` on the children: unchecked `operator[]`. -/
def childAt (c : Fin (2 ^ R) → Tree R α) (o : Seq R Bool) : Outcome (Fin (2 ^ R)) :=
  if h : toIntegral o < 2 ^ R then .ok ⟨toIntegral o, h⟩ else .ub

/-- `core_tree.hpp:398-413` `node_at`. -/
def nodeAt : Tree R α → Index R → Outcome (Tree R α)
  | leaf a, i =>
    if i.level = 0 then
      if Seq.any (fun x => decide (i.coords x ≠ 0)) then .throws .outOfRange else .ok (leaf a)
    else .throws .outOfRange
  | node c, i =>
    if i.level = 0 then
      if Seq.any (fun x => decide (i.coords x ≠ 0)) then .throws .outOfRange else .ok (node c)
    else
      (i.orthant sh).bind fun o =>
      (childAt c o).bind fun k =>
      (i.advanceLevel sh).bind fun j => (c k).nodeAt j

/-- `core_tree.hpp:426-437` `contains_node`. -/
def containsNode : Tree R α → Index R → Outcome Bool
  | leaf _, i =>
    if i.level = 0 then .ok (!Seq.any (fun x => decide (i.coords x ≠ 0))) else .ok false
  | node c, i =>
    if i.level = 0 then .ok (!Seq.any (fun x => decide (i.coords x ≠ 0)))
    else
      (i.orthant sh).bind fun o =>
      (childAt c o).bind fun k =>
      (i.advanceLevel sh).bind fun j => (c k).containsNode j

/-- `core_tree.hpp:450-453` `at`. -/
def at' (t : Tree R α) (i : Index R) : Outcome α := (t.nodeAt sh i).bind value

/-- `core_tree.hpp:465-474` `find`: catches `out_of_range` only. -/
def find (t : Tree R α) (i : Index R) : Outcome (Option α) :=
  match t.at' sh i with
  | .ok a => .ok (some a)
  | .throws .outOfRange => .ok none
  | .throws e => .throws e
  | .ub => .ub
  | .diverges => .diverges

/-- `core_tree.hpp:486-493` `contains`. -/
def contains : Tree R α → Index R → Outcome Bool
  | leaf _, i => .ok (decide (i.level = 0) && !Seq.any (fun x => decide (i.coords x ≠ 0)))
  | node c, i =>
    (i.orthant sh).bind fun o =>
    (childAt c o).bind fun k =>
    (i.advanceLevel sh).bind fun j => (c k).contains j

/-- `core_tree.hpp:498` `any`. -/
def any : Tree R Bool → Bool
  | leaf a => a
  | node c => Seq.any (fun k => (c k).any)

/-- `core_tree.hpp:499` `all`. -/
def all : Tree R Bool → Bool
  | leaf a => a
  | node c => Seq.all (fun k => (c k).all)

/-- `core_tree.hpp:500` `min`. -/
def min [LT α] [DecidableRel (α := α) (· < ·)] : Tree R α → α
  | leaf a => a
  | node c => Seq.min (n := 2 ^ R - 1)
      (fun k => (c ⟨k, by have := Nat.two_pow_pos R; omega⟩).min)

/-- `core_tree.hpp:501` `max`. -/
def max [LT α] [DecidableRel (α := α) (· < ·)] : Tree R α → α
  | leaf a => a
  | node c => Seq.max (n := 2 ^ R - 1)
      (fun k => (c ⟨k, by have := Nat.two_pow_pos R; omega⟩).max)

/-- `core_tree.hpp:502` `sum`. -/
def sum [Zero α] [Add α] : Tree R α → α
  | leaf a => a
  | node c => Seq.sum (fun k => (c k).sum)

/-- `core_tree.hpp:517-528` `indexes`. -/
def indexes : Tree R α → Index R → Tree R (Index R)
  | leaf _, i => leaf i
  | node c, i => node (fun k => (c k).indexes (i.childIndexes k))

/-- `core_tree.hpp:545-558` `sink`: the values handed to the function, in order. -/
def sink : Tree R α → List α
  | leaf a => [a]
  | node c => (List.ofFn (fun k => (c k).sink)).flatten

/-- `core_tree.hpp:576-583` `map`. The launching variants (601-611, 616-625) map once to futures and
once to their results, see `Verif/Model/ThreadPool.lean`. -/
def map (f : α → β) : Tree R α → Tree R β
  | leaf a => leaf (f a)
  | node c => node (fun k => (c k).map f)

/-- `core_tree.hpp:672-683` `update`. -/
def update (f : α → α) : Tree R α → Index R → Outcome (Tree R α)
  | leaf a, i =>
    if i.level = 0 then .ok (leaf (f a))
    else .throws .badVariantAccess
  | node c, i =>
    if i.level = 0 then .ok ((node c).map f)
    else
      (i.orthant sh).bind fun o =>
      (childAt c o).bind fun k =>
      (i.advanceLevel sh).bind fun j =>
      ((c k).update f j).bind fun t' => .ok (node (fun m => if m = k then t' else c m))

/-- `core_tree.hpp:713-717`: the children that `insert` descends into; those of a leaf are freshly
made from default values. -/
def childrenOrDefault [Inhabited α] : Tree R α → Fin (2 ^ R) → Tree R α
  | leaf _ => fun _ => leaf default
  | node c => c

/-- `core_tree.hpp:703-721` `insert`.  Recursion on the level; the call at line 715 re-enters the
same function on freshly made children and is inlined. -/
def insert [Inhabited α] (v : α) : Nat → Tree R α → Index R → Outcome (Tree R α)
  | 0, t, i =>
    if Seq.any (fun x => decide (i.coords x ≠ 0)) || !t.hasValue then .throws .outOfRange
    else .ok (leaf v)
  | l + 1, t, i =>
    let c := t.childrenOrDefault
    (Index.orthant sh ⟨l + 1, i.coords⟩).bind fun o =>
    (childAt c o).bind fun k =>
    (Index.advanceLevel sh ⟨l + 1, i.coords⟩).bind fun j =>
    (insert v l (c k) j).bind fun t' => .ok (node (fun m => if m = k then t' else c m))

/-- Evaluate a family of results in order of the child number, stopping at the first failure.  (The
C++ evaluation order of `core_sequence.hpp:431-434` is unspecified: when several children of one
`binary_op` fail, the exception that propagates may come from another of them.) -/
def sequence {β : Type} : {n : Nat} → (Fin n → Outcome β) → Outcome (Fin n → β)
  | 0, _ => .ok Fin.elim0
  | _ + 1, c => (c 0).bind fun x => (sequence fun k => c k.succ).bind fun xs => .ok (Fin.cons x xs)

/-- `core_tree.hpp:739-756` `binary_op`. -/
def binaryOp (f : α → β → γ) : Tree R α → Tree R β → Outcome (Tree R γ)
  | leaf a, u => u.value.bind fun b => .ok (leaf (f a b))
  | node _, leaf _ => .throws .invalidArgument
  | node c, node d => (sequence fun k => (c k).binaryOp f (d k)).bind fun e => .ok (node e)

/-- `core_tree.hpp:774-778` `pair`. -/
def pair (t : Tree R α) (u : Tree R β) : Outcome (Tree R (α × β)) := t.binaryOp Prod.mk u

/-- `core_tree.hpp:790-793` `pair_indexes`. -/
def pairIndexes (t : Tree R α) : Outcome (Tree R (Index R × α)) :=
  (t.indexes ⟨0, fun _ => 0⟩).pair t

/-- `core_tree.hpp:813-817` `apply_to`. -/
def applyTo (t : Tree R (α → β)) (u : Tree R α) : Outcome (Tree R β) :=
  (t.pair u).bind fun p => .ok (p.map fun q => q.1 q.2)

/-- `core_tree.hpp:1013-1020` `tree_of` of a sequence of child values. -/
def treeOf (v : Seq (2 ^ R) α) : Tree R α := node (fun k => leaf (v k))

/-- `core_tree.hpp:837-845` `bifurcate_if`. -/
def bifurcateIf (p : α → Bool) (f : α → Seq (2 ^ R) α) : Tree R α → Tree R α
  | leaf a => if p a then treeOf (f a) else leaf a
  | node c => node (fun k => (c k).bifurcateIf p f)

/-- `core_tree.hpp:863-872` `bifurcate_all`. -/
def bifurcateAll (f : α → Seq (2 ^ R) β) : Tree R α → Tree R β
  | leaf a => treeOf (f a)
  | node c => node (fun k => (c k).bifurcateAll f)

end Tree

/-- `core_tree.hpp:1037-1050`: the rotation of `hilbert_index`, on `int`s (no overflow for the
arguments considered). -/
def hilbertRot (n x y rx ry : Int) : Int × Int :=
  if ry = 0 then
    if rx = 1 then (n - 1 - y, n - 1 - x) else (y, x)
  else (x, y)

/-- `core_tree.hpp:1052-1064`: the loop of `xy2d` with current `s`.  The bitwise operation is that of 32-bit `int`s in two's
complement: where the level is passed as the side length, coordinates become negative.  `fuel` bounds the number of halvings, at most
31. -/
def hilbertLoop (n : Int) : Nat → Nat → Int → Int → Int → Int
  | 0, _, _, _, d => d
  | fuel + 1, s, x, y, d =>
    if s = 0 then d
    else
      let rx : Nat := if (x % 4294967296).toNat &&& s > 0 then 1 else 0
      let ry : Nat := if (y % 4294967296).toNat &&& s > 0 then 1 else 0
      let d := d + s * s * ((3 * rx) ^^^ ry : Nat)
      let q := hilbertRot n x y rx ry
      hilbertLoop n fuel (s / 2) q.1 q.2 d

/-- `core_tree.hpp:1052-1064` `xy2d`, for a side length that is not negative. -/
def xy2d (n : Nat) (x y : Int) : Int := hilbertLoop n 32 (n / 2) x y 0

/-- `core_tree.hpp:1033-1067` `hilbert_index`.  Line 1066 passes the level itself as the side length `n`. -/
def hilbertIndex (i : Index 2) : Int := xy2d i.level (i.coords 0) (i.coords 1)

end Verif.Tree
