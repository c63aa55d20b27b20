import Verif.Model.NdArray

/-!
# Parallel evaluation and block decomposition (`app_parallel.hpp`)
-/

namespace Verif.Par
open Verif Verif.Nd

variable {R : Nat} {α ι : Type}

/-- `core_ndarray.hpp:821-834`, `app_parallel.hpp:92`: the indexes visited by thread `n` of `N`. -/
def threadIndexes (N : Nat) (s : Ix (R + 1)) (n : Nat) : Outcome (List (Ix (R + 1))) :=
  (partitionShape N s n).indexes

/-- `app_parallel.hpp:94-98`: the threads are started and run to their ends in any interleaving. A step is the
loop body of one thread (`app_parallel.hpp:85-88`), the evaluation and the write of one element: the evaluation
does not depend on the buffer, and if two threads write the same element the behaviour is undefined anyway
(`Races`). -/
inductive Interleaving : List (List ι) → List ι → Prop where
  | done {ls : List (List ι)} : (∀ l ∈ ls, l = []) → Interleaving ls []
  | step {ls : List (List ι)} {n : Nat} {x : ι} {rest l : List ι} :
      ls[n]? = some (x :: rest) → Interleaving (ls.set n rest) l → Interleaving ls (x :: l)

/-- Two threads write the same memory. -/
def Races (st : Ix R) (ls : List (List (Ix R))) : Prop :=
  ∃ (m n : Nat) (l l' : List (Ix R)) (i j : Ix R), m ≠ n ∧ ls[m]? = some l ∧ ls[n]? = some l' ∧ i ∈ l ∧ j ∈ l' ∧
    computeOffset st i = computeOffset st j

/-- `app_parallel.hpp:75-103` `evaluate_on<N>`: the possible outcomes if every thread ends. -/
def EvaluatesOn [Inhabited α] (N : Nat) (A : Arr (R + 1) α) (o : Outcome (Arr (R + 1) α)) : Prop :=
  if volume A.shape ≥ 2 ^ 63 then o = .throws .badAlloc
  else ∃ ls, List.Forall₂ (fun n l => threadIndexes N A.shape n = .ok l) (List.range N) ls ∧
    ((Races (strides A.shape) ls ∧ o = .ub) ∨
      ∃ l, Interleaving ls l ∧
        o = (writeAll A (strides A.shape) l (List.replicate (volume A.shape) default)).bind (ofBuffer A.shape))

/-- `app_parallel.hpp:187-197`: the loop of `factor_once` from the divisor `d` on. `d * d` is an `int`: a square
of `2^31` or more is undefined behaviour, so the loop never gets beyond `46341`. -/
def factorOnceFrom (num : Nat) : Nat → Nat → Outcome (Nat × Nat)
  | 0, _ => .diverges
  | fuel + 1, d =>
    if num % d = 0 then .ok (d, num / d)
    else if d * d ≥ 2147483648 then .ub
    else if d * d > num then .ok (num, 1)
    else factorOnceFrom num fuel (d + 1)

/-- `app_parallel.hpp:185-199` `factor_once`, of an `int` that is not negative. -/
def factorOnce (num : Nat) : Outcome (Nat × Nat) := factorOnceFrom num 46341 2

/-- `app_parallel.hpp:201-214` `prime_factors_impl`. A call for a positive number calls itself for numbers at
most half as large, so if the depth exceeds the fuel of 32 then the recursion does not end. -/
def primeFactorsImpl : Nat → Nat → Outcome (List Nat)
  | 0, _ => .diverges
  | fuel + 1, num =>
    (factorOnce num).bind fun once =>
    if once.2 = 1 then .ok [once.1]
    else
      (primeFactorsImpl fuel once.1).bind fun l =>
      (primeFactorsImpl fuel once.2).bind fun l' => .ok (l ++ l')

/-- `app_parallel.hpp:216-221` `prime_factors` of an `int` that is not negative. -/
def primeFactors (num : Nat) : Outcome (List Nat) := primeFactorsImpl 32 num

/-- A loop that collects one value for each element of a list. -/
def collect {β : Type} (f : ι → Outcome β) : List ι → Outcome (List β)
  | [] => .ok []
  | x :: l => (f x).bind fun y => (collect f l).bind fun ys => .ok (y :: ys)

/-- `app_parallel.hpp:119-131` `propose_block_decomposition<R>`, of a number below `2^31`. The products of
the factors are `int`s; they divide the number and so do not overflow. -/
def proposeBlockDecomposition (R n : Nat) : Outcome (Ix R) :=
  (primeFactors n).bind fun factors =>
  (ofList factors).bind fun A =>
  (elements (divvy R A)).bind fun groups =>
  (collect (fun g => (elements g).map fun l => l.foldl (· * ·) 1) groups).map fun dims a => dims.getD a 0

/-- `app_parallel.hpp:154-165`: the first element and the size of each group on one axis. Reading the first
element of the group cannot fail since the group is not empty. -/
def axisBlocks (globalSize blocks : Nat) : Outcome (List (Nat × Nat)) :=
  (elements (divvy blocks (arange globalSize))).bind fun groups =>
  collect (fun g =>
    if volume g.shape = 0 then .throws .logicError
    else (g.get (fun _ => 0)).map fun start => (start, volume g.shape)) groups

/-- `app_parallel.hpp:148-179` `create_access_pattern_array`. The extents are below `2^31`. -/
def createAccessPatternArray (globalShape blocksShape : Ix R) : Outcome (Arr R (AccessPattern R)) :=
  (collect (fun a => axisBlocks (globalShape a) (blocksShape a)) (List.finRange R)).map fun axes =>
  boundsCheck ⟨blocksShape, fun index => .ok
    { start := fun a => ((axes.getD a []).getD (index a) (0, 0)).1
      final := fun a => w (((axes.getD a []).getD (index a) (0, 0)).1 + ((axes.getD a []).getD (index a) (0, 0)).2)
      jumps := fun _ => 1 }⟩

end Verif.Par
