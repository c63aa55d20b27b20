import Verif.Model.Outcome

/-!
# The interface of `mara::linked_list_t` (`core_linked_list.hpp`)

Values of list objects, sharing ignored (sharing and storage are the subject of
`Verif.Model.ListHeap`).  Loops and recursion take a `Nat` bounding the number of iterations or
calls; exceeding it is `diverges`.
-/

namespace Verif.LinkedList
open Verif

/-- `core_linked_list.hpp:382-383`: an object with a null `__next` is empty. -/
inductive LL (α : Type) where
  | null
  | node (value : α) (next : LL α)
deriving DecidableEq

section
variable {α : Type}

/-- `core_linked_list.hpp:185-188`. -/
def empty : LL α → Bool
  | .null => true
  | .node _ _ => false

/-- `core_linked_list.hpp:288-295`. -/
def head : LL α → Outcome α
  | .null => .throws .outOfRange
  | .node a _ => .ok a

/-- `core_linked_list.hpp:305-312`. -/
def tail : LL α → Outcome (LL α)
  | .null => .throws .outOfRange
  | .node _ l => .ok l

/-- `core_linked_list.hpp:123-131, 221-224`. -/
def prepend (l : LL α) (a : α) : LL α := .node a l

/-- `core_linked_list.hpp:236-239` (argument evaluation: `tail().append(value)` first). -/
def append : Nat → LL α → α → Outcome (LL α)
  | 0, _, _ => .diverges
  | n + 1, l, a =>
    if empty l then .ok (.node a l)
    else (tail l).bind fun t => (append n t a).bind fun t' => (head l).bind fun h =>
      .ok (prepend t' h)

/-- `core_linked_list.hpp:252-255`. -/
def concat : Nat → LL α → LL α → Outcome (LL α)
  | 0, _, _ => .diverges
  | n + 1, l, m =>
    if empty l then .ok m
    else (head l).bind fun h => (tail l).bind fun t => (concat n t m).bind fun t' =>
      .ok (.node h t')

/-- `core_linked_list.hpp:271-275`, the loop of `reverse`. -/
def reverseLoop : Nat → LL α → LL α → Outcome (LL α)
  | 0, _, _ => .diverges
  | n + 1, A, B =>
    if empty A then .ok B
    else (head A).bind fun h => (tail A).bind fun A' => reverseLoop n A' (prepend B h)

/-- `core_linked_list.hpp:266-277`. -/
def reverse (n : Nat) (l : LL α) : Outcome (LL α) := reverseLoop n l .null

/-- `core_linked_list.hpp:198-209` with the iterator of lines 62-80: `it != end()` compares the
`__next` pointers, and the one of `end()` is null. -/
def sizeLoop : Nat → LL α → Nat → Outcome Nat
  | 0, _, _ => .diverges
  | n + 1, it, result => if empty it then .ok result else (tail it).bind fun t => sizeLoop n t (result + 1)

def size (n : Nat) (l : LL α) : Outcome Nat := sizeLoop n l 0

/-- Copying a list into a `std::vector` through its iterators, `app_serialize.hpp:227`. -/
def toVector : Nat → LL α → Outcome (List α)
  | 0, _ => .diverges
  | n + 1, it =>
    if empty it then .ok []
    else (head it).bind fun h => (tail it).bind fun t => (toVector n t).bind fun v => .ok (h :: v)

/-- `core_linked_list.hpp:164-175` (and 141-150): construction from a range of values. -/
def fromRange (n : Nat) (values : List α) : Outcome (LL α) :=
  reverse n (values.foldl prepend .null)

/-- `core_linked_list.hpp:350-361`. -/
def eqv [DecidableEq α] : Nat → LL α → LL α → Outcome Bool
  | 0, _, _ => .diverges
  | n + 1, l, m =>
    if !empty l && !empty m then
      (head l).bind fun a => (head m).bind fun b =>
      if a = b then (tail l).bind fun s => (tail m).bind fun t => eqv n s t else .ok false
    else if empty l && empty m then .ok true
    else .ok false

/-- `subprog_binary_io.cpp:156` followed by `app_serialize.hpp:227`: what is stored for the time
series of a state. -/
def writeTimeSeries (n : Nat) (l : LL α) : Outcome (List α) := (reverse n l).bind (toVector n)

/-- `app_serialize.hpp:229` followed by `subprog_binary_io.cpp:198, 200`. -/
def readTimeSeries (n : Nat) (stored : List α) : Outcome (LL α) :=
  (fromRange n stored).bind (reverse n)

end
end Verif.LinkedList
