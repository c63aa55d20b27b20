import Verif.Model.NdArray
import Verif.Model.Tree

/-!
# Programs that run alike

What it means that two runs of a program do the same on data that are related element by element.
-/

namespace Verif

variable {α α' β β' : Type}

/-- Two computations end alike: both return, with related results, or both throw the same exception, or neither is defined, or neither ends. -/
inductive Alike (R : α → α' → Prop) : Outcome α → Outcome α' → Prop
  | ok {x : α} {x' : α'} : R x x' → Alike R (.ok x) (.ok x')
  | throws (e : Exn) : Alike R (.throws e) (.throws e)
  | ub : Alike R .ub .ub
  | diverges : Alike R .diverges .diverges

/-- Pairs of related things. -/
def PairR (R : α → α' → Prop) (S : β → β' → Prop) (p : α × β) (p' : α' × β') : Prop := R p.1 p'.1 ∧ S p.2 p'.2

/-- Arrays of the same shape whose elements are related. -/
def Nd.ArrR {n : Nat} (R : α → α' → Prop) (A : Arr n α) (A' : Arr n α') : Prop := A.shape = A'.shape ∧ ∀ i, Alike R (A.get i) (A'.get i)

/-- Trees of the same form whose leaves are related. -/
def Tree.TreeR {r : Nat} (R : α → α' → Prop) : Tree r α → Tree r α' → Prop
  | .leaf a, .leaf a' => R a a'
  | .node c, .node c' => ∀ k, TreeR R (c k) (c' k)
  | _, _ => False

end Verif
