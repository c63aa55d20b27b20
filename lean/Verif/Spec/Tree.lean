import Verif.Model.Tree

/-!
# Specification vocabulary for tree indexes and trees

An index `⟨l, x⟩` names the cell `x` of the regular `2^l` per axis subdivision.  `NodeAt t i u` says
that the subtree `u` of `t` covers the cell `i`; it is defined by structural descent, without the
bit fiddling of the code.
-/

namespace Verif.Tree
open Verif

variable {R : Nat} {α : Type}

/-- A platform (or the standard) that computes `1 << n` as `2^n` at least for `n ≤ 30`. -/
def Shift (sh : Nat → Outcome Nat) : Prop := ∀ n, n ≤ 30 → sh n = .ok (2 ^ n)

namespace Index

/-- The index names a cell of its level. -/
def Valid (i : Index R) : Prop := ∀ a, i.coords a < 2 ^ i.level

/-- The root. -/
def root : Index R := ⟨0, fun _ => 0⟩

/-- The cell `j` inside the cell `i`. -/
def within (i j : Index R) : Index R :=
  ⟨i.level + j.level, fun a => i.coords a * 2 ^ j.level + j.coords a⟩

/-- The `k`-th of the `2^R` cells into which `i` is divided: bit `a` of `k` selects the upper half on
axis `a`. -/
def child (i : Index R) (k : Nat) : Index R :=
  ⟨i.level + 1, fun a => 2 * i.coords a + (k.testBit a).toNat⟩

/-- The `k`-th of the `2^R` cells of the root that contains the cell, seen from that cell. -/
def descend (k : Nat) (j : Index R) : Index R :=
  ⟨j.level + 1, fun a => (k.testBit a).toNat * 2 ^ j.level + j.coords a⟩

/-- `i` is a cell (weakly) inside the cell `j`. -/
def Inside (i j : Index R) : Prop := ∃ m : Index R, m.Valid ∧ i = j.within m

end Index

/-- The subtree of a tree at an index. -/
inductive NodeAt : Tree R α → Index R → Tree R α → Prop
  | here (t : Tree R α) : NodeAt t Index.root t
  | inChild (c : Fin (2 ^ R) → Tree R α) (k : Fin (2 ^ R)) (j : Index R) (u : Tree R α)
      (h : NodeAt (c k) j u) : NodeAt (.node c) (Index.descend k j) u

/-- The tree has the leaf value `a` at the index `i`. -/
def LeafAt (t : Tree R α) (i : Index R) (a : α) : Prop := NodeAt t i (.leaf a)

/-- The tree is subdivided at `i`. -/
def InteriorAt (t : Tree R α) (i : Index R) : Prop := ∃ c, NodeAt t i (.node c)

/-- The leaves of a tree as a list: depth first, children in order of their number. -/
def leaves : Tree R α → List α
  | .leaf a => [a]
  | .node c => (List.finRange (2 ^ R)).flatMap fun k => leaves (c k)

/-- No leaf is deeper than `D`. -/
def DepthLe (t : Tree R α) (D : Nat) : Prop := ∀ i a, LeafAt t i a → i.level ≤ D

/-- Two trees are subdivided in the same way. -/
def SameShape {β : Type} (t : Tree R α) (u : Tree R β) : Prop :=
  ∀ i, (∃ a, LeafAt t i a) ↔ (∃ b, LeafAt u i b)

end Verif.Tree
