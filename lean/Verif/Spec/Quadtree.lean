import Verif.Spec.Tree
import Verif.Spec.NdArray
import Mathlib.Analysis.Real.Sqrt
import Mathlib.Data.Fin.VecNotation

/-!
# Specification vocabulary for balanced quadtrees
-/

namespace Verif.Tree
open Verif Verif.Nd

variable {R : Nat} {α : Type}

/-- Two cells of the same level share a face on some axis, in the periodic domain. -/
def Neighbour (i j : Index R) : Prop :=
  i.level = j.level ∧ ∃ a, (∀ b, b ≠ a → i.coords b = j.coords b) ∧
    (j.coords a = (i.coords a + 1) % 2 ^ i.level ∨ i.coords a = (j.coords a + 1) % 2 ^ i.level)

/-- A neighbour of the cell `i` contains a leaf that is more than one level finer. -/
def OverRefined (t : Tree R α) (i : Index R) : Prop :=
  ∃ j, Neighbour i j ∧ j.Valid ∧ ∃ l b, LeafAt t l b ∧ l.Inside j ∧ i.level + 1 < l.level

/-- No leaf has a neighbour that is more than one level finer. -/
def Balanced (t : Tree R α) : Prop := ∀ i a, LeafAt t i a → ¬ OverRefined t i

/-- Every leaf cell of `u` lies inside a leaf cell of `t`: `u` arises from `t` by subdivision. -/
def Refines {β : Type} (u : Tree R β) (t : Tree R α) : Prop :=
  ∀ i a, LeafAt u i a → ∃ j b, LeafAt t j b ∧ i.Inside j

/-- The block `b` of the cell `i` arises from the block `a` of the cell `j` by repeated division. -/
inductive Divided (divide : α → Outcome (Seq.Seq (2 ^ R) α)) (j : Index R) (a : α) : Index R → α → Prop
  | same : Divided divide j a j a
  | child (i : Index R) (b : α) (c : Seq.Seq (2 ^ R) α) (k : Fin (2 ^ R)) : Divided divide j a i b → divide b = .ok c →
      Divided divide j a (i.child k) (c k)

/-- The block has `nx + 1` times `ny + 1` vertices, equally spaced over the square of the cell `i` in the domain
`[-1, 1]` times `[-1, 1]`. -/
def IsGrid (nx ny : Nat) (i : Index 2) (b : Arr 2 (ℝ × ℝ)) : Prop :=
  Denotes b ![nx + 1, ny + 1] fun p =>
    (-1 + 2 * ((i.coords 0 : ℝ) + p 0 / nx) / 2 ^ i.level, -1 + 2 * ((i.coords 1 : ℝ) + p 1 / ny) / 2 ^ i.level)

/-- The distance of the center of the square of the cell `i` from the origin. -/
noncomputable def cellRadius (i : Index 2) : ℝ :=
  Real.sqrt ((-1 + 2 * ((i.coords 0 : ℝ) + 1 / 2) / 2 ^ i.level) ^ 2 + (-1 + 2 * ((i.coords 1 : ℝ) + 1 / 2) / 2 ^ i.level) ^ 2)

end Verif.Tree
