import Verif.Model.AmrSand
import Verif.Spec.BinaryMesh

/-!
# Specification vocabulary for the sandbox for adaptive meshes
-/

namespace Verif.AmrSand

open Verif Verif.Nd Verif.Tree Verif.Binary

/-- The mesh of a state: a tree of blocks of `N` times `N` square cells that covers the square from `-1` to `1`, and is not deeper
than `D`. -/
structure Mesh (s : Solution) (D N : Nat) : Prop where
  shaped : Shaped s.vertices D N
  vertices : Blocks s.vertices s.vertices (N + 1) (N + 1) fun i x y => (coordinate 1 N i 0 x, coordinate 1 N i 1 y)

/-- The four blocks into which the cell `j` is divided, side by side: `2 N` times `2 N` cells. -/
def fineCell (N : Nat) (f : Index 2 → Nat → Nat → ℝ) (j : Index 2) (x y : Nat) : ℝ :=
  f (j.child ((if N ≤ x then 1 else 0) + if N ≤ y then 2 else 0)) (x % N) (y % N)

/-- The values `q` in `N` times `N` cells at the index `j`, made from the values `f` in the blocks of the tree `T`: those of the block `j`
itself; or the part of a block that is twice as large; or the means of four cells each of the four blocks at `j`. -/
def ReadAt {β : Type} (T : Verif.Tree.Tree 2 β) (N : Nat) (f : Index 2 → Nat → Nat → ℝ) (j : Index 2) (q : Nat → Nat → ℝ) : Prop :=
  ((∃ c, LeafAt T j c) ∧ ∀ x, x < N → ∀ y, y < N → q x y = f j x y) ∨
  (∃ m c k, LeafAt T m c ∧ j = m.child k ∧ ∀ x, x < N → ∀ y, y < N →
    q x y = f m ((x + j.coords 0 % 2 * N) / 2) ((y + j.coords 1 % 2 * N) / 2)) ∨
  ((∀ k : Fin (2 ^ 2), ∃ c, LeafAt T (j.child k) c) ∧ ∀ x, x < N → ∀ y, y < N →
    q x y = (fineCell N f j (2 * x) (2 * y) + fineCell N f j (2 * x + 1) (2 * y) + fineCell N f j (2 * x) (2 * y + 1)
      + fineCell N f j (2 * x + 1) (2 * y + 1)) / 4)

/-- The value in the cell before `x`, `y` on axis `a`: in the same block with values `f`, or in the one before it with values `q`. -/
def behind (N : Nat) (a : Fin 2) (f q : Nat → Nat → ℝ) (x y : Nat) : ℝ :=
  match a with
  | 0 => if x = 0 then q (N - 1) y else f (x - 1) y
  | 1 => if y = 0 then q x (N - 1) else f x (y - 1)

/-- The time step: the smallest cells are `2 / N / 2^depth` wide. -/
noncomputable def dt (s : Solution) (N : Nat) : ℝ := 2 / (N + 1) / 2 ^ s.vertices.depth

/-- The part of a cell of the block `i` that the flow crosses in one step, along each axis. -/
noncomputable def courant (s : Solution) (N : Nat) (i : Index 2) : ℝ := dt s N / (2 * cellSize 1 N i)

/-- The mass in all cells. -/
noncomputable def mass (s : Solution) (N : Nat) (f : Index 2 → Nat → Nat → ℝ) : ℝ :=
  cellSum s.vertices N fun i x y => f i x y * cellSize 1 N i ^ 2

/-- The index before `j` on axis `a`; the first is after the last. -/
def before (a : Fin 2) (j : Index 2) : Index 2 :=
  ⟨j.level, Function.update j.coords a (if j.coords a = 0 then 2 ^ j.level - 1 else j.coords a - 1)⟩

/-- The cell `i` is divided into four blocks. -/
def Divided {β : Type} (T : Verif.Tree.Tree 2 β) (i : Index 2) : Prop := ∀ k : Fin (2 ^ 2), ∃ c, LeafAt T (i.child k) c

/-- The step on axis `a` between the last two of `2 N` layers of cells. -/
def lastStep (N : Nat) (a : Fin 2) (F : Nat → Nat → ℝ) (y : Nat) : ℝ :=
  match a with
  | 0 => F (2 * N - 1) y - F (2 * N - 2) y
  | 1 => F y (2 * N - 1) - F y (2 * N - 2)

open Classical in
/-- The sum over all blocks of what the cells lose and others do not get, at the faces where the flow on axis `a` comes from finer cells. -/
noncomputable def loss (s : Solution) (N : Nat) (f : Index 2 → Nat → Nat → ℝ) (a : Fin 2) : ℝ :=
  leafSum s.vertices fun j _ => if Divided s.vertices (before a j) then
    cellSize 1 N j / 4 * ∑ y ∈ Finset.range (2 * N), lastStep N a (fineCell N f (before a j)) y else 0

end Verif.AmrSand
