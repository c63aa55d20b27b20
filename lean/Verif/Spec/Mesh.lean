import Verif.Spec.Tree
import Verif.Spec.Lines
import Mathlib.Algebra.BigOperators.Fin

/-!
# Specification vocabulary for sums over the leaves of a tree and for blocks seen along one axis
-/

namespace Verif.Tree

open Verif

variable {R : Nat} {α K : Type}

/-- The sum of `f` over the leaves of the tree `u` that hangs at the index `i`. -/
def leafSumAt [AddCommMonoid K] (f : Index R → α → K) : Tree R α → Index R → K
  | .leaf a, i => f i a
  | .node c, i => ∑ k, leafSumAt f (c k) (i.child k)

/-- The sum of `f` over the leaves of a tree, with their indexes. -/
def leafSum [AddCommMonoid K] (t : Tree R α) (f : Index R → α → K) : K := leafSumAt f t Index.root

/-- The cell `j` is the next one after `i` on axis `a`. With `wrap` the first cell follows the last one. -/
def Follows (wrap : Prop) (a : Fin R) (i j : Index R) : Prop :=
  i.level = j.level ∧ (∀ b, b ≠ a → i.coords b = j.coords b) ∧
    (j.coords a = i.coords a + 1 ∨ wrap ∧ i.coords a + 1 = 2 ^ i.level ∧ j.coords a = 0)

/-- The cell lies at the lower edge of the domain on axis `a`. -/
def AtLower (a : Fin R) (i : Index R) : Prop := i.coords a = 0

/-- The cell lies at the upper edge of the domain on axis `a`. -/
def AtUpper (a : Fin R) (i : Index R) : Prop := i.coords a + 1 = 2 ^ i.level

instance (a : Fin R) (i : Index R) : Decidable (AtLower a i) := inferInstanceAs (Decidable (_ = _))
instance (a : Fin R) (i : Index R) : Decidable (AtUpper a i) := inferInstanceAs (Decidable (_ = _))

/-- The number of the child on the side `s` of axis `a` and in the half `m` of the other axis. -/
def corner (a : Fin 2) (s m : Bool) : Fin (2 ^ 2) :=
  match a with
  | 0 => ⟨s.toNat + 2 * m.toNat, by cases s <;> cases m <;> decide⟩
  | 1 => ⟨m.toNat + 2 * s.toNat, by cases s <;> cases m <;> decide⟩

/-- The fluxes through the side of a divided cell `j` that lies below (`s = false`) or above (`s = true`) on axis `a`, each of
its four blocks having `n` faces on that side: those of the two blocks there, one after the other.  `f i y` is the flux through
the face `y` of the block `i`. -/
def sideFluxes (n : Nat) (a : Fin 2) (s : Bool) (f : Index 2 → Nat → K) (j : Index 2) (y : Nat) : K :=
  if y < n then f (j.child (corner a s false)) y else f (j.child (corner a s true)) (y - n)

/-- What the correction does to the first fluxes of the block `i`: nothing if the block before it is not finer;
otherwise each becomes the sum of the two finer ones there. `f i x y` are the fluxes of the block `i` before. -/
def LowerCorrected [Add K] (a : Fin 2) (N : Nat) (t : Tree 2 α) (f : Index 2 → Nat → Nat → K) (i : Index 2) (g : Nat → K) : Prop :=
  ∀ j, j.Valid → Follows True a j i →
    (∀ c, LeafAt t j c → ∀ y, y < N → g y = f i 0 y) ∧
    (∀ m c k, LeafAt t m c → j = m.child k → ∀ y, y < N → g y = f i 0 y) ∧
    (∀ c : Fin (2 ^ 2) → α, NodeAt t j (.node fun k => .leaf (c k)) → ∀ y, y < N →
      g y = sideFluxes N a true (fun i => f i N) j (2 * y) + sideFluxes N a true (fun i => f i N) j (2 * y + 1))

/-- The same for the last fluxes. -/
def UpperCorrected [Add K] (a : Fin 2) (N : Nat) (t : Tree 2 α) (f : Index 2 → Nat → Nat → K) (i : Index 2) (g : Nat → K) : Prop :=
  ∀ j, j.Valid → Follows True a i j →
    (∀ c, LeafAt t j c → ∀ y, y < N → g y = f i N y) ∧
    (∀ m c k, LeafAt t m c → j = m.child k → ∀ y, y < N → g y = f i N y) ∧
    (∀ c : Fin (2 ^ 2) → α, NodeAt t j (.node fun k => .leaf (c k)) → ∀ y, y < N →
      g y = sideFluxes N a false (fun i => f i 0) j (2 * y) + sideFluxes N a false (fun i => f i 0) j (2 * y + 1))

end Verif.Tree

namespace Verif.Nd

open Verif

variable {α : Type}

/-- A two-dimensional array seen along axis `a`: `m` entries along this axis, `n` along the other one, and `f x y` at
`x` along the axis `a` and `y` along the other one. -/
def Along (a : Fin 2) (A : Arr 2 α) (m n : Nat) (f : Nat → Nat → α) : Prop :=
  match a with
  | 0 => Grid A m n f
  | 1 => Grid A n m fun y x => f x y

end Verif.Nd
