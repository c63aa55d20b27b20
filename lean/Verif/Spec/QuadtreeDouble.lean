import Verif.Spec.Quadtree
import Verif.Model.Double

/-!
# Specification vocabulary for the places of vertices
-/

namespace Verif.Tree
open Verif Verif.Nd Verif.Double

variable {R : Rounding}

/-- Where a vertex should be, on one axis: the vertex `p` of a block of `n` zones that is the block `c` of `2 ^ l` over the interval from
`-1` to `1`. -/
noncomputable def place (n c l p : Nat) : ℝ := -1 + 2 * ((c : ℝ) + p / n) / 2 ^ l

/-- What is said about the vertices of a mesh on the axis `a`, with `n` zones per block, for a domain from `-ρ` to `ρ`: they are in the places where
they should be, up to rounding, not outside the domain, and exactly so at its ends; two vertices that should be in the same place are, exactly, in the
same place, whatever the blocks and levels; and, unless the mesh is so fine that the numbers of double precision do not suffice, two vertices that
should be in different places are, in the right order.  The vertex `p` of the block `i` is `v i p`. -/
structure Placed (ρ : ℝ) (e n depth : Nat) (V : Index 2 → Prop) (a : Fin 2) (v : Index 2 → Nat → Dbl R) : Prop where
  near : ∀ i p, V i → p ≤ n → |(v i p).val - ρ * place n (i.coords a) i.level p| ≤ ρ * ((i.level + e) / 2 ^ 52)
  inside : ∀ i p, V i → p ≤ n → |(v i p).val| ≤ ρ
  first : ∀ i p, V i → p ≤ n → place n (i.coords a) i.level p = -1 → (v i p).val = -ρ
  last : ∀ i p, V i → p ≤ n → place n (i.coords a) i.level p = 1 → (v i p).val = ρ
  same : ∀ i j p q, V i → V j → p ≤ n → q ≤ n →
    place n (i.coords a) i.level p = place n (j.coords a) j.level q → v i p = v j q
  ordered : ∀ i j p q, V i → V j → p ≤ n → q ≤ n →
    place n (i.coords a) i.level p ≤ place n (j.coords a) j.level q → v i p ≤ v j q
  distinct : n * 2 ^ depth ≤ 2 ^ 46 → ∀ i j p q, V i → V j → p ≤ n → q ≤ n →
    (v i p < v j q ↔ place n (i.coords a) i.level p < place n (j.coords a) j.level q)

end Verif.Tree
