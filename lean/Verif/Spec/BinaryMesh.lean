import Verif.Model.BinaryStep
import Verif.Spec.Mesh
import Verif.Spec.Quadtree
import Mathlib.Algebra.BigOperators.Group.Finset.Basic

/-!
# Specification vocabulary for the mesh of the binary program
-/

namespace Verif.Binary

open Verif Verif.Nd Verif.Tree Iso2d

/-- A tree with blocks of `N` times `N` cells that the program can handle: balanced, not deeper than 30, and the blocks with guard
cells not larger than the range of `int`. -/
structure Shaped {β : Type} (T : Verif.Tree.Tree 2 β) (D N : Nat) : Prop where
  depth : DepthLe T D
  small : D ≤ 30
  balanced : Balanced T
  pos : 1 ≤ N
  bound : (N + 2) * (N + 2) < 2 ^ 31

/-- A tree of blocks with `m` times `n` entries that is divided as `T`; `f i x y` is the entry at `x`, `y` of the block `i`. -/
def Blocks {β α : Type} (T : Verif.Tree.Tree 2 β) (t : Quad α) (m n : Nat) (f : Index 2 → Nat → Nat → α) : Prop :=
  SameShape t T ∧ ∀ i b, LeafAt t i b → Grid b m n (f i)

/-- The size of the cells in the block `i` of a square domain that reaches from `-rd` to `rd`, `N` times `N` cells being in a block. -/
noncomputable def cellSize (rd : ℝ) (N : Nat) (i : Index 2) : ℝ := 2 * rd / N / 2 ^ i.level

/-- The coordinate on axis `a` of the point that lies `x` cells after the lower corner of the block `i`. -/
noncomputable def coordinate (rd : ℝ) (N : Nat) (i : Index 2) (a : Fin 2) (x : ℝ) : ℝ := -rd + (i.coords a * N + x) * cellSize rd N i

/-- The middle of a cell. -/
noncomputable def cellCenter (rd : ℝ) (N : Nat) (i : Index 2) (x y : Nat) : ℝ × ℝ :=
  (coordinate rd N i 0 (x + 1 / 2), coordinate rd N i 1 (y + 1 / 2))

/-- The grid of the solver data: the vertices, centers and areas of the cells of a tree of blocks that covers the domain, and a buffer
rate and initial data on the same blocks. -/
structure MeshData (lin : Bool) (m : SolverData) (D N : Nat) : Prop where
  shaped : Shaped m.vertices D N
  blockSize : m.blockSize = N
  radius : 0 < m.params.domainRadius
  vertices : Blocks m.vertices m.vertices (N + 1) (N + 1) fun i x y =>
    (coordinate m.params.domainRadius N i 0 x, coordinate m.params.domainRadius N i 1 y)
  centers : Blocks m.vertices m.centers N N (cellCenter m.params.domainRadius N)
  areas : Blocks m.vertices m.areas N N fun i _ _ => cellSize m.params.domainRadius N i ^ 2
  buffer : ∃ f, Blocks m.vertices m.bufferRate N N f
  initial : ∃ f, Blocks m.vertices (if lin then m.initialU else m.initialQ) N N f

/-- The sum of `F` over all cells of a tree of blocks with `N` times `N` cells. -/
noncomputable def cellSum {β K : Type} [AddCommMonoid K] (T : Verif.Tree.Tree 2 β) (N : Nat) (F : Index 2 → Nat → Nat → K) : K :=
  leafSum T fun i _ => ∑ x ∈ Finset.range N, ∑ y ∈ Finset.range N, F i x y

/-- What flows out of the domain along axis `a` (in at the lower edge counts negative): `g i x y` is the flux through the face `x` along
the axis and `y` along the other one of the block `i`. -/
noncomputable def outflow {β : Type} (T : Verif.Tree.Tree 2 β) (N : Nat) (a : Fin 2) (g : Index 2 → Nat → Nat → Tri) : Tri :=
  leafSum T (fun i _ => if AtUpper a i then ∑ y ∈ Finset.range N, g i N y else 0) -
    leafSum T (fun i _ => if AtLower a i then ∑ y ∈ Finset.range N, g i 0 y else 0)

/-- Both bodies have mass, and the Mach number and the softening length are not zero. -/
structure Physical (s : Params) (b : TwoBody.State) : Prop where
  mach : s.mach ≠ 0
  softening : s.softening ≠ 0
  mass1 : 0 < b.body1.mass
  mass2 : 0 < b.body2.mass

/-- A state of the run: `f i x y` are the conserved quantities in the cells, of positive density, and `b` is the binary at this time.  In the
mode that conserves angular momentum the radii must not be zero: no cell has its middle at the origin. -/
structure StateData (lin : Bool) (m : SolverData) (N : Nat) (s : Solution) (f : Index 2 → Nat → Nat → Tri) (b : TwoBody.State) : Prop where
  blocks : Blocks m.vertices (cons lin s) N N f
  density : ∀ i c, LeafAt m.vertices i c → ∀ x, x < N → ∀ y, y < N → 0 < (f i x y).a
  bodies : TwoBody.fullTwoBodyState s.orbit s.time = .ok b
  physical : Physical m.params b
  sink : m.params.sinkRadius ≠ 0
  ramp : lin = false → m.params.gstSuppr ≠ 0
  offCenter : lin = false → ∀ i c, LeafAt m.vertices i c → i.level ≠ 0 ∨ N % 2 = 0

/-- The acceleration by a body of mass `B.mass` with softened gravity. -/
noncomputable def pull (eps : ℝ) (B : TwoBody.PointMass) (p : ℝ × ℝ) : ℝ × ℝ :=
  let d3 := ((p.1 - B.x) ^ 2 + (p.2 - B.y) ^ 2 + eps ^ 2) ^ (3 / 2 : ℝ)
  (-(B.mass * (p.1 - B.x) / d3), -(B.mass * (p.2 - B.y) / d3))

/-- The rate at which a body takes up gas. -/
noncomputable def drain (rate radius : ℝ) (B : TwoBody.PointMass) (p : ℝ × ℝ) : ℝ :=
  rate * Real.exp (-(((p.1 - B.x) ^ 2 + (p.2 - B.y) ^ 2) / (2 * radius ^ 2)))

/-- The angular momentum per area of conserved quantities at the position `p`: it is among them in the angular momentum conserving mode. -/
noncomputable def lz (lin : Bool) (u : Tri) (p : ℝ × ℝ) : ℝ := if lin then p.1 * u.c - p.2 * u.b else u.c

/-- The momentum per area of conserved quantities at the position `p`. -/
noncomputable def momentum (lin : Bool) (u : Tri) (p : ℝ × ℝ) : ℝ × ℝ :=
  if lin then (u.b, u.c) else ((u.b * p.1 - u.c * p.2) / (p.1 ^ 2 + p.2 ^ 2), (u.b * p.2 + u.c * p.1) / (p.1 ^ 2 + p.2 ^ 2))

/-- The source of conserved quantities by a force `f` per area at the position `p`. -/
noncomputable def forceSource (lin : Bool) (p f : ℝ × ℝ) : Tri :=
  if lin then ⟨0, f.1, f.2⟩ else ⟨0, p.1 * f.1 + p.2 * f.2, p.1 * f.2 - p.2 * f.1⟩

/-- The integral over the disk of a quantity that depends on the conserved quantities `f` and the position. -/
noncomputable def diskIntegral (m : SolverData) (N : Nat) (f : Index 2 → Nat → Nat → Tri) (F : Tri → ℝ × ℝ → ℝ) : ℝ :=
  cellSum m.vertices N fun i x y => F (f i x y) (cellCenter m.params.domainRadius N i x y) * cellSize m.params.domainRadius N i ^ 2

/-- A tree of blocks of `N` times `N` cells, divided as `T`, in which no density is negative. -/
def NonNegative {β : Type} (T : Verif.Tree.Tree 2 β) (N : Nat) (t : Quad Tri) : Prop :=
  ∃ f : Index 2 → Nat → Nat → Tri, Blocks T t N N f ∧ ∀ i c, LeafAt T i c → ∀ x, x < N → ∀ y, y < N → 0 ≤ (f i x y).a

/-- The fluxes of the step, and `gx`, `gy` are their values at the faces of the blocks. -/
def StepFluxes (sh : Nat → Outcome Nat) (fuel : Nat) (z : Fin 9 → Bool) (m : SolverData) (s : Solution) (safe : Bool) (N : Nat)
    (gx gy : Index 2 → Nat → Nat → Tri) : Prop :=
  ∃ p0 b fx fy, stepFluxes sh fuel z m.conserveLinear m s safe = .ok (p0, b, fx, fy) ∧
    (∀ i B, LeafAt fx i B → Along 0 B (N + 1) N (gx i)) ∧ ∀ i B, LeafAt fy i B → Along 1 B (N + 1) N (gy i)

end Verif.Binary
