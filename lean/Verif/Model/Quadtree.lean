import Verif.Model.Tree
import Verif.Model.Prolong
import Mathlib.Analysis.Real.Sqrt
import Mathlib.Algebra.Module.Prod

/-!
# Balancing and reading trees of blocks (`mesh_tree_operators.hpp`)
-/

namespace Verif.Tree
open Verif Verif.Seq Verif.Nd

variable {R : Nat} {α β K : Type} (sh : Nat → Outcome Nat)

/-- `core_tree.hpp:576-583` `map` with a function that may fail. -/
def Tree.mapM (f : α → Outcome β) : Tree R α → Outcome (Tree R β)
  | .leaf a => (f a).map .leaf
  | .node c => (Tree.sequence fun k => (c k).mapM f).map .node

/-- `core_tree.hpp:837-845` `bifurcate_if` with a function that may fail. -/
def Tree.bifurcateIfM (p : α → Bool) (f : α → Outcome (Seq (2 ^ R) α)) : Tree R α → Outcome (Tree R α)
  | .leaf a => if p a then (f a).map Tree.treeOf else .ok (.leaf a)
  | .node c => (Tree.sequence fun k => (c k).bifurcateIfM p f).map .node

/-- `mesh_tree_operators.hpp:95-98`: `tree.contains_node(j) && tree.node_at(j).depth() > 1`. -/
def deepNode (t : Tree R α) (j : Index R) : Outcome Bool :=
  (t.containsNode sh j).bind fun b =>
  if b then (t.nodeAt sh j).map fun u => decide (u.depth > 1) else .ok false

/-- `mesh_tree_operators.hpp:93-99`: the function mapped over the indexes, with short-circuit `||`. -/
def hasDeepNeighbour (t : Tree R α) (i : Index R) : Outcome Bool :=
  ((i.nextOn sh 0).bind (deepNode sh t)).bind fun b => if b then .ok true else
  ((i.prevOn sh 0).bind (deepNode sh t)).bind fun b => if b then .ok true else
  ((i.nextOn sh 1).bind (deepNode sh t)).bind fun b => if b then .ok true else
  (i.prevOn sh 1).bind (deepNode sh t)

/-- `mesh_tree_operators.hpp:90-101` `over_refined_neighbors`. -/
def overRefinedNeighbours (t : Tree 2 α) : Outcome (Tree 2 Bool) :=
  Tree.mapM (hasDeepNeighbour sh t) (t.indexes ⟨0, fun _ => 0⟩)

/-- `mesh_tree_operators.hpp:115-139` `ensure_valid_quadtree`, for blocks of any type and the function `refine`
that divides one block (131). The function calls itself; more calls than `fuel` are the outcome `diverges`. -/
def ensureValidQuadtree (refine : α → Outcome (Seq (2 ^ 2) α)) : Nat → Tree 2 α → Outcome (Tree 2 α)
  | 0, _ => .diverges
  | fuel + 1, t =>
    (overRefinedNeighbours sh t).bind fun flags =>
    (flags.pair t).bind fun p =>
    (p.bifurcateIfM (fun z => z.1) fun z => (refine z.2).map fun y k => (z.1, y k)).bind fun q =>
    (overRefinedNeighbours sh (q.map fun z => z.2)).bind fun again =>
    if again.any then ensureValidQuadtree refine fuel (q.map fun z => z.2) else .ok (q.map fun z => z.2)

/-- `mesh_tree_operators.hpp:131, 186`: `(value | refine_verts<2>()).map(nd::to_shared())`. -/
def refineVertsSharedBy [Inhabited K] (mid : K → K → K) (b : Arr 2 K) : Outcome (Seq (2 ^ 2) (Arr 2 K)) :=
  Tree.sequence fun n => (refineVertsBy mid n b).bind evaluate

/-- The same for elements of a vector space. -/
def refineVertsShared (k : Type) [Field k] [AddCommGroup K] [Module k K] [Inhabited K] (b : Arr 2 K) :
    Outcome (Seq (2 ^ 2) (Arr 2 K)) :=
  refineVertsSharedBy (fun l u => (2 : k)⁻¹ • (l + u)) b

/-- `core_ndarray.hpp:1677-1686` `cartesian_product` of two arrays of rank one; `size()` is the volume, which is
the extent here. -/
def cartesianProduct (x : Arr 1 α) (y : Arr 1 β) : Arr 2 (α × β) :=
  ⟨![x.shape 0, y.shape 0], fun i => (x.get fun _ => i 0).bind fun a => (y.get fun _ => i 1).bind fun b => .ok (a, b)⟩

/-- `mesh_tree_operators.hpp:164-168`: the distance of the centroid of a block from the origin. -/
noncomputable def centroidRadius (nx ny : Nat) (b : Arr 2 (ℝ × ℝ)) : Outcome ℝ :=
  (b.get ![0, 0]).bind fun p =>
  (b.get ![nx, ny]).bind fun q =>
  .ok (Real.sqrt (((p.1 + q.1) / 2) * ((p.1 + q.1) / 2) + ((p.2 + q.2) / 2) * ((p.2 + q.2) / 2)))

/-- `core_tree.hpp:837-845` `bifurcate_if` where the predicate may fail as well. -/
def Tree.bifurcateIfMM (p : α → Outcome Bool) (f : α → Outcome (Seq (2 ^ R) α)) : Tree R α → Outcome (Tree R α)
  | .leaf a => (p a).bind fun b => if b then (f a).map Tree.treeOf else .ok (.leaf a)
  | .node c => (Tree.sequence fun k => (c k).bifurcateIfMM p f).map .node

/-- `mesh_tree_operators.hpp:178-188`: the loop, after `n` rounds. The predicate is a pure function. -/
def refineLoopBy [Inhabited K] (mid : K → K → K) (radius : Arr 2 K → Outcome β) (predicate : Nat → β → Bool) :
    Nat → Tree 2 (Arr 2 K) → Outcome (Tree 2 (Arr 2 K))
  | 0, t => .ok t
  | n + 1, t =>
    (refineLoopBy mid radius predicate n t).bind fun t =>
    t.bifurcateIfMM (fun b => (radius b).map (predicate n)) (refineVertsSharedBy mid)

/-- The same in real numbers. -/
noncomputable def refineLoop (predicate : Nat → ℝ → Bool) (nx ny : Nat) :
    Nat → Tree 2 (Arr 2 (ℝ × ℝ)) → Outcome (Tree 2 (Arr 2 (ℝ × ℝ))) :=
  refineLoopBy (fun l u => (2 : ℝ)⁻¹ • (l + u)) (centroidRadius nx ny) predicate

/-- `mesh_tree_operators.hpp:170-175`: the block of the root. -/
noncomputable def rootBlock (nx ny : Nat) : Outcome (Arr 2 (ℝ × ℝ)) :=
  evaluate (cartesianProduct (linspace (-1) 1 (w (nx + 1))) (linspace (-1) 1 (w (ny + 1))))

/-- `mesh_tree_operators.hpp:158-190` `create_vertex_quadtree` in any arithmetic, from the block of the root; `fuel` is for
`ensure_valid_quadtree`. -/
def createVertexQuadtreeBy [Inhabited K] (mid : K → K → K) (radius : Arr 2 K → Outcome β) (predicate : Nat → β → Bool)
    (root : Outcome (Arr 2 K)) (depth fuel : Nat) : Outcome (Tree 2 (Arr 2 K)) :=
  root.bind fun b =>
  (refineLoopBy mid radius predicate depth (.leaf b)).bind fun t =>
  ensureValidQuadtree sh (refineVertsSharedBy mid) fuel t

/-- The same in real numbers. -/
noncomputable def createVertexQuadtree (predicate : Nat → ℝ → Bool) (nx ny depth fuel : Nat) :
    Outcome (Tree 2 (Arr 2 (ℝ × ℝ))) :=
  createVertexQuadtreeBy sh (fun l u => (2 : ℝ)⁻¹ • (l + u)) (centroidRadius nx ny) predicate (rootBlock nx ny) depth fuel

/-- `mesh_tree_operators.hpp:248-251, 288-291`: exceptions become `std::invalid_argument`. -/
def rethrow (x : Outcome α) : Outcome α :=
  match x with
  | .throws _ => .throws .invalidArgument
  | x => x

/-- `mesh_tree_operators.hpp:244, 284`: reading the blocks of the children; only the numbers below `2^R` are used. -/
def childBlocks (get : Index R → Outcome (Arr R K)) (i : Index R) : Outcome (Nat → Arr R K) :=
  (Tree.sequence fun k => get (i.childIndexes k)).map fun c n =>
    c ⟨n % 2 ^ R, Nat.mod_lt _ (Nat.two_pow_pos R)⟩

/-- `mesh_tree_operators.hpp:223-252` `get_cell_block`, with `nd::to_shared` for the last operator. The function
calls itself for the children of the index; more nested calls than `fuel` are the outcome `diverges`. -/
def getCellBlock (k : Type) [Field k] [AddCommGroup K] [Module k K] [Inhabited K] (t : Tree (R + 1) (Arr (R + 1) K)) :
    Nat → Index (R + 1) → Outcome (Arr (R + 1) K)
  | 0, _ => .diverges
  | fuel + 1, i => rethrow (
    (t.contains sh i).bind fun b =>
    if b then (t.at' sh i).bind evaluate else
    (t.contains sh i.parentIndex).bind fun b =>
    if b then
      (i.relativeToParent.orthant sh).bind fun o =>
      (t.at' sh i.parentIndex).bind fun B =>
      (refineCells (toIntegral o) B).bind evaluate
    else
      (childBlocks (getCellBlock k t fuel) i).bind fun c =>
      (combineCells c).bind fun B =>
      (coarsenCells k B).bind evaluate)

/-- `mesh_tree_operators.hpp:263-292` `get_vertex_block`. -/
def getVertexBlock (k : Type) [Field k] [AddCommGroup K] [Module k K] [Inhabited K] (t : Tree (R + 1) (Arr (R + 1) K)) :
    Nat → Index (R + 1) → Outcome (Arr (R + 1) K)
  | 0, _ => .diverges
  | fuel + 1, i => rethrow (
    (t.contains sh i).bind fun b =>
    if b then t.at' sh i else
    (t.contains sh i.parentIndex).bind fun b =>
    if b then
      (i.relativeToParent.orthant sh).bind fun o =>
      (t.at' sh i.parentIndex).bind fun B =>
      (refineVerts k (toIntegral o) B).bind evaluate
    else
      (childBlocks (getVertexBlock k t fuel) i).bind fun c =>
      (combineVerts c).bind fun B =>
      (coarsenVerts B).bind evaluate)

end Verif.Tree
