import Verif.Lemmas.QuadtreeLookup
import Verif.Props.Quadtree

/-!
# C19: reading the neighbouring blocks in a balanced tree

`Shift sh` includes the C++ standard, where a shift by more than 30 is undefined. `TotalShift sh` describes machines where
such a shift gives some number.
-/

namespace Verif.Tree
open Verif Verif.Seq Verif.Nd

variable {R : Nat} {α K : Type} {k : Type} [Field k] [AddCommGroup K] [Module k K] {sh : Nat → Outcome Nat}

theorem rethrow_ok (x : α) : rethrow (.ok x) = .ok x := rfl

/-- C19: the block at the index of a leaf is the block of the leaf. -/
theorem get_cell_block_leaf [Inhabited K] (hs : Shift sh) (t : Tree (R + 1) (Arr (R + 1) K)) (j : Index (R + 1))
    (hl : j.level ≤ 30) (b : Arr (R + 1) K) (hj : LeafAt t j b) (s : Ix (R + 1)) (f : Ix (R + 1) → K)
    (hs1 : ∀ a, 1 ≤ s a) (hc : count s < 2 ^ 31) (hb : Denotes b s f) (fuel : Nat) :
    ∃ B, getCellBlock sh k t (fuel + 1) j = .ok B ∧ Denotes B s f := by
  obtain ⟨B, h1, h2⟩ := evaluate_partial _ _ _ hb (.inl fun a => hs1 a) hc
  refine ⟨B, ?_, h2⟩
  obtain ⟨h3, h4⟩ := contains_leaf hs hj (by omega)
  rw [getCellBlock, h3, Outcome.bind_ok, if_pos rfl, h4, Outcome.bind_ok, h1, rethrow_ok]

/-- C19: the block at the index of a child of a leaf has the shape of the leaf's block; each of its cells has the
value of the cell of the leaf that contains it. -/
theorem get_cell_block_coarser [Inhabited K] (hs : Shift sh) (t : Tree (R + 1) (Arr (R + 1) K)) (j : Index (R + 1))
    (hl : j.level ≤ 30) (h0 : j.level ≠ 0) (hv : j.Valid) (b : Arr (R + 1) K) (hj : LeafAt t j.parentIndex b)
    (s : Ix (R + 1)) (f : Ix (R + 1) → K) (hs1 : ∀ a, 1 ≤ s a) (hc : count s < 2 ^ 31) (hb : Denotes b s f)
    (fuel : Nat) :
    ∃ B, getCellBlock sh k t (fuel + 1) j = .ok B ∧
      Denotes B s fun p => f fun a => (p a + j.coords a % 2 * s a) / 2 := by
  have hlt := lt_of_count hs1 hc
  obtain ⟨C, h1, d1⟩ := refineCells_denotes hb (fun a => by have := hlt a; omega)
    (toIntegral fun a => decide (j.coords a % 2 = 1))
  obtain ⟨B, h2, d2⟩ := evaluate_partial _ _ _ d1 (.inl fun a => hs1 a) hc
  have hpl : j.parentIndex.level + 1 = j.level := by
    simp only [Index.parentIndex]
    obtain ⟨l, hl'⟩ : ∃ l, j.level = l + 1 := ⟨j.level - 1, by omega⟩
    rw [hl', decr_succ (by omega)]
  have hjc : j = j.parentIndex.child (toIntegral fun a => decide (j.coords a % 2 = 1)) := by
    ext a
    · simp only [Index.child]; omega
    · simp only [Index.child, toIntegral_testBit, Index.parentIndex]
      have := Nat.div_add_mod (j.coords a) 2
      rcases Nat.mod_two_eq_zero_or_one (j.coords a) with h | h <;> simp [h] <;> omega
  have h3 : t.contains sh j = .ok false := by
    rw [hjc]; exact contains_below_leaf hs hj _ (by omega)
  obtain ⟨h4, h5⟩ := contains_leaf hs hj (by omega)
  refine ⟨B, ?_, d2.congr rfl fun p _ => ?_⟩
  · rw [getCellBlock, h3, Outcome.bind_ok, if_neg (by decide), h4, Outcome.bind_ok, if_pos rfl, orthant_relative hs,
      Outcome.bind_ok, h5, Outcome.bind_ok, h1, Outcome.bind_ok, h2, rethrow_ok]
  · congr 1; funext a
    rw [toIntegral_testBit]
    rcases Nat.mod_two_eq_zero_or_one (j.coords a) with h | h <;> simp [h]

/-- C19: where a cell is divided into leaves, the block at its index has the shape of their blocks; each of
its cells has the mean value of the `2^rank` cells of the leaves that make it up. The leaves side by side are twice as
many cells on every axis: cell `q` of them is the cell `q a % s a` of the leaf whose number has the bits `s a ≤ q a`. -/
theorem get_cell_block_finer_partial [Inhabited K] (hs : TotalShift sh) (t : Tree (R + 1) (Arr (R + 1) K)) (D : Nat)
    (hD : DepthLe t D) (h30 : D ≤ 30) (j : Index (R + 1)) (c : Fin (2 ^ (R + 1)) → Arr (R + 1) K)
    (hj : NodeAt t j (.node fun n => .leaf (c n))) (s : Ix (R + 1)) (g : Fin (2 ^ (R + 1)) → Ix (R + 1) → K)
    (hs1 : ∀ a, 1 ≤ s a) (hc : count s < 2 ^ 31) (hb : ∀ n, Denotes (c n) s (g n)) (fuel : Nat) :
    ∃ B, getCellBlock sh k t (fuel + 2) j = .ok B ∧
      Denotes B s fun p => ((2 : k)⁻¹) ^ (R + 1) • ∑ n ∈ Finset.range (2 ^ (R + 1)),
        g ⟨toIntegral fun a => decide (s a ≤ 2 * p a + (n.testBit a).toNat), toIntegral_lt _⟩
          fun a => (2 * p a + (n.testBit a).toNat) % s a := by
  have hlt := lt_of_count hs1 hc
  have hleaf : ∀ n : Fin (2 ^ (R + 1)), LeafAt t (j.child n) (c n) := fun n => nodeAt_child hj n
  have hlev : j.level + 1 ≤ 30 := by
    have := hD _ _ (hleaf Tree.first)
    simp only [Index.child] at this; omega
  choose C h1 d1 using fun n : Fin (2 ^ (R + 1)) => get_cell_block_leaf (k := k) hs.1 t (j.child n) hlev (c n)
    (hleaf n) s (g n) hs1 hc (hb n) fuel
  obtain ⟨h3, h4⟩ := contains_interior hs ⟨_, hj⟩ D hD h30
  obtain ⟨P, h5, d5⟩ := combineCells_blocks
    (fun n => C ⟨n % 2 ^ (R + 1), Nat.mod_lt _ (Nat.two_pow_pos _)⟩) s
    (fun n => g ⟨n % 2 ^ (R + 1), Nat.mod_lt _ (Nat.two_pow_pos _)⟩) hs1 (fun a => by have := hlt a; omega)
    (fun n => d1 _) (fun n => by simp only [Nat.mod_mod])
  obtain ⟨Q, h6, d6⟩ := coarsenCells_mean (k := k) hs1 (fun a => by have := hlt a; omega) d5
  obtain ⟨B, h7, d7⟩ := evaluate_partial _ _ _ d6 (.inl fun a => hs1 a) hc
  refine ⟨B, ?_, d7.congr rfl fun p _ => ?_⟩
  · rw [getCellBlock, h3, Outcome.bind_ok, if_neg (by decide), h4, Outcome.bind_ok, if_neg (by decide),
      childBlocks_ok hj.valid (by omega) h1, Outcome.bind_ok, h5, Outcome.bind_ok, h6, Outcome.bind_ok, h7, rethrow_ok]
  · refine congrArg _ (Finset.sum_congr rfl fun n _ => ?_)
    have : ∀ x : Fin (2 ^ (R + 1)), (⟨x % 2 ^ (R + 1), Nat.mod_lt _ (Nat.two_pow_pos _)⟩ : Fin (2 ^ (R + 1))) = x :=
      fun x => Fin.ext (Nat.mod_eq_of_lt x.2)
    rw [← this ⟨toIntegral fun a => decide (s a ≤ 2 * p a + (n.testBit a).toNat), toIntegral_lt _⟩]

/-- C19: in a balanced tree of blocks of equal shape, the blocks at every leaf and at all neighbouring indexes
can be read, and have this shape. -/
theorem get_cell_block_partial [Inhabited K] (hs : TotalShift sh) (t : Tree (R + 1) (Arr (R + 1) K)) (D : Nat)
    (hD : DepthLe t D) (h30 : D ≤ 30) (hbal : Balanced t) (s : Ix (R + 1)) (hs1 : ∀ a, 1 ≤ s a)
    (hc : count s < 2 ^ 31) (hb : ∀ i b, LeafAt t i b → ∃ f, Denotes b s f) (i j : Index (R + 1)) (a : Arr (R + 1) K)
    (hi : LeafAt t i a) (hj : j = i ∨ Neighbour i j ∧ j.Valid) (fuel : Nat) :
    ∃ B f, getCellBlock sh k t (fuel + 2) j = .ok B ∧ Denotes B s f := by
  have hil := hD i a hi
  have hjl : j.level = i.level := by
    rcases hj with rfl | h
    · rfl
    · exact h.1.1.symm
  have hjv : j.Valid := by
    rcases hj with rfl | h
    · exact hi.valid
    · exact h.2
  rcases neighbour_node hbal hi (by omega) hj with ⟨b, h⟩ | ⟨b, n, h, _, h0⟩ | ⟨c, h⟩
  · obtain ⟨f, hf⟩ := hb j b h
    obtain ⟨B, h1, h2⟩ := get_cell_block_leaf (k := k) hs.1 t j (by omega) b h s f hs1 hc hf (fuel + 1)
    exact ⟨B, _, h1, h2⟩
  · obtain ⟨f, hf⟩ := hb _ b h
    obtain ⟨B, h1, h2⟩ := get_cell_block_coarser (k := k) hs.1 t j (by omega) h0 hjv b h s f hs1 hc hf (fuel + 1)
    exact ⟨B, _, h1, h2⟩
  · choose g hg using fun n : Fin (2 ^ (R + 1)) => hb _ _ (nodeAt_child h n)
    obtain ⟨B, h1, h2⟩ := get_cell_block_finer_partial (k := k) hs t D hD h30 j c h s g hs1 hc hg fuel
    exact ⟨B, _, h1, h2⟩

/-- C19: in a balanced mesh the block of vertices at every leaf and all neighbouring indexes is the grid of that
cell. -/
theorem get_vertex_block_partial (hs : TotalShift sh) (t : Tree 2 (Arr 2 (ℝ × ℝ))) (D : Nat) (hD : DepthLe t D)
    (h30 : D ≤ 30) (hbal : Balanced t) (nx ny : Nat) (hx : 1 ≤ nx) (hy : 1 ≤ ny) (hc : (nx + 1) * (ny + 1) < 2 ^ 31)
    (hg : ∀ i b, LeafAt t i b → IsGrid nx ny i b) (i j : Index 2) (a : Arr 2 (ℝ × ℝ)) (hi : LeafAt t i a)
    (hj : j = i ∨ Neighbour i j ∧ j.Valid) (fuel : Nat) :
    ∃ B, getVertexBlock sh ℝ t (fuel + 2) j = .ok B ∧ IsGrid nx ny j B := by
  have hs1 : ∀ a, 1 ≤ (![nx + 1, ny + 1] : Ix 2) a := by
    intro a; match a with
    | 0 => simp
    | 1 => simp
  have hcount : count (![nx + 1, ny + 1] : Ix 2) < 2 ^ 31 := by unfold count; simpa using hc
  have hlt := lt_of_count hs1 hcount
  have hil := hD i a hi
  have hjl : j.level = i.level := by
    rcases hj with rfl | h
    · rfl
    · exact h.1.1.symm
  have hleafread : ∀ (m : Index 2) b, LeafAt t m b → m.level ≤ 31 → ∀ fuel, getVertexBlock sh ℝ t (fuel + 1) m = .ok b := by
    intro m b hm hml fuel
    obtain ⟨h3, h4⟩ := contains_leaf hs.1 hm hml
    rw [getVertexBlock, h3, Outcome.bind_ok, if_pos rfl, h4, rethrow_ok]
  rcases neighbour_node hbal hi (by omega) hj with ⟨b, h⟩ | ⟨b, n, h, hjn, h0⟩ | ⟨c, h⟩
  · exact ⟨b, hleafread j b h (by omega) _, hg j b h⟩
  · obtain ⟨P, p, h1, d1, h2⟩ := refine_grid hx hy hc (hg _ _ h)
    have hpl : j.parentIndex.level + 1 = j.level := by
      simp only [Index.parentIndex]
      obtain ⟨l, hl'⟩ : ∃ l, j.level = l + 1 := ⟨j.level - 1, by omega⟩
      rw [hl', decr_succ (by omega)]
    obtain ⟨C, h3, d3⟩ := refineVerts_denotes h1 d1 hs1 (fun a => by have := hlt a; omega)
      (toIntegral fun a => decide (j.coords a % 2 = 1))
    obtain ⟨B, h4, d4⟩ := evaluate_partial _ _ _ d3 (.inl fun a => hs1 a) hcount
    have hjc : j.parentIndex.child (toIntegral fun a => decide (j.coords a % 2 = 1)) = j := by
      ext a
      · simp only [Index.child]; omega
      · simp only [Index.child, toIntegral_testBit, Index.parentIndex]
        have := Nat.div_add_mod (j.coords a) 2
        rcases Nat.mod_two_eq_zero_or_one (j.coords a) with h | h <;> simp [h] <;> omega
    have h5 : t.contains sh j = .ok false := by
      rw [← hjc]; exact contains_below_leaf hs.1 h _ (by omega)
    obtain ⟨h6, h7⟩ := contains_leaf hs.1 h (by omega)
    have h8 := h2 _ _ d4
    rw [hjc] at h8
    refine ⟨B, ?_, h8⟩
    rw [getVertexBlock, h5, Outcome.bind_ok, if_neg (by decide), h6, Outcome.bind_ok, if_pos rfl,
      orthant_relative hs.1, Outcome.bind_ok, h7, Outcome.bind_ok, h3, Outcome.bind_ok, h4, rethrow_ok]
  · have hleaf : ∀ n : Fin (2 ^ 2), LeafAt t (j.child n) (c n) := fun n => nodeAt_child h n
    have hlev : j.level + 1 ≤ 30 := by
      have := hD _ _ (hleaf Tree.first)
      simp only [Index.child] at this; omega
    obtain ⟨h3, h4⟩ := contains_interior hs ⟨_, h⟩ D hD h30
    have hxr : (nx : ℝ) ≠ 0 := by positivity
    have hyr : (ny : ℝ) ≠ 0 := by positivity
    obtain ⟨P, h5, d5⟩ := combineVerts_blocks (by norm_num)
      (fun n => c ⟨n % 2 ^ 2, Nat.mod_lt _ (Nat.two_pow_pos _)⟩) ![nx + 1, ny + 1]
      (fun p => (-1 + 2 * (((2 * j.coords 0 : Nat) : ℝ) + p 0 / nx) / 2 ^ (j.level + 1),
        -1 + 2 * (((2 * j.coords 1 : Nat) : ℝ) + p 1 / ny) / 2 ^ (j.level + 1))) hs1
      (fun a => by have := hlt a; omega) (fun n => by
        refine (hg _ _ (hleaf ⟨n % 2 ^ 2, Nat.mod_lt _ (Nat.two_pow_pos _)⟩)).congr rfl fun p _ => ?_
        have e0 : (n % 2 ^ 2).testBit 0 = n.testBit 0 := by rw [Nat.testBit_mod_two_pow]; simp
        have e1 : (n % 2 ^ 2).testBit 1 = n.testBit 1 := by rw [Nat.testBit_mod_two_pow]; simp
        refine Prod.ext ?_ ?_
        · simp only [Index.child, Fin.val_zero, e0]
          by_cases hb : n.testBit 0 = true
          · simp [hb]; field_simp; ring
          · simp [hb]
        · simp only [Index.child, Fin.val_one, e1]
          by_cases hb : n.testBit 1 = true
          · simp [hb]; field_simp; ring
          · simp [hb])
    obtain ⟨Q, h6, d6⟩ := restrictVerts_all d5 (fun a => by have := hlt a; omega)
      (fun a => by have := hs1 a; omega)
    have d6' := d6.congr (t := ![nx + 1, ny + 1]) (by funext a; have := hs1 a; omega) (fun _ _ => rfl)
    obtain ⟨B, h7, d7⟩ := evaluate_partial _ _ _ d6' (.inl fun a => hs1 a) hcount
    refine ⟨B, ?_, d7.congr rfl fun p _ => ?_⟩
    · rw [getVertexBlock, h3, Outcome.bind_ok, if_neg (by decide), h4, Outcome.bind_ok, if_neg (by decide),
        childBlocks_ok h.valid (by omega) (fun n => hleafread _ _ (hleaf n) (by simp only [Index.child]; omega) fuel),
        Outcome.bind_ok, h5, Outcome.bind_ok, h6, Outcome.bind_ok, h7, rethrow_ok]
    · refine Prod.ext ?_ ?_
      · simp only [Nat.cast_mul, Nat.cast_ofNat, pow_succ]; field_simp
      · simp only [Nat.cast_mul, Nat.cast_ofNat, pow_succ]; field_simp

/-- VIOLATION: by the C++ standard, reading the block at the index of a divided cell is undefined, with the
blocks as above: the code asks the tree whether it contains the index. -/
theorem get_cell_block_finer_violated [Inhabited K] (t : Tree (R + 1) (Arr (R + 1) K)) (j : Index (R + 1))
    (hl : j.level ≤ 31) (hi : InteriorAt t j) (fuel : Nat) : getCellBlock shl1 k t (fuel + 1) j = .ub := by
  rw [getCellBlock, tree_contains_interior_ub t j hl hi]
  rfl

theorem sequence_diverges {n : Nat} (h : 0 < n) : Tree.sequence (fun _ : Fin n => (.diverges : Outcome α)) = .diverges := by
  cases n with
  | zero => omega
  | succ n => rfl

/-- VIOLATION: reading a block two or more levels below a leaf is documented to throw; it calls itself without end. -/
theorem get_cell_block_over_refined_violated [Inhabited K] (b : Arr (R + 1) K) (fuel : Nat) (j : Index (R + 1))
    (hj : 2 ≤ j.level) (hf : j.level + fuel < 2 ^ 64) : getCellBlock sh k (.leaf b) fuel j = .diverges := by
  induction fuel generalizing j with
  | zero => rfl
  | succ fuel ih =>
    obtain ⟨l, hl⟩ : ∃ l, j.level = l + 2 := ⟨j.level - 2, by omega⟩
    have h1 : (Tree.leaf b).contains sh j = .ok false := by simp [Tree.contains, hl]
    have h2 : (Tree.leaf b).contains sh j.parentIndex = .ok false := by
      simp only [Tree.contains, Index.parentIndex, hl, decr_succ (show l + 1 < 2 ^ 64 by omega)]
      simp
    have h3 : childBlocks (getCellBlock sh k (.leaf b) fuel) j = .diverges := by
      unfold childBlocks
      have : (fun n => getCellBlock sh k (.leaf b) fuel (j.childIndexes n)) =
          fun _ : Fin (2 ^ (R + 1)) => .diverges := by
        funext n
        exact ih _ (by simp only [Index.childIndexes]; omega) (by simp only [Index.childIndexes]; omega)
      rw [this]
      rw [sequence_diverges (Nat.two_pow_pos _)]
      rfl
    rw [getCellBlock, h1, Outcome.bind_ok, if_neg (by decide), h2, Outcome.bind_ok, if_neg (by decide), h3]
    rfl

/-! ## Examples -/

/-- A block of two by three cells, all with the same value. -/
def exBlock (x : ℚ) : Arr 2 ℚ := ⟨![2, 3], fun _ => .ok x⟩

/-- Four leaves; the first one is divided again. -/
def exMesh : Tree 2 (Arr 2 ℚ) :=
  .node fun n => if n = 0 then .node (fun m => .leaf (exBlock m)) else .leaf (exBlock (10 * n))

theorem exMesh_leaf {i : Index 2} {b : Arr 2 ℚ} (h : LeafAt exMesh i b) :
    1 ≤ i.level ∧ i.level ≤ 2 ∧ ∃ x, b = exBlock x := by
  obtain ⟨n, j, rfl, hj⟩ := leafAt_node.1 h
  by_cases h0 : n = 0
  · rw [if_pos h0] at hj
    obtain ⟨m, l, rfl, hl⟩ := leafAt_node.1 hj
    obtain ⟨rfl, rfl⟩ := leafAt_leaf.1 hl
    exact ⟨by simp [Index.descend], by simp [Index.descend, Index.root], _, rfl⟩
  · rw [if_neg h0] at hj
    obtain ⟨rfl, rfl⟩ := leafAt_leaf.1 hj
    exact ⟨by simp [Index.descend], by simp [Index.descend, Index.root], _, rfl⟩

theorem exMesh_balanced : Balanced exMesh := by
  rintro i a hi ⟨j, _, _, l, b, hl, _, hlt⟩
  have := (exMesh_leaf hi).1
  have := (exMesh_leaf hl).2.1
  omega

/-- A machine with wide registers. -/
def exShift (n : Nat) : Outcome Nat := .ok (2 ^ n)

theorem exShift_total : TotalShift exShift := ⟨fun _ _ => rfl, fun n => ⟨2 ^ n, rfl, (Nat.two_pow_pos n).ne'⟩⟩

/-- The neighbour on the left of the second leaf is the divided cell. -/
example : ∃ B f, getCellBlock exShift ℚ exMesh (0 + 2) ⟨1, ![0, 0]⟩ = .ok B ∧ Denotes B ![2, 3] f := by
  have h1 : LeafAt exMesh ⟨1, ![1, 0]⟩ (exBlock (10 * ((1 : Fin (2 ^ 2)) : Nat))) := by
    have e : (⟨1, ![1, 0]⟩ : Index 2) = Index.descend ((1 : Fin (2 ^ 2)) : Nat) Index.root := by
      ext a
      · rfl
      · match a with
        | 0 => rfl
        | 1 => rfl
    rw [e]
    exact .inChild _ 1 _ _ (.here _)
  have h2 : Neighbour (⟨1, ![1, 0]⟩ : Index 2) ⟨1, ![0, 0]⟩ := by
    refine ⟨rfl, 0, fun b hb => ?_, .inr rfl⟩
    match b with
    | 0 => exact absurd rfl hb
    | 1 => rfl
  have h3 : Index.Valid (⟨1, ![0, 0]⟩ : Index 2) := fun a => by
    match a with
    | 0 => simp
    | 1 => simp
  exact get_cell_block_partial (R := 1) exShift_total exMesh 2 (fun i b h => (exMesh_leaf h).2.1) (by norm_num)
    exMesh_balanced ![2, 3]
    (fun a => by match a with
      | 0 => simp
      | 1 => simp)
    (by unfold count; simp) (fun i b h => by
      obtain ⟨x, rfl⟩ := (exMesh_leaf h).2.2
      exact ⟨fun _ => x, rfl, fun _ _ => rfl⟩) _ _ _ h1 (.inr ⟨h2, h3⟩) 0

/-- The neighbour on the right of a leaf at level two is inside a leaf at level one. -/
example : ∃ B, getCellBlock shl1 ℚ exMesh (0 + 1) ⟨2, ![2, 1]⟩ = .ok B ∧
    Denotes B ![2, 3] fun _ => 10 := by
  have h1 : LeafAt exMesh (Index.parentIndex ⟨2, ![2, 1]⟩) (exBlock (10 * ((1 : Fin (2 ^ 2)) : Nat))) := by
    have e : Index.parentIndex (⟨2, ![2, 1]⟩ : Index 2) = Index.descend ((1 : Fin (2 ^ 2)) : Nat) Index.root := by
      ext a
      · show decr 2 = 1
        decide
      · match a with
        | 0 => rfl
        | 1 => rfl
    rw [e]
    exact .inChild _ 1 _ _ (.here _)
  obtain ⟨B, h2, h3⟩ := get_cell_block_coarser (R := 1) (k := ℚ) shl1_shift exMesh ⟨2, ![2, 1]⟩ (by norm_num) (by norm_num)
    (fun a => by match a with
      | 0 => simp
      | 1 => simp) _ h1 ![2, 3] (fun _ => 10)
    (fun a => by match a with
      | 0 => simp
      | 1 => simp) (by unfold count; simp) ⟨rfl, fun _ _ => by simp [exBlock]⟩ 0
  exact ⟨B, h2, h3⟩

/-- Every mesh that is created can be read at the neighbours of its leaves. -/
example (predicate : Nat → ℝ → Bool) : ∃ N r, (∀ fuel, N ≤ fuel → createVertexQuadtree exShift predicate 4 8 5 fuel = .ok r) ∧
    ∀ i a j, LeafAt r i a → Neighbour i j → j.Valid → ∃ B, getVertexBlock exShift ℝ r 2 j = .ok B ∧ IsGrid 4 8 j B := by
  obtain ⟨N, r, h1, h2, h3, h4, _⟩ := create_vertex_quadtree exShift_total.1 predicate 4 8 5 (by norm_num) (by norm_num)
    (by norm_num) (by norm_num)
  exact ⟨N, r, h1, fun i a j hi hn hv => get_vertex_block_partial exShift_total r 5 h3 (by norm_num) h2 4 8 (by norm_num)
    (by norm_num) (by norm_num) h4 i j a hi (.inr ⟨hn, hv⟩) 0⟩

/-- `get_cell_block_leaf`: a leaf of the mesh is returned as it is. -/
example : ∃ B, getCellBlock shl1 ℚ exMesh (0 + 1) ⟨1, ![1, 0]⟩ = .ok B ∧ Denotes B ![2, 3] fun _ => 10 := by
  have h1 : LeafAt exMesh ⟨1, ![1, 0]⟩ (exBlock (10 * ((1 : Fin (2 ^ 2)) : Nat))) := by
    have e : (⟨1, ![1, 0]⟩ : Index 2) = Index.descend ((1 : Fin (2 ^ 2)) : Nat) Index.root := by
      ext a
      · rfl
      · match a with
        | 0 => rfl
        | 1 => rfl
    rw [e]
    exact .inChild _ 1 _ _ (.here _)
  exact get_cell_block_leaf (R := 1) (k := ℚ) shl1_shift exMesh _ (by norm_num) _ h1 ![2, 3] (fun _ => 10)
    (by decide) (by decide) ⟨rfl, fun _ _ => by norm_num [exBlock]⟩ 0

/-- `get_cell_block_finer_partial`: the divided cell is restricted from its four children. -/
example : ∃ B, getCellBlock exShift ℚ exMesh (0 + 2) ⟨1, ![0, 0]⟩ = .ok B ∧
    Denotes B ![2, 3] fun p => ((2 : ℚ)⁻¹) ^ 2 • ∑ n ∈ Finset.range (2 ^ 2),
      ((toIntegral fun a : Fin 2 => decide (![2, 3] a ≤ 2 * p a + (n.testBit a).toNat) : Nat) : ℚ) := by
  have h1 : NodeAt exMesh ⟨1, ![0, 0]⟩ (.node fun m => .leaf (exBlock ((m : Nat) : ℚ))) := by
    have e : (⟨1, ![0, 0]⟩ : Index 2) = Index.descend ((0 : Fin (2 ^ 2)) : Nat) Index.root := by
      ext a
      · rfl
      · match a with
        | 0 => rfl
        | 1 => rfl
    rw [e]
    exact .inChild _ 0 _ _ (.here _)
  exact get_cell_block_finer_partial (R := 1) (k := ℚ) exShift_total exMesh 2
    (fun i a h => (exMesh_leaf h).2.1) (by norm_num) _ _ h1 ![2, 3] (fun n _ => ((n : Nat) : ℚ))
    (by decide) (by decide) (fun n => ⟨rfl, fun _ _ => rfl⟩) 0

end Verif.Tree
