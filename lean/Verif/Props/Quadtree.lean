import Verif.Lemmas.QuadtreeBlocks

/-!
# C17, C18, C79: balancing and creating quadtrees

`Balanced`, `Refines`, `Divided` and `IsGrid` are in `Verif/Spec/Quadtree.lean`. Trees are at most 30 levels deep:
the code computes `1 << level` for an `int` one.
-/

namespace Verif.Tree
open Verif Verif.Seq Verif.Nd

variable {α K : Type} {k : Type} [Field k] [AddCommGroup K] [Module k K] {sh : Nat → Outcome Nat}

/-- C17: balancing a tree of blocks of equal shape ends, without exception. The result is balanced, no deeper than
the tree, subdivides it, is the coarsest balanced tree that does so, and its blocks arise from the blocks of the tree by
division. -/
theorem ensure_valid_quadtree [Inhabited K] (hs : Shift sh) (h2 : (2 : k) ≠ 0) (t : Tree 2 (Arr 2 K)) (D : Nat)
    (hD : DepthLe t D) (h30 : D ≤ 30) (s : Ix 2) (hs1 : ∀ a, 1 ≤ s a) (hc : count s < 2 ^ 31)
    (hb : ∀ i b, LeafAt t i b → ∃ f, Denotes b s f) :
    ∃ N r, (∀ fuel, N ≤ fuel → ensureValidQuadtree sh (refineVertsShared k) fuel t = .ok r) ∧
      Balanced r ∧ DepthLe r D ∧ Refines r t ∧
      (∀ (β : Type) (u : Tree 2 β), Balanced u → Refines u t → Refines u r) ∧
      (∀ i b, LeafAt r i b → (∃ f, Denotes b s f) ∧
        ∃ j a, LeafAt t j a ∧ Divided (refineVertsShared k) j a i b) ∧
      (Balanced t → r = t) := by
  obtain ⟨N, r, h1, h3, h4, h5, h6, h7, h8⟩ := ensureValid_code hs (refineVertsShared k) D h30
    (fun i b => (∃ f, Denotes b s f) ∧ ∃ j a, LeafAt t j a ∧ Divided (refineVertsShared k) j a i b)
    (fun i b _ _ ⟨⟨f, hf⟩, j, a, hj, hd⟩ => by
      obtain ⟨c, hc1, hc2⟩ := refineVertsShared_shape h2 hf hs1 hc
      exact ⟨c, hc1, fun n => ⟨hc2 n, j, a, hj, .child i b c n hd hc1⟩⟩)
    ((2 ^ 2) ^ D + 1) t (by omega) hD (fun i b h => ⟨hb i b h, i, b, h, .same⟩)
  exact ⟨N, r, h1, h3, h4, h6, h8, h5, h7⟩

/-! ## C18 -/

theorem centroidRadius_grid {nx ny : Nat} (hx : 1 ≤ nx) (hy : 1 ≤ ny) {i : Index 2} {b : Arr 2 (ℝ × ℝ)} (hg : IsGrid nx ny i b) :
    centroidRadius nx ny b = .ok (cellRadius i) := by
  unfold centroidRadius
  rw [hg.2 ![0, 0] (fun a => by match a with
    | 0 => simp
    | 1 => simp), hg.2 ![nx, ny] (fun a => by match a with
    | 0 => simp
    | 1 => simp)]
  have hx' : (nx : ℝ) ≠ 0 := by positivity
  have hy' : (ny : ℝ) ≠ 0 := by positivity
  simp only [Outcome.bind_ok]
  refine congrArg Outcome.ok ?_
  unfold cellRadius
  congr 1
  simp only [Matrix.cons_val_zero, Matrix.cons_val_one, Matrix.cons_val_fin_one, div_self hx', div_self hy', Nat.cast_zero, zero_div]
  ring

/-- The loop, with a property of the indexes of the leaves. -/
theorem refineLoop_code (predicate : Nat → ℝ → Bool) {nx ny : Nat} (hx : 1 ≤ nx) (hy : 1 ≤ ny)
    (hc : (nx + 1) * (ny + 1) < 2 ^ 31) (t : Tree 2 (Arr 2 (ℝ × ℝ))) (ht : DepthLe t 0)
    (hg : ∀ i b, LeafAt t i b → IsGrid nx ny i b) (Q : Nat → Index 2 → Prop) (hQ0 : ∀ i b, LeafAt t i b → Q 0 i)
    (hQ1 : ∀ n i, i.level ≤ n → Q n i → predicate n (cellRadius i) = false → Q (n + 1) i)
    (hQ2 : ∀ n i (k : Fin (2 ^ 2)), i.level ≤ n → Q n i → predicate n (cellRadius i) = true → Q (n + 1) (i.child (Fin.val k))) (n : Nat) :
    ∃ r, refineLoop predicate nx ny n t = .ok r ∧ DepthLe r n ∧ (∀ i b, LeafAt r i b → IsGrid nx ny i b) ∧
      ∀ i b, LeafAt r i b → Q n i := by
  induction n with
  | zero => exact ⟨t, rfl, ht, hg, hQ0⟩
  | succ n ih =>
    obtain ⟨r, h1, h2, h3, h9⟩ := ih
    have hdiv : ∀ b, ∃ c, ∀ i, LeafAt r i b → refineVertsShared ℝ b = .ok c ∧ ∀ m, IsGrid nx ny (i.child (Fin.val m)) (c m) := by
      intro b
      have hs : ∀ a, 1 ≤ (![nx + 1, ny + 1] : Ix 2) a := by
        intro a; match a with
        | 0 => simp
        | 1 => simp
      have hcount : count (![nx + 1, ny + 1] : Ix 2) < 2 ^ 31 := by unfold count; simpa using hc
      by_cases h : ∃ i, LeafAt r i b
      · obtain ⟨i, hi⟩ := h
        obtain ⟨P, p, h4, h5, h6⟩ := refine_grid hx hy hc (h3 i b hi)
        obtain ⟨c, h7, h8⟩ := refineVertsShared_denotes h4 h5 hs hcount
        refine ⟨c, fun i' hi' => ⟨h7, fun m => ?_⟩⟩
        obtain ⟨P', p', h4', h5', h6'⟩ := refine_grid hx hy hc (h3 i' b hi')
        obtain ⟨c', h7', h8'⟩ := refineVertsShared_denotes h4' h5' hs hcount
        rw [h7] at h7'
        rw [Outcome.ok.inj h7']
        exact h6' m _ (h8' m)
      · exact ⟨fun _ => b, fun i hi => absurd ⟨i, hi⟩ h⟩
    choose g hg1 using hdiv
    have hrad : ∀ b, ∃ ρ, ∀ i, LeafAt r i b → centroidRadius nx ny b = .ok ρ ∧ ρ = cellRadius i := by
      intro b
      by_cases h : ∃ i, LeafAt r i b
      · obtain ⟨i, hi⟩ := h
        refine ⟨cellRadius i, fun j hj => ⟨centroidRadius_grid hx hy (h3 i b hi), ?_⟩⟩
        have h4 := centroidRadius_grid hx hy (h3 i b hi)
        rw [centroidRadius_grid hx hy (h3 j b hj)] at h4
        exact (Outcome.ok.inj h4).symm
      · exact ⟨0, fun i hi => absurd ⟨i, hi⟩ h⟩
    choose ρ hρ using hrad
    have hb := bifurcateIfMM_ok (t := r) (p := fun b => (centroidRadius nx ny b).map (predicate n))
      (q := fun b => predicate n (ρ b)) (f := refineVertsShared ℝ) (g := g)
      (fun i b hi => by rw [(hρ b i hi).1]; rfl) (fun i b hi _ => (hg1 b i hi).1)
    refine ⟨_, by rw [refineLoop_succ, h1, Outcome.bind_ok, hb], fun i b hi => ?_, fun i b hi => ?_, fun i b hi => ?_⟩
    · rcases (tree_bifurcate_if _ _ _ _ _).1 hi with ⟨h, _⟩ | ⟨j, a, m, h, _, rfl, rfl⟩
      · have := h2 i b h; omega
      · have := h2 j a h; simp only [Index.child]; omega
    · rcases (tree_bifurcate_if _ _ _ _ _).1 hi with ⟨h, _⟩ | ⟨j, a, m, h, _, rfl, rfl⟩
      · exact h3 i b h
      · exact (hg1 a j h).2 m
    · rcases (tree_bifurcate_if _ _ _ _ _).1 hi with ⟨h, hq⟩ | ⟨j, a, m, h, hq, rfl, rfl⟩
      · exact hQ1 n i (h2 i b h) (h9 i b h) (by rw [← (hρ b i h).2]; exact hq)
      · exact hQ2 n j m (h2 j a h) (h9 j a h) (by rw [← (hρ a j h).2]; exact hq)

theorem rootBlock_grid {nx ny : Nat} (hx : 1 ≤ nx) (hy : 1 ≤ ny) (hc : (nx + 1) * (ny + 1) < 2 ^ 31) :
    ∃ b, rootBlock nx ny = .ok b ∧ IsGrid nx ny Index.root b := by
  have hs : ∀ a, 1 ≤ (![nx + 1, ny + 1] : Ix 2) a := by
    intro a; match a with
    | 0 => simp
    | 1 => simp
  have hcount : count (![nx + 1, ny + 1] : Ix 2) < 2 ^ 31 := by unfold count; simpa using hc
  have hlt := lt_of_count hs hcount
  have hx' : nx + 1 < 2 ^ 31 := hlt 0
  have hy' : ny + 1 < 2 ^ 31 := hlt 1
  have ex : w (nx + 1) = nx + 1 := w_eq (by omega)
  have ey : w (ny + 1) = ny + 1 := w_eq (by omega)
  have exs : wsub (nx + 1) 1 = nx := wsub_eq (by omega) (by omega)
  have eys : wsub (ny + 1) 1 = ny := wsub_eq (by omega) (by omega)
  have hd : IsGrid nx ny Index.root (cartesianProduct (linspace (-1) 1 (w (nx + 1))) (linspace (-1) 1 (w (ny + 1)))) := by
    rw [ex, ey]
    refine ⟨rfl, fun p _ => ?_⟩
    simp only [cartesianProduct, linspace, Outcome.bind_ok, exs, eys, Index.root]
    refine congrArg Outcome.ok (Prod.ext ?_ ?_)
    · simp only [Nat.cast_zero, pow_zero, zero_add, div_one]; ring
    · simp only [Nat.cast_zero, pow_zero, zero_add, div_one]; ring
  obtain ⟨B, h1, h2⟩ := evaluate_partial _ _ _ hd (.inl fun a => hs a) hcount
  exact ⟨B, h1, h2⟩

/-- C18: whatever the predicate says, the mesh is created; it is balanced, at most as deep as requested, and every
block is the grid of its cell.  If the predicate holds everywhere in one of the rounds, the mesh is divided. -/
theorem create_vertex_quadtree (hs : Shift sh) (predicate : Nat → ℝ → Bool) (nx ny depth : Nat) (hx : 1 ≤ nx)
    (hy : 1 ≤ ny) (hc : (nx + 1) * (ny + 1) < 2 ^ 31) (h30 : depth ≤ 30) :
    ∃ N r, (∀ fuel, N ≤ fuel → createVertexQuadtree sh predicate nx ny depth fuel = .ok r) ∧
      Balanced r ∧ DepthLe r depth ∧ (∀ i b, LeafAt r i b → IsGrid nx ny i b) ∧
      ((∃ l, l < depth ∧ ∀ ρ, predicate l ρ = true) → ∀ i b, LeafAt r i b → 1 ≤ i.level) := by
  obtain ⟨b, h1, h2⟩ := rootBlock_grid hx hy hc
  obtain ⟨t, h3, h4, h5, h9'⟩ := refineLoop_code predicate hx hy hc (.leaf b) (fun i a h => by
    rw [(leafAt_leaf.1 h).1]; exact le_rfl) (fun i a h => by
    obtain ⟨rfl, rfl⟩ := leafAt_leaf.1 h; exact h2)
    (fun n i => (∃ l, l < n ∧ ∀ ρ, predicate l ρ = true) → 1 ≤ i.level) (fun i a _ ⟨l, hl, _⟩ => absurd hl (by omega))
    (fun n i _ hq hp ⟨l, hl, ht⟩ => by
      by_cases hln : l = n
      · rw [← hln, ht] at hp
        cases hp
      · exact hq ⟨l, by omega, ht⟩)
    (fun n i k _ _ _ _ => by simp only [Index.child]; omega) depth
  have h9 : (∃ l, l < depth ∧ ∀ ρ, predicate l ρ = true) → ∀ i b, LeafAt t i b → 1 ≤ i.level := fun h i b hi => h9' i b hi h
  have hsh : ∀ a, 1 ≤ (![nx + 1, ny + 1] : Ix 2) a := by
    intro a; match a with
    | 0 => simp
    | 1 => simp
  have hcount : count (![nx + 1, ny + 1] : Ix 2) < 2 ^ 31 := by unfold count; simpa using hc
  obtain ⟨N, r, g1, g2, g3, g4, g5, _⟩ := ensureValid_code hs (refineVertsShared ℝ) depth h30
    (fun i b => IsGrid nx ny i b)
    (fun i b _ _ hb => by
      obtain ⟨P, p, h4, h5, h6⟩ := refine_grid hx hy hc hb
      obtain ⟨c, h7, h8⟩ := refineVertsShared_denotes h4 h5 hsh hcount
      exact ⟨c, h7, fun m => h6 m _ (h8 m)⟩)
    ((2 ^ 2) ^ depth + 1) t (by omega) h4 h5
  refine ⟨N, r, fun fuel hf => ?_, g2, g3, g4, fun hp i b hi => ?_⟩
  swap
  · obtain ⟨j, a, hj, m, _, rfl⟩ := g5 i b hi
    have := h9 hp j a hj
    simp only [Index.within]
    omega
  rw [createVertexQuadtree_eq]
  rw [h1, Outcome.bind_ok, h3, Outcome.bind_ok, g1 fuel hf]

/-! ## C79 -/

/-- VIOLATION: the predicate is asked about a level that is not the level of the block. A predicate that refuses to
divide blocks of level zero, and of all levels but one, does not keep the root, of level zero, from being divided. -/
theorem create_quadtree_level_violated (hs : Shift sh) (nx ny : Nat) (hx : 1 ≤ nx) (hy : 1 ≤ ny)
    (hc : (nx + 1) * (ny + 1) < 2 ^ 31) :
    ∃ (predicate : Nat → ℝ → Bool), (∀ ρ, predicate 0 ρ = false) ∧
      ∃ N r, (∀ fuel, N ≤ fuel → createVertexQuadtree sh predicate nx ny 2 fuel = .ok r) ∧
        InteriorAt r Index.root := by
  refine ⟨fun l _ => l == 1, fun _ => rfl, ?_⟩
  obtain ⟨N, r, h1, _, h3, h4⟩ := create_vertex_quadtree hs (fun l _ => l == 1) nx ny 2 hx hy hc (by norm_num)
  refine ⟨N, r, h1, ?_⟩
  obtain ⟨b, hb, hg⟩ := rootBlock_grid hx hy hc
  have hsh : ∀ a, 1 ≤ (![nx + 1, ny + 1] : Ix 2) a := by
    intro a; match a with
    | 0 => simp
    | 1 => simp
  have hcount : count (![nx + 1, ny + 1] : Ix 2) < 2 ^ 31 := by unfold count; simpa using hc
  obtain ⟨P, p, h4, h5, h6⟩ := refine_grid hx hy hc hg
  obtain ⟨c, h7, h8⟩ := refineVertsShared_denotes h4 h5 hsh hcount
  have hrad : ∃ ρ, centroidRadius nx ny b = .ok ρ := by
    unfold centroidRadius
    rw [hg.2 ![0, 0] (fun a => by match a with
      | 0 => simp
      | 1 => simp), hg.2 ![nx, ny] (fun a => by match a with
      | 0 => simp
      | 1 => simp)]
    exact ⟨_, rfl⟩
  obtain ⟨ρ, hρ⟩ := hrad
  have hloop : refineLoop (fun l _ => l == 1) nx ny 2 (.leaf b) = .ok (Tree.treeOf c) := by
    rw [refineLoop_succ, refineLoop_succ, show refineLoop (fun l _ => l == 1) nx ny 0 (.leaf b) = .ok (.leaf b) from rfl]
    simp only [Outcome.bind_ok, Tree.bifurcateIfMM, hρ, Outcome.map_ok, h7,
      show ((0 : Nat) == 1) = false from rfl, show ((1 : Nat) == 1) = true from rfl]
    rw [if_neg (by decide), Outcome.bind_ok]
    simp only [Tree.bifurcateIfMM, hρ, h7, Outcome.map_ok, Outcome.bind_ok, if_true]
  have hr := h1 (N + 1) (by omega)
  rw [createVertexQuadtree_eq] at hr
  rw [hb, Outcome.bind_ok, hloop, Outcome.bind_ok] at hr
  obtain ⟨N', r', g1, _, _, _, g5, _⟩ := ensureValid_code hs (refineVertsShared ℝ) 1 (by norm_num)
    (fun i b => IsGrid nx ny i b)
    (fun i b _ _ hb => by
      obtain ⟨P, p, h4, h5, h6⟩ := refine_grid hx hy hc hb
      obtain ⟨c, h7, h8⟩ := refineVertsShared_denotes h4 h5 hsh hcount
      exact ⟨c, h7, fun m => h6 m _ (h8 m)⟩)
    ((2 ^ 2) ^ 1 + 1) (Tree.treeOf c) (by omega) (fun i a h => by
      obtain ⟨m, j, rfl, hj⟩ := leafAt_node.1 h
      rw [(leafAt_leaf.1 hj).1]; exact le_rfl) (fun i a h => by
      obtain ⟨m, j, rfl, hj⟩ := leafAt_node.1 h
      obtain ⟨rfl, rfl⟩ := leafAt_leaf.1 hj
      have := h6 m _ (h8 m)
      have e : Index.descend (Fin.val m) (Index.root : Index 2) = (Index.root : Index 2).child m := by
        ext a <;> simp [Index.descend, Index.root, Index.child]
      rw [e]; exact this)
  have hN := h1 (N + N') (by omega)
  rw [createVertexQuadtree_eq] at hN
  rw [hb, Outcome.bind_ok, hloop, Outcome.bind_ok, g1 _ (by omega)] at hN
  rw [← Outcome.ok.inj hN]
  obtain ⟨i, a, hi⟩ := exists_leaf r'
  obtain ⟨j, d, hj, hin⟩ := g5 i a hi
  obtain ⟨m, j', rfl, hj'⟩ := leafAt_node.1 hj
  refine interior_of_leaf_inside hi (inside_root.2 hi.valid) ?_
  rintro rfl
  exact not_root_inside_descend hin

/-! ## Examples -/

/-- A block of two by three vertices, all with the same value. -/
def exVerts (x : ℚ) : Arr 2 ℚ := ⟨![2, 3], fun _ => .ok x⟩

/-- Divided three times at its first cell, so that it is not balanced. -/
def exDeep : Tree 2 (Arr 2 ℚ) :=
  .node fun n => if n = 0 then .node (fun m => if m = 0 then .node (fun l => .leaf (exVerts l)) else .leaf (exVerts 7))
    else .leaf (exVerts (10 * n))

theorem exDeep_leaf {i : Index 2} {b : Arr 2 ℚ} (h : LeafAt exDeep i b) : i.level ≤ 3 ∧ ∃ x, b = exVerts x := by
  obtain ⟨n, j, rfl, hj⟩ := leafAt_node.1 h
  by_cases h0 : n = 0
  · rw [if_pos h0] at hj
    obtain ⟨m, l, rfl, hl⟩ := leafAt_node.1 hj
    by_cases h1 : m = 0
    · rw [if_pos h1] at hl
      obtain ⟨q, l', rfl, hl'⟩ := leafAt_node.1 hl
      obtain ⟨rfl, rfl⟩ := leafAt_leaf.1 hl'
      exact ⟨by simp [Index.descend, Index.root], _, rfl⟩
    · rw [if_neg h1] at hl
      obtain ⟨rfl, rfl⟩ := leafAt_leaf.1 hl
      exact ⟨by simp [Index.descend, Index.root], _, rfl⟩
  · rw [if_neg h0] at hj
    obtain ⟨rfl, rfl⟩ := leafAt_leaf.1 hj
    exact ⟨by simp [Index.descend, Index.root], _, rfl⟩

/-- By the periodic boundary, the second of the four cells is a neighbour of the first, which has leaves at level three. -/
theorem exDeep_unbalanced : ¬ Balanced exDeep := by
  intro h
  have e1 : LeafAt exDeep (Index.descend ((1 : Fin (2 ^ 2)) : Nat) Index.root) (exVerts (10 * ((1 : Fin (2 ^ 2)) : Nat))) :=
    .inChild _ 1 _ _ (.here _)
  have e0 : LeafAt exDeep (Index.descend ((0 : Fin (2 ^ 2)) : Nat) (Index.descend ((0 : Fin (2 ^ 2)) : Nat)
      (Index.descend ((0 : Fin (2 ^ 2)) : Nat) Index.root))) (exVerts ((0 : Fin (2 ^ 2)) : Nat)) :=
    .inChild _ 0 _ _ (.inChild _ 0 _ _ (.inChild _ 0 _ _ (.here _)))
  refine h _ _ e1 ⟨⟨1, fun _ => 0⟩, ⟨rfl, 0, ?_, .inr rfl⟩, fun a => by simp, _, _, e0, ?_, by decide⟩
  · intro b hb
    match b with
    | 0 => exact absurd rfl hb
    | 1 => rfl
  · refine ⟨⟨2, fun _ => 0⟩, fun a => by simp, ?_⟩
    ext a
    · rfl
    · simp [Index.descend, Index.root, Index.within]

example : ∃ N r, (∀ fuel, N ≤ fuel → ensureValidQuadtree shl1 (refineVertsShared ℚ) fuel exDeep = .ok r) ∧
    Balanced r ∧ DepthLe r 3 ∧ Refines r exDeep := by
  obtain ⟨N, r, h1, h2, h3, h4, _⟩ := ensure_valid_quadtree (k := ℚ) shl1_shift (by norm_num) exDeep 3
    (fun i b h => (exDeep_leaf h).1) (by norm_num) ![2, 3]
    (fun a => by match a with
      | 0 => simp
      | 1 => simp) (by unfold count; simp) (fun i b h => by
      obtain ⟨x, rfl⟩ := (exDeep_leaf h).2
      exact ⟨fun _ => x, rfl, fun _ _ => rfl⟩)
  exact ⟨N, r, h1, h2, h3, h4⟩

example : ∃ N r, (∀ fuel, N ≤ fuel → createVertexQuadtree shl1 (fun _ ρ => decide (ρ < 1)) 4 8 5 fuel = .ok r) ∧
    Balanced r ∧ DepthLe r 5 ∧ (∀ i b, LeafAt r i b → IsGrid 4 8 i b) ∧
    ((∃ l, l < 5 ∧ ∀ ρ, (fun _ ρ => decide (ρ < 1) : Nat → ℝ → Bool) l ρ = true) → ∀ i b, LeafAt r i b → 1 ≤ i.level) :=
  create_vertex_quadtree shl1_shift _ 4 8 5 (by norm_num) (by norm_num) (by norm_num) (by norm_num)

end Verif.Tree
