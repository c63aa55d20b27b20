import Verif.Lemmas.Tree2

/-!
# C08 - C14: trees

The vocabulary is `LeafAt t i a` (the tree has the leaf value `a` in the cell `i`), `NodeAt`,
`InteriorAt`, `leaves` (depth first list of leaf values), all from `Verif/Spec/Tree.lean`.
`Shift sh` is the assumption that `1 << n` is `2^n` for `n ≤ 30`; `shl1` is the C++ standard.
-/

namespace Verif.Tree
open Verif Verif.Seq

variable {R : Nat} {α β γ : Type} {sh : Nat → Outcome Nat}

/-! ## C08 lookup and enumeration -/

/-- A tree has at most one leaf per cell, cells of leaves are valid, and leaf cells determine the
tree. -/
theorem tree_leaf_cells (t u : Tree R α) :
    (∀ i a b, LeafAt t i a → LeafAt t i b → a = b ∧ i.Valid) ∧
    ((∀ i a, LeafAt t i a ↔ LeafAt u i a) → t = u) := by
  refine ⟨fun i a b h h' => ⟨?_, h.valid⟩, tree_eq_of_leafAt⟩
  have := nodeAt_unique h h'
  injection this

/-- The leaf cells do not overlap: a leaf cell inside another leaf cell is that cell. -/
theorem tree_leaf_disjoint (t : Tree R α) (i j : Index R) (a b : α) (hi : LeafAt t i a)
    (hj : LeafAt t j b) (h : i.Inside j) : i = j := by
  induction t generalizing i j with
  | leaf c =>
    rw [(leafAt_leaf.1 hi).1, (leafAt_leaf.1 hj).1]
  | node c ih =>
    obtain ⟨k, i', rfl, hi'⟩ := leafAt_node.1 hi
    obtain ⟨m, j', rfl, hj'⟩ := leafAt_node.1 hj
    obtain ⟨rfl, h'⟩ := (inside_descend hi'.valid hj'.valid).1 h
    rw [ih k i' j' hi' hj' h']

/-- The leaf cells cover everything: every valid cell at least as deep as the tree lies inside
exactly one leaf cell. -/
theorem tree_leaf_cover (t : Tree R α) (D : Nat) (hD : DepthLe t D) (i : Index R) (hv : i.Valid)
    (hl : D ≤ i.level) : ∃ j, (∃ a, LeafAt t j a ∧ i.Inside j) ∧
      ∀ j', (∃ a, LeafAt t j' a ∧ i.Inside j') → j' = j := by
  induction t generalizing D i with
  | leaf c =>
    refine ⟨Index.root, ⟨c, .here _, inside_root.2 hv⟩, ?_⟩
    rintro j' ⟨a, h, _⟩
    exact (leafAt_leaf.1 h).1
  | node c ih =>
    obtain ⟨l, x⟩ := i
    obtain ⟨D', rfl, _⟩ := depthLe_child hD Tree.first
    obtain ⟨l, rfl⟩ : ∃ l', l = l' + 1 := ⟨l - 1, by simp only at hl; omega⟩
    have hvr := valid_rest hv
    have hD' : DepthLe (c (topChild l x)) D' := by
      obtain ⟨D'', h, h'⟩ := depthLe_child hD (topChild l x)
      have : D'' = D' := by omega
      subst this; exact h'
    obtain ⟨j, ⟨a, h1, h2⟩, hu⟩ := ih (topChild l x) D' hD' (rest l x) hvr (by
      simp only [rest] at *; omega)
    rw [← descend_top l x]
    refine ⟨Index.descend (topChild l x) j, ⟨a, leafAt_node.2 ⟨_, _, rfl, h1⟩,
      (inside_descend hvr h1.valid).2 ⟨rfl, h2⟩⟩, ?_⟩
    rintro j' ⟨b, hb, hi⟩
    obtain ⟨m, j'', rfl, hb'⟩ := leafAt_node.1 hb
    obtain ⟨rfl, hi'⟩ := (inside_descend hvr hb'.valid).1 hi
    rw [hu j'' ⟨b, hb', hi'⟩]

/-- Enumerating the indexes: valid, pairwise distinct, in the order of the leaf values (each index is
the cell of the corresponding value), and exactly the cells of leaves. -/
theorem tree_indexes (t : Tree R α) (D : Nat) (hD : DepthLe t D) (h : D < 64) :
    let is := (t.indexes Index.root).sink
    is.Nodup ∧ (∀ i ∈ is, i.Valid) ∧ List.Forall₂ (LeafAt t) is t.sink ∧
    (∀ i, i ∈ is ↔ ∃ a, LeafAt t i a) ∧
    (∀ i v, LeafAt (t.indexes Index.root) i v ↔ v = i ∧ ∃ a, LeafAt t i a) := by
  have hr : (Index.root : Index R).Valid := fun a => by simp [Index.root]
  have hp : (paths t).map Index.root.within = paths t := by
    conv_rhs => rw [← List.map_id (paths t)]
    exact List.map_congr_left fun i _ => root_within i
  have e : (t.indexes Index.root).sink = paths t := by
    rw [sink_eq_leaves, leaves_indexes t Index.root hr D hD (by simpa [Index.root] using h), hp]
  simp only [e]
  refine ⟨nodup_paths t, fun i hi => valid_of_mem_paths hi, ?_, fun i => mem_paths, ?_⟩
  · rw [sink_eq_leaves]; exact forall₂_paths t
  · intro i v
    rw [leafAt_indexes t Index.root hr D hD (by simpa [Index.root] using h), root_within]
    exact and_comm

/-- Iterating over the values visits the leaves depth first. -/
theorem tree_sink (t : Tree R α) : t.sink = leaves t := sink_eq_leaves t

/-- Lookup: `at` returns a value exactly when that is the leaf value at the index; on a subdivided
cell it throws `bad_variant_access`, otherwise `out_of_range`. -/
theorem tree_at (hs : Shift sh) (t : Tree R α) (i : Index R) (hl : i.level ≤ 31) :
    (∀ a, t.at' sh i = .ok a ↔ LeafAt t i a) ∧
    (InteriorAt t i → t.at' sh i = .throws .badVariantAccess) ∧
    ((¬ ∃ u, NodeAt t i u) → t.at' sh i = .throws .outOfRange) := by
  unfold Tree.at'
  rcases nodeAt_code hs t i hl with ⟨u, hu, hn⟩ | ⟨hu, hn⟩
  · rw [hu]
    simp only [Outcome.bind_ok]
    refine ⟨fun a => ?_, ?_, fun h => absurd ⟨u, hn⟩ h⟩
    · cases u with
      | leaf b =>
        simp only [Tree.value, Outcome.ok.injEq]
        constructor
        · rintro rfl; exact hn
        · intro h; have := nodeAt_unique h hn; injection this with this; exact this.symm
      | node c =>
        simp only [Tree.value, reduceCtorEq, false_iff]
        intro h
        cases nodeAt_unique h hn
    · rintro ⟨c, hc⟩
      rw [nodeAt_unique hn hc]; rfl
  · rw [hu]
    refine ⟨fun a => ?_, ?_, fun _ => rfl⟩
    · simp only [Outcome.bind_throws, reduceCtorEq, false_iff]
      exact fun h => hn ⟨_, h⟩
    · rintro ⟨c, hc⟩; exact absurd ⟨_, hc⟩ hn

/-- `node_at` and `contains_node` find exactly the nodes of the tree. -/
theorem tree_node_at (hs : Shift sh) (t : Tree R α) (i : Index R) (hl : i.level ≤ 31) :
    (∀ u, t.nodeAt sh i = .ok u ↔ NodeAt t i u) ∧
    ((¬ ∃ u, NodeAt t i u) → t.nodeAt sh i = .throws .outOfRange) ∧
    ∃ b, t.containsNode sh i = .ok b ∧ (b = true ↔ ∃ u, NodeAt t i u) := by
  refine ⟨fun u => ?_, fun h => ?_, containsNode_code hs t i hl⟩
  · rcases nodeAt_code hs t i hl with ⟨v, hv, hn⟩ | ⟨hv, hn⟩
    · rw [hv]
      constructor
      · rintro h; injection h with h; subst h; exact hn
      · intro h; rw [nodeAt_unique h hn]
    · rw [hv]
      simp only [reduceCtorEq, false_iff]
      exact fun h => hn ⟨u, h⟩
  · rcases nodeAt_code hs t i hl with ⟨v, hv, hn⟩ | ⟨hv, hn⟩
    · exact absurd ⟨v, hn⟩ h
    · exact hv

/-- PARTIAL (the full claim "the tree contains an index exactly when it is a leaf cell, for every
valid index" fails for subdivided cells, see `tree_contains_interior_ub`): on every valid cell that is
not subdivided in the tree, `contains` tells whether it is a leaf cell. -/
theorem tree_contains_partial (hs : Shift sh) (t : Tree R α) (i : Index R) (hv : i.Valid)
    (hl : i.level ≤ 31) (hi : ¬ InteriorAt t i) :
    ∃ b, t.contains sh i = .ok b ∧ (b = true ↔ ∃ a, LeafAt t i a) :=
  contains_code hs t i hl hv hi

/-- VIOLATION: asking whether a tree contains the index of a subdivided cell is undefined behaviour:
the code goes on below level zero and shifts by `2^64 - 1`. -/
theorem tree_contains_interior_ub (t : Tree R α) (i : Index R) (hl : i.level ≤ 31)
    (hi : InteriorAt t i) : t.contains shl1 i = .ub := by
  induction t generalizing i with
  | leaf a =>
    obtain ⟨c, hc⟩ := hi
    cases (nodeAt_leaf.1 hc).2
  | node c ih =>
    unfold Tree.contains
    obtain ⟨l, x⟩ := i
    cases l with
    | zero =>
      have : decr 0 = 2 ^ 64 - 1 := by decide
      simp [Index.orthant, this, shl1]
    | succ l =>
      have hl' : l ≤ 30 := by simp only at hl; omega
      rw [orthant_eq shl1_shift hl', advance_eq shl1_shift hl']
      simp only [Outcome.bind_ok, childAt_eq]
      obtain ⟨d, hd⟩ := hi
      exact ih (topChild l x) (rest l x) (by simp only [rest]; omega) ⟨d, nodeAt_node_succ.1 hd⟩

/-- A platform on which every shift yields some non-zero value. -/
def TotalShift (sh : Nat → Outcome Nat) : Prop := Shift sh ∧ ∀ n, ∃ s, sh n = .ok s ∧ s ≠ 0

theorem contains_zero_deep (hs : TotalShift sh) (t : Tree R α) (L D : Nat) (hD : DepthLe t D)
    (hL : D < L) (h64 : L < 2 ^ 64) : t.contains sh ⟨L, fun _ => 0⟩ = .ok false := by
  induction t generalizing L D with
  | leaf a => simp [Tree.contains, show L ≠ 0 by omega]
  | node c ih =>
    obtain ⟨s, hs1, hs2⟩ := hs.2 (decr L)
    have hdec : decr L = L - 1 := by
      obtain ⟨m, rfl⟩ : ∃ m, L = m + 1 := ⟨L - 1, by omega⟩
      rw [decr_succ (by omega)]; rfl
    have ho : Index.orthant sh (⟨L, fun _ => 0⟩ : Index R) = .ok (fun _ => false) := by
      unfold Index.orthant
      simp [hs1, hs2]
    have ha : Index.advanceLevel sh (⟨L, fun _ => 0⟩ : Index R) = .ok ⟨L - 1, fun _ => 0⟩ := by
      unfold Index.advanceLevel
      rw [ho]
      simp [hs1, ← hdec]
    unfold Tree.contains
    rw [ho, ha]
    simp only [Outcome.bind_ok, childAt_eq]
    obtain ⟨D', rfl, hD'⟩ := depthLe_child hD ⟨toIntegral (fun _ : Fin R => false), toIntegral_lt _⟩
    exact ih _ (L - 1) D' hD' (by omega) (by omega)

/-- PARTIAL (assumes a platform on which oversized shifts yield some non-zero value, instead of the
standard): `contains` is true exactly on the leaf cells, for every valid cell. -/
theorem tree_contains_hardware_partial (hs : TotalShift sh) (t : Tree R α) (i : Index R) (hv : i.Valid)
    (hl : i.level ≤ 31) (D : Nat) (hD : DepthLe t D) (hD64 : D < 2 ^ 63) :
    ∃ b, t.contains sh i = .ok b ∧ (b = true ↔ ∃ a, LeafAt t i a) := by
  by_cases hi : InteriorAt t i
  · refine ⟨false, ?_, ?_⟩
    · induction t generalizing i D with
      | leaf a =>
        obtain ⟨c, hc⟩ := hi
        cases (nodeAt_leaf.1 hc).2
      | node c ih =>
        obtain ⟨l, x⟩ := i
        cases l with
        | zero =>
          have hx : x = fun _ => 0 := congrArg Index.coords (level_zero_valid rfl hv)
          subst hx
          obtain ⟨s, hs1, hs2⟩ := hs.2 (decr 0)
          have hdec : decr 0 = 2 ^ 64 - 1 := by decide
          have ho : Index.orthant sh (⟨0, fun _ => 0⟩ : Index R) = .ok (fun _ => false) := by
            unfold Index.orthant
            simp [hs1, hs2]
          have ha : Index.advanceLevel sh (⟨0, fun _ => 0⟩ : Index R) = .ok ⟨2 ^ 64 - 1, fun _ => 0⟩ := by
            unfold Index.advanceLevel
            rw [ho, hs1, hdec]
            simp
          unfold Tree.contains
          rw [ho, ha]
          simp only [Outcome.bind_ok, childAt_eq]
          obtain ⟨D', rfl, hD'⟩ := depthLe_child hD ⟨toIntegral (fun _ : Fin R => false), toIntegral_lt _⟩
          exact contains_zero_deep hs _ _ D' hD' (by omega) (by omega)
        | succ l =>
          unfold Tree.contains
          have hl' : l ≤ 30 := by simp only at hl; omega
          rw [orthant_eq hs.1 hl', advance_eq hs.1 hl']
          simp only [Outcome.bind_ok, childAt_eq]
          obtain ⟨d, hd⟩ := hi
          obtain ⟨D', rfl, hD'⟩ := depthLe_child hD (topChild l x)
          exact ih (topChild l x) (rest l x) (valid_rest hv) (by simp only [rest]; omega) D' hD'
            (by omega) ⟨d, nodeAt_node_succ.1 hd⟩
    · simp only [Bool.false_eq_true, false_iff]
      rintro ⟨a, ha⟩
      obtain ⟨c, hc⟩ := hi
      cases nodeAt_unique ha hc
  · exact contains_code hs.1 t i hl hv hi

/-! ## C10 find -/

/-- PARTIAL (the documented "can't fail" is violated for subdivided cells, see
`tree_find_interior_throws`): on every index that is not a subdivided cell, `find` returns the leaf
value there, or nothing when there is no leaf. -/
theorem tree_find_partial (hs : Shift sh) (t : Tree R α) (i : Index R) (hl : i.level ≤ 31)
    (hi : ¬ InteriorAt t i) :
    ∃ o, t.find sh i = .ok o ∧ ∀ a, o = some a ↔ LeafAt t i a := by
  obtain ⟨h1, h2, h3⟩ := tree_at hs t i hl
  unfold Tree.find
  by_cases h : ∃ u, NodeAt t i u
  · obtain ⟨u, hu⟩ := h
    cases u with
    | leaf a =>
      rw [(h1 a).2 hu]
      refine ⟨_, rfl, fun b => ?_⟩
      rw [← h1, (h1 a).2 hu]; simp
    | node c => exact absurd ⟨c, hu⟩ hi
  · rw [h3 h]
    refine ⟨_, rfl, fun b => ?_⟩
    simp only [reduceCtorEq, false_iff]
    exact fun hb => h ⟨_, hb⟩

/-- VIOLATION: on a subdivided cell `find` throws `bad_variant_access`, although documented as not
failing. -/
theorem tree_find_interior_throws (hs : Shift sh) (t : Tree R α) (i : Index R) (hl : i.level ≤ 31)
    (hi : InteriorAt t i) : t.find sh i = .throws .badVariantAccess := by
  unfold Tree.find
  rw [(tree_at hs t i hl).2.1 hi]

/-! ## C09 mapping and combining -/

/-- Mapping keeps the cells and acts on each leaf. -/
theorem tree_map (f : α → β) (t : Tree R α) :
    (∀ i b, LeafAt (t.map f) i b ↔ ∃ a, LeafAt t i a ∧ b = f a) ∧
    (t.map f).sink = t.sink.map f ∧ (∀ i, (t.map f).indexes i = t.indexes i) := by
  refine ⟨fun i b => leafAt_map, ?_, indexes_map f t⟩
  rw [sink_eq_leaves, sink_eq_leaves, leaves_map]

/-- Mapping in two passes, as the launching variants do. -/
theorem tree_map_map (f : α → β) (g : β → γ) (t : Tree R α) : (t.map f).map g = t.map (g ∘ f) :=
  map_map f g t

/-- Combining two trees succeeds exactly if they have the same leaf cells, and then combines the two
values of each cell; otherwise it throws. -/
theorem tree_binary_op (f : α → β → γ) (t : Tree R α) (u : Tree R β) :
    (SameShape t u → ∃ r, t.binaryOp f u = .ok r ∧
      ∀ i g, LeafAt r i g ↔ ∃ a b, LeafAt t i a ∧ LeafAt u i b ∧ g = f a b) ∧
    (¬ SameShape t u → ∃ e, t.binaryOp f u = .throws e) := binaryOp_code f t u

/-- Pairing with the indexes never fails and attaches to every leaf its own cell. -/
theorem tree_pair_indexes (t : Tree R α) (D : Nat) (hD : DepthLe t D) (h : D < 64) :
    ∃ r, t.pairIndexes = .ok r ∧ ∀ i p, LeafAt r i p ↔ p.1 = i ∧ LeafAt t i p.2 := by
  have hi := (tree_indexes t D hD h).2.2.2.2
  have hsame : SameShape (t.indexes Index.root) t := by
    intro i
    constructor
    · rintro ⟨v, hv⟩; exact ((hi i v).1 hv).2
    · intro h; exact ⟨i, (hi i i).2 ⟨rfl, h⟩⟩
  obtain ⟨r, hr, hl⟩ := (binaryOp_code Prod.mk _ _).1 hsame
  refine ⟨r, hr, ?_⟩
  rintro i ⟨j, a⟩
  rw [hl]
  constructor
  · rintro ⟨j', a', h1, h2, h3⟩
    injection h3 with h3 h4
    subst h3 h4
    exact ⟨((hi i j).1 h1).1, h2⟩
  · rintro ⟨h1, h2⟩
    simp only at h1 h2
    exact ⟨i, a, (hi i i).2 ⟨rfl, a, h2⟩, h2, by rw [h1]⟩

/-! ## C11 refinement -/

/-- Refining: the leaves that do not satisfy the predicate stay where they are; each leaf that
satisfies it is replaced by its `2^R` child cells with the values of the split function; nothing else
appears. -/
theorem tree_bifurcate_if (p : α → Bool) (f : α → Seq (2 ^ R) α) (t : Tree R α) (i : Index R) (b : α) :
    LeafAt (t.bifurcateIf p f) i b ↔
      (LeafAt t i b ∧ p b = false) ∨
      ∃ (j : Index R) (a : α) (k : Fin (2 ^ R)),
        LeafAt t j a ∧ p a = true ∧ i = j.child k ∧ b = f a k := leafAt_bifurcateIf

/-- Refinement in terms of the sequence of leaves, and the number of leaves afterwards. -/
theorem tree_bifurcate_if_size (p : α → Bool) (f : α → Seq (2 ^ R) α) (t : Tree R α) :
    (t.bifurcateIf p f).sink = t.sink.flatMap (fun a => if p a then List.ofFn (f a) else [a]) ∧
    (t.bifurcateIf p f).sink.length = t.sink.length + (2 ^ R - 1) * t.sink.countP p := by
  have h : (t.bifurcateIf p f).sink = t.sink.flatMap (fun a => if p a then List.ofFn (f a) else [a]) := by
    rw [sink_eq_leaves, sink_eq_leaves, leaves_bifurcateIf]
  refine ⟨h, ?_⟩
  rw [h]
  have h2 := Nat.two_pow_pos R
  generalize t.sink = l
  induction l with
  | nil => simp
  | cons a l ih =>
    simp only [List.flatMap_cons, List.length_append, ih, List.length_cons, List.countP_cons]
    by_cases hp : p a = true
    · simp only [hp, if_true, List.length_ofFn, Nat.mul_add]; omega
    · simp only [hp]; simp; omega

/-- Refining everywhere. -/
theorem tree_bifurcate_all (f : α → Seq (2 ^ R) β) (t : Tree R α) (i : Index R) (b : β) :
    LeafAt (t.bifurcateAll f) i b ↔
      ∃ (j : Index R) (a : α) (k : Fin (2 ^ R)), LeafAt t j a ∧ i = j.child k ∧ b = f a k :=
  leafAt_bifurcateAll

/-! ## C12 insert and update -/

/-- Inserting at a valid cell that is not subdivided: the cell becomes a leaf with the new value;
every leaf that does not contain the cell is kept; anything else in the result is a default value in
a cell split off from the leaf that contained the target; the subdivided cells are the old ones and
the proper ancestors of the target, so no cell is split without need.  Inserting at a subdivided or invalid cell
throws. -/
theorem tree_insert [Inhabited α] (hs : Shift sh) (v : α) (t : Tree R α) (i : Index R)
    (hl : i.level ≤ 31) :
    (i.Valid → ¬ InteriorAt t i → ∃ r, Tree.insert sh v i.level t i = .ok r ∧
      LeafAt r i v ∧
      (∀ j b, LeafAt t j b → ¬ i.Inside j → LeafAt r j b) ∧
      (∀ j b, LeafAt r j b → (j = i ∧ b = v) ∨ (LeafAt t j b ∧ ¬ i.Inside j) ∨
        (b = default ∧ j ≠ i ∧ ∃ m a, LeafAt t m a ∧ i.Inside m ∧ j.Inside m)) ∧
      (∀ j, InteriorAt r j ↔ InteriorAt t j ∨ (i.Inside j ∧ j ≠ i))) ∧
    ((InteriorAt t i ∨ ¬ i.Valid) → Tree.insert sh v i.level t i = .throws .outOfRange) :=
  insert_code hs v i.level t i.coords hl

/-- PARTIAL (restricted to valid indexes; for invalid ones see `tree_update_invalid_index`): updating
at the index of a node maps the function over exactly the leaves inside that cell; at any other valid
index it throws. -/
theorem tree_update_partial (hs : Shift sh) (f : α → α) (t : Tree R α) (i : Index R) (hv : i.Valid)
    (hl : i.level ≤ 31) :
    ((∃ u, NodeAt t i u) → ∃ r, t.update sh f i = .ok r ∧
      ∀ j b, LeafAt r j b ↔
        (j.Inside i ∧ ∃ a, LeafAt t j a ∧ b = f a) ∨ (¬ j.Inside i ∧ LeafAt t j b)) ∧
    ((¬ ∃ u, NodeAt t i u) → t.update sh f i = .throws .badVariantAccess) :=
  update_code hs f t i hv hl

/-- VIOLATION: updating at an index that lies outside of the domain (coordinate 5 at level 1) neither
throws nor leaves the tree alone: it alters a leaf at another cell. -/
theorem tree_update_invalid_index :
    ∃ (t : Tree 1 Nat) (i : Index 1) (r : Tree 1 Nat), (¬ ∃ u, NodeAt t i u) ∧
      t.update shl1 (· + 1) i = .ok r ∧ LeafAt t ⟨1, ![1]⟩ 7 ∧ LeafAt r ⟨1, ![1]⟩ 8 := by
  refine ⟨.node ![.leaf 3, .leaf 7], ⟨1, ![5]⟩,
    .node (fun m => if m = 1 then .leaf 8 else (![.leaf 3, .leaf 7] : Fin (2 ^ 1) → Tree 1 Nat) m), ?_, rfl, ?_, ?_⟩
  · rintro ⟨u, hu⟩
    have := hu.valid 0
    simp at this
  · refine leafAt_node.2 ⟨1, Index.root, ?_, .here _⟩
    decide
  · refine leafAt_node.2 ⟨1, Index.root, ?_, .here _⟩
    decide

/-! ## C13 reductions -/

/-- `size`, `sum`, `any`, `all` and `front` are those of the list of leaves. -/
theorem tree_reductions (t : Tree R α) :
    t.size = t.sink.length ∧ t.sink.head? = some t.front ∧
    (∀ [AddMonoid β] (u : Tree R β), u.sum = u.sink.sum) ∧
    (∀ u : Tree R Bool, u.any = u.sink.any id ∧ u.all = u.sink.all id) := by
  simp only [sink_eq_leaves]
  refine ⟨?_, ?_, ?_, ?_⟩
  · induction t with
    | leaf a => rfl
    | node c ih =>
      simp only [Tree.size, leaves, List.length_flatMap, seq_sum, List.ofFn_eq_map]
      congr 2; funext k; exact ih k
  · induction t with
    | leaf a => rfl
    | node c ih =>
      simp only [leaves, Tree.front]
      have hf : List.finRange (2 ^ R) = Tree.first :: (List.finRange (2 ^ R)).tail := by
        have hne : List.finRange (2 ^ R) ≠ [] := by
          rw [← List.length_pos_iff]; simpa using Nat.two_pow_pos R
        rw [← List.cons_head_tail hne]
        congr 1
        rw [List.head_eq_getElem]; simp [Tree.first]
      rw [hf, List.flatMap_cons, List.head?_append, ih]
      rfl
  · intro _ u
    induction u with
    | leaf a => simp [Tree.sum, leaves]
    | node c ih =>
      simp only [Tree.sum, leaves, seq_sum, List.ofFn_eq_map]
      generalize List.finRange (2 ^ R) = l
      induction l with
      | nil => rfl
      | cons k l ih' => rw [List.map_cons, List.sum_cons, ih', ih, List.flatMap_cons, List.sum_append]
  · intro u
    induction u with
    | leaf a => simp [Tree.any, Tree.all, leaves]
    | node c ih =>
      simp only [Tree.any, Tree.all, leaves, Seq.any, Seq.all, List.any_flatMap, List.all_flatMap,
        List.ofFn_eq_map, List.any_map, List.all_map]
      constructor
      · congr 1; funext k; simp [(ih k).1]
      · congr 1; funext k; simp [(ih k).2]

/-- `min` and `max` are attained by leaves and bound all leaves. -/
theorem tree_min_max [LinearOrder α] (t : Tree R α) :
    t.min ∈ t.sink ∧ (∀ a ∈ t.sink, t.min ≤ a) ∧ t.max ∈ t.sink ∧ (∀ a ∈ t.sink, a ≤ t.max) := by
  simp only [sink_eq_leaves]
  induction t with
  | leaf a => simp [Tree.min, Tree.max, leaves]
  | node c ih =>
    have h2 := Nat.two_pow_pos R
    obtain ⟨⟨i, hi⟩, hl, ⟨j, hj⟩, hu⟩ := seq_min_max (n := 2 ^ R - 1)
      (fun k => (c ⟨k, by omega⟩).min)
    obtain ⟨⟨i', hi'⟩, hl', ⟨j', hj'⟩, hu'⟩ := seq_min_max (n := 2 ^ R - 1)
      (fun k => (c ⟨k, by omega⟩).max)
    simp only [Tree.min, Tree.max, leaves, List.mem_flatMap, List.mem_finRange, true_and]
    refine ⟨⟨_, by rw [hi]; exact (ih _).1⟩, ?_, ⟨_, by rw [hj']; exact (ih _).2.2.1⟩, ?_⟩
    · rintro a ⟨k, hk⟩
      exact (hl ⟨k, by omega⟩).trans ((ih k).2.1 a hk)
    · rintro a ⟨k, hk⟩
      exact ((ih k).2.2.2 a hk).trans (hu' ⟨k, by omega⟩)

/-- `depth` is the level of the deepest leaf. -/
theorem tree_depth (t : Tree R α) :
    (∃ i a, LeafAt t i a ∧ i.level = t.depth) ∧ (∀ i a, LeafAt t i a → i.level ≤ t.depth) := by
  have key : ∀ d, (∃ i a, LeafAt t i a ∧ d + i.level = t.depth d) ∧
      (∀ i a, LeafAt t i a → d + i.level ≤ t.depth d) := by
    induction t with
    | leaf a =>
      intro d
      refine ⟨⟨Index.root, a, .here _, rfl⟩, ?_⟩
      intro i b h
      rw [(leafAt_leaf.1 h).1]; exact le_rfl
    | node c ih =>
      intro d
      have h2 := Nat.two_pow_pos R
      obtain ⟨_, _, ⟨j, hj⟩, hu⟩ := seq_min_max (n := 2 ^ R - 1)
        (fun k => (c ⟨k, by omega⟩).depth (d + 1))
      simp only [Tree.depth, Tree.depth.maxNat]
      constructor
      · obtain ⟨i, a, h, he⟩ := (ih ⟨j, by omega⟩ (d + 1)).1
        refine ⟨_, a, leafAt_node.2 ⟨_, i, rfl, h⟩, ?_⟩
        rw [hj, ← he]
        simp only [Index.descend]; omega
      · intro i a h
        obtain ⟨k, j', rfl, h'⟩ := leafAt_node.1 h
        have h3 := (ih k (d + 1)).2 j' a h'
        have h4 := hu ⟨k, by omega⟩
        refine le_trans ?_ h4
        simp only [Index.descend]
        calc d + (j'.level + 1) = d + 1 + j'.level := by omega
          _ ≤ _ := h3
  simpa using key 0

/-! ## Examples -/

/-- A quadtree of depth two with seven leaves. -/
def exTree : Tree 2 Nat :=
  .node ![.leaf 10, .node ![.leaf 20, .leaf 21, .leaf 22, .leaf 23], .leaf 30, .leaf 40]

example : exTree.sink = [10, 20, 21, 22, 23, 30, 40] := by decide
example : (exTree.indexes Index.root).sink =
    [⟨1, ![0, 0]⟩, ⟨2, ![2, 0]⟩, ⟨2, ![3, 0]⟩, ⟨2, ![2, 1]⟩, ⟨2, ![3, 1]⟩, ⟨1, ![0, 1]⟩, ⟨1, ![1, 1]⟩] := by
  decide
example : exTree.at' shl1 ⟨2, ![2, 1]⟩ = .ok 22 := by decide
example : exTree.at' shl1 ⟨2, ![0, 0]⟩ = .throws .outOfRange := by decide
example : exTree.at' shl1 ⟨1, ![1, 0]⟩ = .throws .badVariantAccess := by decide
example : exTree.contains shl1 ⟨2, ![3, 0]⟩ = .ok true := by decide
example : exTree.depth = 2 ∧ exTree.size = 7 ∧ exTree.max = 40 ∧ exTree.sum = 166 := by decide
example : DepthLe exTree 2 := fun i a h => (tree_depth exTree).2 i a h
example : InteriorAt exTree ⟨1, ![1, 0]⟩ :=
  ⟨_, (tree_node_at shl1_shift exTree ⟨1, ![1, 0]⟩ (by decide)).1 _ |>.1 rfl⟩
example : ((exTree.bifurcateIf (· == 30) (fun a k => a + k.val)).sink) =
    [10, 20, 21, 22, 23, 30, 31, 32, 33, 40] := by decide
example : TotalShift (fun n => .ok (2 ^ n)) :=
  ⟨fun _ _ => rfl, fun n => ⟨_, rfl, (Nat.two_pow_pos n).ne'⟩⟩

theorem exTree_depth : DepthLe exTree 2 := fun i a h => (tree_depth exTree).2 i a h

theorem exTree_leaf : LeafAt exTree ⟨2, ![2, 1]⟩ 22 :=
  ((tree_at shl1_shift exTree ⟨2, ![2, 1]⟩ (by decide)).1 22).1 (by decide)

theorem exTree_interior : InteriorAt exTree ⟨1, ![1, 0]⟩ :=
  ⟨_, (tree_node_at shl1_shift exTree ⟨1, ![1, 0]⟩ (by decide)).1 _ |>.1 rfl⟩

theorem exTree_not_interior : ¬ InteriorAt exTree ⟨2, ![2, 1]⟩ := by
  rintro ⟨c, h⟩
  have := nodeAt_unique h exTree_leaf
  injection this

/-- `tree_at`: the interior cell is refused. -/
example : exTree.at' shl1 ⟨1, ![1, 0]⟩ = .throws .badVariantAccess :=
  (tree_at shl1_shift exTree ⟨1, ![1, 0]⟩ (by decide)).2.1 exTree_interior

/-- `tree_contains_hardware_partial`, `tree_contains_interior_ub`, `tree_contains_partial`: a leaf and
an interior cell. -/
example : ∃ b, exTree.contains (fun n => .ok (2 ^ n)) ⟨1, ![1, 0]⟩ = .ok b ∧
    (b = true ↔ ∃ a, LeafAt exTree ⟨1, ![1, 0]⟩ a) :=
  tree_contains_hardware_partial ⟨fun _ _ => rfl, fun n => ⟨_, rfl, (Nat.two_pow_pos n).ne'⟩⟩ exTree _
    (by unfold Index.Valid; decide) (by decide) 2 exTree_depth (by decide)
example : exTree.contains shl1 ⟨1, ![1, 0]⟩ = .ub :=
  tree_contains_interior_ub exTree _ (by decide) exTree_interior
example : ∃ b, exTree.contains shl1 ⟨2, ![2, 1]⟩ = .ok b ∧ (b = true ↔ ∃ a, LeafAt exTree ⟨2, ![2, 1]⟩ a) :=
  tree_contains_partial shl1_shift exTree _ (by unfold Index.Valid; decide) (by decide) exTree_not_interior

/-- `tree_indexes`: the index tree of a mesh of depth two. -/
example : (exTree.indexes Index.root).sink.Nodup := (tree_indexes exTree 2 exTree_depth (by decide)).1

/-- `tree_leaf_cells`, `tree_leaf_disjoint`, `tree_leaf_cover`. -/
example (a : Nat) (h : LeafAt exTree ⟨2, ![2, 1]⟩ a) : a = 22 :=
  ((tree_leaf_cells exTree exTree).1 _ _ _ h exTree_leaf).1
example (j : Index 2) (b : Nat) (hj : LeafAt exTree j b) (h : (⟨2, ![2, 1]⟩ : Index 2).Inside j) :
    ⟨2, ![2, 1]⟩ = j :=
  tree_leaf_disjoint exTree _ j 22 b exTree_leaf hj h
example : ∃ j, (∃ a, LeafAt exTree j a ∧ (⟨5, ![17, 30]⟩ : Index 2).Inside j) ∧
      ∀ j', (∃ a, LeafAt exTree j' a ∧ (⟨5, ![17, 30]⟩ : Index 2).Inside j') → j' = j :=
  tree_leaf_cover exTree 2 exTree_depth _ (by unfold Index.Valid; decide) (by decide)

/-- `tree_sink`. -/
example : leaves exTree = [10, 20, 21, 22, 23, 30, 40] := by
  rw [← tree_sink]; decide

/-- `tree_map`, `tree_map_map`. -/
example : LeafAt (exTree.map (· + 1)) ⟨2, ![2, 1]⟩ 23 :=
  ((tree_map (· + 1) exTree).1 _ _).2 ⟨22, exTree_leaf, rfl⟩
example : (exTree.map (· + 1)).map (2 * ·) = exTree.map fun a => 2 * (a + 1) :=
  tree_map_map (· + 1) (2 * ·) exTree

/-- `tree_binary_op`: two trees of the same shape are combined, and two of different shape refused. -/
example : ∃ r, exTree.binaryOp (· + ·) exTree = .ok r ∧ LeafAt r ⟨2, ![2, 1]⟩ 44 := by
  obtain ⟨r, h1, h2⟩ := (tree_binary_op (· + ·) exTree exTree).1 fun _ => Iff.rfl
  exact ⟨r, h1, (h2 _ _).2 ⟨22, 22, exTree_leaf, exTree_leaf, rfl⟩⟩
example : ∃ e, exTree.binaryOp (· + ·) (.leaf 3) = .throws e := by
  refine (tree_binary_op (· + ·) exTree (.leaf 3)).2 fun h => ?_
  obtain ⟨a, ha⟩ := (h ⟨2, ![2, 1]⟩).1 ⟨22, exTree_leaf⟩
  have h1 : (Tree.leaf 3 : Tree 2 Nat).at' shl1 ⟨2, ![2, 1]⟩ = .ok a :=
    ((tree_at shl1_shift _ _ (by decide)).1 a).2 ha
  have h2 : (Tree.leaf 3 : Tree 2 Nat).at' shl1 ⟨2, ![2, 1]⟩ = .throws .outOfRange := by decide
  rw [h2] at h1
  exact absurd h1 (by simp)

/-- `tree_pair_indexes`. -/
example : ∃ r, exTree.pairIndexes = .ok r ∧ LeafAt r ⟨2, ![2, 1]⟩ (⟨2, ![2, 1]⟩, 22) := by
  obtain ⟨r, h1, h2⟩ := tree_pair_indexes exTree 2 exTree_depth (by decide)
  exact ⟨r, h1, (h2 _ _).2 ⟨rfl, exTree_leaf⟩⟩

/-- `tree_find_interior_throws`, `tree_find_partial`. -/
example : exTree.find shl1 ⟨1, ![1, 0]⟩ = .throws .badVariantAccess :=
  tree_find_interior_throws shl1_shift exTree _ (by decide) exTree_interior
example : exTree.find shl1 ⟨2, ![2, 1]⟩ = .ok (some 22) := by
  obtain ⟨o, h1, h2⟩ := tree_find_partial shl1_shift exTree ⟨2, ![2, 1]⟩ (by decide) exTree_not_interior
  rw [h1, (h2 22).2 exTree_leaf]

/-- `tree_bifurcate_all`, `tree_bifurcate_if`, `tree_bifurcate_if_size`. -/
example : LeafAt (exTree.bifurcateAll fun a k => a + k.val) (Index.child ⟨2, ![2, 1]⟩ 3) 25 :=
  (tree_bifurcate_all _ exTree _ _).2 ⟨_, 22, 3, exTree_leaf, rfl, rfl⟩
example : LeafAt (exTree.bifurcateIf (· == 22) fun a k => a + k.val) (Index.child ⟨2, ![2, 1]⟩ 3) 25 :=
  (tree_bifurcate_if _ _ exTree _ _).2 (.inr ⟨_, 22, 3, exTree_leaf, rfl, rfl, rfl⟩)
example : (exTree.bifurcateIf (fun a => decide (25 < a)) fun a k => a + k.val).sink.length = 7 + 3 * 2 :=
  (tree_bifurcate_if_size _ _ exTree).2

/-- `tree_insert`: a leaf inserted two levels below a leaf, and one refused at an interior cell. -/
example : ∃ r, Tree.insert shl1 5 3 exTree ⟨3, ![4, 2]⟩ = .ok r ∧ LeafAt r ⟨3, ![4, 2]⟩ 5 := by
  have h : ¬ InteriorAt exTree ⟨3, ![4, 2]⟩ := by
    rintro ⟨c, hc⟩
    have h1 : ∀ u, ¬ exTree.nodeAt shl1 ⟨3, ![4, 2]⟩ = .ok u := by
      intro u hu
      have : exTree.nodeAt shl1 ⟨3, ![4, 2]⟩ = .throws .outOfRange := by rfl
      rw [this] at hu
      exact absurd hu (by simp)
    exact h1 _ (((tree_node_at shl1_shift exTree ⟨3, ![4, 2]⟩ (by decide)).1 _).2 hc)
  obtain ⟨r, h1, h2, _⟩ := (tree_insert shl1_shift 5 exTree ⟨3, ![4, 2]⟩ (by decide)).1
    (by unfold Index.Valid; decide) h
  exact ⟨r, h1, h2⟩
example : Tree.insert shl1 5 1 exTree ⟨1, ![1, 0]⟩ = .throws .outOfRange :=
  (tree_insert shl1_shift 5 exTree ⟨1, ![1, 0]⟩ (by decide)).2 (.inl exTree_interior)

/-- `tree_update_partial`: the update of an interior cell reaches the leaves below it. -/
example : ∃ r, exTree.update shl1 (· + 1) ⟨1, ![1, 0]⟩ = .ok r ∧ LeafAt r ⟨2, ![2, 1]⟩ 23 := by
  obtain ⟨c, hc⟩ := exTree_interior
  obtain ⟨r, h1, h2⟩ := (tree_update_partial shl1_shift (· + 1) exTree ⟨1, ![1, 0]⟩
    (by unfold Index.Valid; decide) (by decide)).1 ⟨_, hc⟩
  refine ⟨r, h1, (h2 _ _).2 (.inl ⟨⟨⟨1, ![0, 1]⟩, by unfold Index.Valid; decide, by decide⟩, 22, exTree_leaf, rfl⟩)⟩

/-- `tree_min_max`, `tree_reductions`. -/
example : exTree.min ∈ exTree.sink ∧ (∀ a ∈ exTree.sink, exTree.min ≤ a) ∧ exTree.max ∈ exTree.sink ∧
    (∀ a ∈ exTree.sink, a ≤ exTree.max) := tree_min_max exTree
example : exTree.size = 7 ∧ exTree.sum = 166 := by
  refine ⟨(tree_reductions (β := Nat) exTree).1.trans (by decide), ?_⟩
  rw [(tree_reductions (β := Nat) exTree).2.2.1 exTree]; decide

end Verif.Tree
