import Verif.Lemmas.Tree

namespace Verif.Tree
open Verif Verif.Seq

variable {R : Nat} {α β γ : Type} {sh : Nat → Outcome Nat}

theorem tree_eq_of_leafAt {t u : Tree R α} (h : ∀ i a, LeafAt t i a ↔ LeafAt u i a) : t = u := by
  induction t generalizing u with
  | leaf a =>
    have := (h Index.root a).1 (.here _)
    exact nodeAt_root.1 this
  | node c ih =>
    cases u with
    | leaf b =>
      have := (h Index.root b).2 (.here _)
      exact (nodeAt_root.1 this).symm
    | node d =>
      congr 1
      funext k
      apply ih
      intro i a
      constructor
      · intro hi
        exact (leafAt_descend hi.valid).1 ((h _ _).1 ((leafAt_descend hi.valid).2 hi))
      · intro hi
        exact (leafAt_descend hi.valid).1 ((h _ _).2 ((leafAt_descend hi.valid).2 hi))

theorem leafAt_map {f : α → β} {t : Tree R α} {i : Index R} {b : β} :
    LeafAt (t.map f) i b ↔ ∃ a, LeafAt t i a ∧ b = f a := by
  induction t generalizing i with
  | leaf a => simp [Tree.map, leafAt_leaf, and_assoc]
  | node c ih =>
    simp only [Tree.map, leafAt_node, ih]
    constructor
    · rintro ⟨k, j, rfl, a, h, rfl⟩; exact ⟨a, ⟨k, j, rfl, h⟩, rfl⟩
    · rintro ⟨a, ⟨k, j, rfl, h⟩, rfl⟩; exact ⟨k, j, rfl, a, h, rfl⟩

theorem leaves_map (f : α → β) (t : Tree R α) : leaves (t.map f) = (leaves t).map f := by
  induction t with
  | leaf a => rfl
  | node c ih =>
    simp only [Tree.map, leaves, List.map_flatMap]
    congr 1; funext k; exact ih k

theorem map_map (f : α → β) (g : β → γ) (t : Tree R α) : (t.map f).map g = t.map (g ∘ f) := by
  induction t with
  | leaf a => rfl
  | node c ih => simp only [Tree.map]; congr 1; funext k; exact ih k

theorem indexes_map (f : α → β) (t : Tree R α) (i : Index R) : (t.map f).indexes i = t.indexes i := by
  induction t generalizing i with
  | leaf a => rfl
  | node c ih => simp only [Tree.map, Tree.indexes]; congr 1; funext k; exact ih k _

theorem leafAt_indexes (t : Tree R α) (i : Index R) (hv : i.Valid) (D : Nat) (hD : DepthLe t D)
    (hl : i.level + D < 64) (j v : Index R) :
    LeafAt (t.indexes i) j v ↔ (∃ a, LeafAt t j a) ∧ v = i.within j := by
  induction t generalizing i D j with
  | leaf a =>
    simp only [Tree.indexes, leafAt_leaf]
    constructor
    · rintro ⟨rfl, rfl⟩; exact ⟨⟨a, rfl, rfl⟩, (within_root _).symm⟩
    · rintro ⟨⟨b, rfl, rfl⟩, h⟩; exact ⟨rfl, by rw [h, within_root]⟩
  | node c ih =>
    simp only [Tree.indexes, leafAt_node]
    have hk : ∀ k j, LeafAt ((c k).indexes (i.childIndexes k)) j v ↔
        (∃ a, LeafAt (c k) j a) ∧ v = i.within (Index.descend (Fin.val k) j) := by
      intro k j
      obtain ⟨D', rfl, hD'⟩ := depthLe_child hD k
      rw [childIndexes_eq hv (by omega), ih k (i.child k) (child_valid hv k) D' hD' (by
        simp only [Index.child]; omega), child_within]
    constructor
    · rintro ⟨k, j', rfl, h⟩
      obtain ⟨⟨a, h'⟩, rfl⟩ := (hk _ _).1 h
      exact ⟨⟨a, k, j', rfl, h'⟩, rfl⟩
    · rintro ⟨⟨a, k, j', rfl, h⟩, rfl⟩
      exact ⟨k, j', rfl, (hk _ _).2 ⟨⟨a, h⟩, rfl⟩⟩

/-! ### combining two trees -/

theorem sequence_ok {n : Nat} {c : Fin n → Outcome β} {xs : Fin n → β} :
    Tree.sequence c = .ok xs ↔ ∀ k, c k = .ok (xs k) := by
  induction n with
  | zero =>
    simp only [Tree.sequence]
    constructor
    · intro _ k; exact k.elim0
    · intro _; congr 1; funext k; exact k.elim0
  | succ n ih =>
    simp only [Tree.sequence]
    rw [Outcome.bind_eq_ok]
    simp only [Outcome.bind_eq_ok, ih]
    constructor
    · rintro ⟨x, hx, ys, hys, h⟩ k
      have h := Outcome.ok.inj h
      subst h
      refine Fin.cases ?_ (fun k => ?_) k
      · simpa using hx
      · simpa using hys k
    · intro h
      refine ⟨xs 0, h 0, fun k => xs k.succ, fun k => h k.succ, ?_⟩
      congr 1; exact Fin.cons_self_tail xs

theorem sequence_fails {n : Nat} {c : Fin n → Outcome β}
    (h : ∀ k, (∃ x, c k = .ok x) ∨ ∃ e, c k = .throws e) :
    (∃ xs, Tree.sequence c = .ok xs) ∨ ∃ e, Tree.sequence c = .throws e := by
  induction n with
  | zero => exact .inl ⟨_, rfl⟩
  | succ n ih =>
    simp only [Tree.sequence]
    rcases h 0 with ⟨x, hx⟩ | ⟨e, he⟩
    · rcases ih (c := fun k => c k.succ) (fun k => h k.succ) with ⟨xs, hxs⟩ | ⟨e, he⟩
      · exact .inl ⟨_, by rw [hx, Outcome.bind_ok, hxs, Outcome.bind_ok]⟩
      · exact .inr ⟨e, by rw [hx, Outcome.bind_ok, he]; rfl⟩
    · exact .inr ⟨e, by rw [he]; rfl⟩

theorem sameShape_node {c : Fin (2 ^ R) → Tree R α} {d : Fin (2 ^ R) → Tree R β} :
    SameShape (.node c) (.node d) ↔ ∀ k, SameShape (c k) (d k) := by
  constructor
  · intro h k i
    constructor
    · rintro ⟨a, ha⟩
      obtain ⟨b, hb⟩ := (h _).1 ⟨a, (leafAt_descend (k := k) ha.valid).2 ha⟩
      exact ⟨b, (leafAt_descend ha.valid).1 hb⟩
    · rintro ⟨a, ha⟩
      obtain ⟨b, hb⟩ := (h _).2 ⟨a, (leafAt_descend (k := k) ha.valid).2 ha⟩
      exact ⟨b, (leafAt_descend ha.valid).1 hb⟩
  · intro h i
    constructor
    · rintro ⟨a, ha⟩
      obtain ⟨k, j, rfl, ha'⟩ := leafAt_node.1 ha
      obtain ⟨b, hb⟩ := (h k j).1 ⟨a, ha'⟩
      exact ⟨b, leafAt_node.2 ⟨k, j, rfl, hb⟩⟩
    · rintro ⟨a, ha⟩
      obtain ⟨k, j, rfl, ha'⟩ := leafAt_node.1 ha
      obtain ⟨b, hb⟩ := (h k j).2 ⟨a, ha'⟩
      exact ⟨b, leafAt_node.2 ⟨k, j, rfl, hb⟩⟩

theorem not_sameShape_leaf_node {a : α} {d : Fin (2 ^ R) → Tree R β} :
    ¬ SameShape (.leaf a) (.node d) := by
  intro h
  obtain ⟨b, hb⟩ := (h Index.root).1 ⟨a, .here _⟩
  cases nodeAt_root.1 hb

theorem SameShape.symm {t : Tree R α} {u : Tree R β} (h : SameShape t u) : SameShape u t :=
  fun i => (h i).symm

theorem binaryOp_code (f : α → β → γ) (t : Tree R α) (u : Tree R β) :
    (SameShape t u → ∃ r, t.binaryOp f u = .ok r ∧
      ∀ i g, LeafAt r i g ↔ ∃ a b, LeafAt t i a ∧ LeafAt u i b ∧ g = f a b) ∧
    (¬ SameShape t u → ∃ e, t.binaryOp f u = .throws e) := by
  induction t generalizing u with
  | leaf a =>
    cases u with
    | leaf b =>
      constructor
      · intro _
        refine ⟨_, rfl, ?_⟩
        intro i g
        simp only [leafAt_leaf]
        constructor
        · rintro ⟨rfl, rfl⟩; exact ⟨a, b, ⟨rfl, rfl⟩, ⟨rfl, rfl⟩, rfl⟩
        · rintro ⟨_, _, ⟨rfl, rfl⟩, ⟨_, rfl⟩, rfl⟩; exact ⟨rfl, rfl⟩
      · intro h; exfalso; apply h
        intro i; simp [leafAt_leaf]
    | node d =>
      constructor
      · intro h; exact absurd h not_sameShape_leaf_node
      · intro _; exact ⟨_, rfl⟩
  | node c ih =>
    cases u with
    | leaf b =>
      constructor
      · intro h; exact absurd h.symm not_sameShape_leaf_node
      · intro _; exact ⟨_, rfl⟩
    | node d =>
      rw [sameShape_node]
      constructor
      · intro h
        have h' := fun k => (ih k (d k)).1 (h k)
        choose e he hl using h'
        refine ⟨.node e, ?_, ?_⟩
        · unfold Tree.binaryOp
          rw [sequence_ok.2 he]; rfl
        · intro i g
          simp only [leafAt_node]
          constructor
          · rintro ⟨k, j, rfl, hg⟩
            obtain ⟨a, b, ha, hb, rfl⟩ := (hl k j g).1 hg
            exact ⟨a, b, ⟨k, j, rfl, ha⟩, ⟨k, j, rfl, hb⟩, rfl⟩
          · rintro ⟨a, b, ⟨k, j, rfl, ha⟩, ⟨k', j', hij, hb⟩, rfl⟩
            obtain ⟨rfl, rfl⟩ := descend_inj ha.valid hb.valid hij
            exact ⟨k, j, rfl, (hl _ _ _).2 ⟨a, b, ha, hb, rfl⟩⟩
      · intro h
        unfold Tree.binaryOp
        have hf := sequence_fails (c := fun k => (c k).binaryOp f (d k)) (fun k => by
          by_cases hk : SameShape (c k) (d k)
          · obtain ⟨r, hr, _⟩ := (ih k (d k)).1 hk; exact .inl ⟨r, hr⟩
          · exact .inr ((ih k (d k)).2 hk))
        rcases hf with ⟨xs, hxs⟩ | ⟨e, he⟩
        · exfalso
          push Not at h
          obtain ⟨k, hk⟩ := h
          obtain ⟨e, he⟩ := (ih k (d k)).2 hk
          have := sequence_ok.1 hxs k
          rw [he] at this
          cases this
        · exact ⟨e, by rw [he]; rfl⟩

/-! ### refinement -/

theorem descend_root (k : Nat) : Index.descend k (Index.root : Index R) = Index.root.child k := by
  ext a <;> simp [Index.descend, Index.root, Index.child]

theorem descend_child (k m : Nat) (j : Index R) :
    Index.descend k (j.child m) = (Index.descend k j).child m := by
  ext a
  · rfl
  · simp only [Index.descend, Index.child, Nat.pow_succ]; ring

theorem leafAt_treeOf {v : Seq (2 ^ R) α} {i : Index R} {b : α} :
    LeafAt (Tree.treeOf v) i b ↔ ∃ k : Fin (2 ^ R), i = Index.root.child k ∧ b = v k := by
  unfold Tree.treeOf
  simp only [leafAt_node, leafAt_leaf]
  constructor
  · rintro ⟨k, j, rfl, rfl, rfl⟩; exact ⟨k, descend_root k, rfl⟩
  · rintro ⟨k, rfl, rfl⟩; exact ⟨k, _, (descend_root k).symm, rfl, rfl⟩

theorem leafAt_bifurcateIf {p : α → Bool} {f : α → Seq (2 ^ R) α} {t : Tree R α} {i : Index R} {b : α} :
    LeafAt (t.bifurcateIf p f) i b ↔
      (LeafAt t i b ∧ p b = false) ∨
      ∃ (j : Index R) (a : α) (k : Fin (2 ^ R)), LeafAt t j a ∧ p a = true ∧ i = j.child k ∧ b = f a k := by
  induction t generalizing i with
  | leaf a =>
    unfold Tree.bifurcateIf
    by_cases h : p a = true
    · rw [if_pos h, leafAt_treeOf]
      simp only [leafAt_leaf]
      constructor
      · rintro ⟨k, rfl, rfl⟩; exact .inr ⟨_, a, k, ⟨rfl, rfl⟩, h, rfl, rfl⟩
      · rintro (⟨⟨rfl, rfl⟩, h'⟩ | ⟨_, _, k, ⟨rfl, rfl⟩, _, rfl, rfl⟩)
        · rw [h] at h'; cases h'
        · exact ⟨k, rfl, rfl⟩
    · rw [if_neg h]
      simp only [leafAt_leaf]
      constructor
      · rintro ⟨rfl, rfl⟩; exact .inl ⟨⟨rfl, rfl⟩, by simpa using h⟩
      · rintro (⟨h', _⟩ | ⟨_, _, k, ⟨rfl, rfl⟩, h', rfl, rfl⟩)
        · exact h'
        · exact absurd h' h
  | node c ih =>
    unfold Tree.bifurcateIf
    simp only [leafAt_node, ih]
    constructor
    · rintro ⟨k, j, rfl, ⟨h, hp⟩ | ⟨j', a, m, h, hp, rfl, rfl⟩⟩
      · exact .inl ⟨⟨k, j, rfl, h⟩, hp⟩
      · exact .inr ⟨_, a, m, ⟨k, j', rfl, h⟩, hp, descend_child _ _ _, rfl⟩
    · rintro (⟨⟨k, j, rfl, h⟩, hp⟩ | ⟨_, a, m, ⟨k, j', rfl, h⟩, hp, rfl, rfl⟩)
      · exact ⟨k, j, rfl, .inl ⟨h, hp⟩⟩
      · exact ⟨k, _, (descend_child _ _ _).symm, .inr ⟨j', a, m, h, hp, rfl, rfl⟩⟩

theorem leafAt_bifurcateAll {f : α → Seq (2 ^ R) β} {t : Tree R α} {i : Index R} {b : β} :
    LeafAt (t.bifurcateAll f) i b ↔
      ∃ (j : Index R) (a : α) (k : Fin (2 ^ R)), LeafAt t j a ∧ i = j.child k ∧ b = f a k := by
  induction t generalizing i with
  | leaf a =>
    unfold Tree.bifurcateAll
    rw [leafAt_treeOf]
    simp only [leafAt_leaf]
    constructor
    · rintro ⟨k, rfl, rfl⟩; exact ⟨_, a, k, ⟨rfl, rfl⟩, rfl, rfl⟩
    · rintro ⟨_, _, k, ⟨rfl, rfl⟩, rfl, rfl⟩; exact ⟨k, rfl, rfl⟩
  | node c ih =>
    unfold Tree.bifurcateAll
    simp only [leafAt_node, ih]
    constructor
    · rintro ⟨k, j, rfl, ⟨j', a, m, h, rfl, rfl⟩⟩
      exact ⟨_, a, m, ⟨k, j', rfl, h⟩, descend_child _ _ _, rfl⟩
    · rintro ⟨_, a, m, ⟨k, j', rfl, h⟩, rfl, rfl⟩
      exact ⟨k, _, (descend_child _ _ _).symm, ⟨j', a, m, h, rfl, rfl⟩⟩

theorem leaves_treeOf (v : Seq (2 ^ R) α) : leaves (Tree.treeOf v) = List.ofFn v := by
  simp only [Tree.treeOf, leaves, List.ofFn_eq_map]
  exact (List.map_eq_flatMap).symm

theorem leaves_bifurcateIf (p : α → Bool) (f : α → Seq (2 ^ R) α) (t : Tree R α) :
    leaves (t.bifurcateIf p f) = (leaves t).flatMap fun a => if p a then List.ofFn (f a) else [a] := by
  induction t with
  | leaf a =>
    unfold Tree.bifurcateIf
    by_cases h : p a = true
    · rw [if_pos h, leaves_treeOf]; simp [leaves, h]
    · rw [if_neg h]; simp [leaves, h]
  | node c ih =>
    unfold Tree.bifurcateIf
    simp only [leaves, List.flatMap_assoc]
    congr 1; funext k; exact ih k

/-! ### cells inside cells -/

theorem descend_within (k : Nat) (j m : Index R) :
    (Index.descend k j).within m = Index.descend k (j.within m) := by
  ext a
  · simp only [Index.descend, Index.within]; omega
  · simp only [Index.descend, Index.within, Nat.pow_add]; ring

theorem inside_root {i : Index R} : i.Inside Index.root ↔ i.Valid := by
  constructor
  · rintro ⟨m, hm, rfl⟩; rwa [root_within]
  · intro h; exact ⟨i, h, (root_within i).symm⟩

theorem inside_refl (i : Index R) : i.Inside i :=
  ⟨Index.root, fun a => by simp [Index.root], (within_root i).symm⟩

theorem Index.Inside.valid {i j : Index R} (h : i.Inside j) (hj : j.Valid) : i.Valid := by
  obtain ⟨m, hm, rfl⟩ := h; exact within_valid hj hm

theorem inside_descend {k m : Fin (2 ^ R)} {i j : Index R} (hi : i.Valid) (hj : j.Valid) :
    (Index.descend k i).Inside (Index.descend m j) ↔ k = m ∧ i.Inside j := by
  constructor
  · rintro ⟨x, hx, h⟩
    rw [descend_within] at h
    obtain ⟨h1, h2⟩ := descend_inj hi (within_valid hj hx) h
    exact ⟨h1, x, hx, h2⟩
  · rintro ⟨rfl, x, hx, rfl⟩
    exact ⟨x, hx, (descend_within _ _ _).symm⟩

theorem not_root_inside_descend {k : Nat} {j : Index R} : ¬ (Index.root : Index R).Inside (Index.descend k j) := by
  rintro ⟨x, hx, h⟩
  have := congrArg Index.level h
  simp only [Index.root, Index.within, Index.descend] at this
  omega

theorem level_zero_valid {i : Index R} (h : i.level = 0) (hv : i.Valid) : i = Index.root := by
  ext a
  · exact h
  · have := hv a; rw [h] at this; simp at this; simp [Index.root, this]

theorem interiorAt_leaf {a : α} {i : Index R} : ¬ InteriorAt (.leaf a : Tree R α) i := by
  rintro ⟨c, hc⟩
  cases (nodeAt_leaf.1 hc).2

theorem interiorAt_node {c : Fin (2 ^ R) → Tree R α} {i : Index R} :
    InteriorAt (.node c) i ↔ i = Index.root ∨
      ∃ k j, i = Index.descend (Fin.val k) j ∧ InteriorAt (c k) j := by
  constructor
  · rintro ⟨d, hd⟩
    cases hd with
    | here => exact .inl rfl
    | inChild c k j u h => exact .inr ⟨k, j, rfl, d, h⟩
  · rintro (rfl | ⟨k, j, rfl, d, h⟩)
    · exact ⟨c, .here _⟩
    · exact ⟨d, .inChild _ _ _ _ h⟩

theorem InteriorAt.valid {t : Tree R α} {i : Index R} (h : InteriorAt t i) : i.Valid := by
  obtain ⟨c, hc⟩ := h; exact hc.valid

theorem Index.Inside.valid_outer {i j : Index R} (h : i.Inside j) (hi : i.Valid) : j.Valid := by
  obtain ⟨m, hm, rfl⟩ := h
  intro a
  have h1 := hi a
  simp only [Index.within, Nat.pow_add] at h1
  by_contra hc
  have h2 : 2 ^ j.level * 2 ^ m.level ≤ j.coords a * 2 ^ m.level :=
    Nat.mul_le_mul_right _ (Nat.not_lt.1 hc)
  omega

/-- Every valid index is the root or in a child. -/
theorem valid_cases {i : Index R} (h : i.Valid) :
    i = Index.root ∨ ∃ (k : Fin (2 ^ R)) (j : Index R), j.Valid ∧ i = Index.descend k j := by
  obtain ⟨l, x⟩ := i
  cases l with
  | zero => exact .inl (level_zero_valid rfl h)
  | succ l => exact .inr ⟨topChild l x, rest l x, valid_rest h, (descend_top l x).symm⟩

/-! ### update and insert -/

theorem update_code (hs : Shift sh) (f : α → α) (t : Tree R α) (i : Index R) (hv : i.Valid)
    (hl : i.level ≤ 31) :
    ((∃ u, NodeAt t i u) → ∃ r, t.update sh f i = .ok r ∧
      ∀ j b, LeafAt r j b ↔
        (j.Inside i ∧ ∃ a, LeafAt t j a ∧ b = f a) ∨ (¬ j.Inside i ∧ LeafAt t j b)) ∧
    ((¬ ∃ u, NodeAt t i u) → t.update sh f i = .throws .badVariantAccess) := by
  have hz : ∀ t : Tree R α, ∀ j b, LeafAt (t.map f) j b ↔
        (j.Inside Index.root ∧ ∃ a, LeafAt t j a ∧ b = f a) ∨ (¬ j.Inside Index.root ∧ LeafAt t j b) := by
    intro t j b
    rw [leafAt_map, inside_root]
    constructor
    · rintro ⟨a, h, rfl⟩; exact .inl ⟨h.valid, a, h, rfl⟩
    · rintro (⟨_, h⟩ | ⟨h, h'⟩)
      · exact h
      · exact absurd h'.valid h
  induction t generalizing i with
  | leaf a =>
    unfold Tree.update
    by_cases h0 : i.level = 0
    · rw [if_pos h0]
      obtain rfl := level_zero_valid h0 hv
      refine ⟨fun _ => ⟨_, rfl, hz (.leaf a)⟩, fun h => absurd ⟨_, .here _⟩ h⟩
    · rw [if_neg h0]
      refine ⟨?_, fun _ => rfl⟩
      rintro ⟨u, hu⟩
      rw [nodeAt_leaf] at hu
      exact absurd (by rw [hu.1]; rfl) h0
  | node c ih =>
    unfold Tree.update
    by_cases h0 : i.level = 0
    · rw [if_pos h0]
      obtain rfl := level_zero_valid h0 hv
      refine ⟨fun _ => ⟨_, rfl, hz (.node c)⟩, fun h => absurd ⟨_, .here _⟩ h⟩
    · rw [if_neg h0]
      obtain ⟨l, x⟩ := i
      obtain ⟨l, rfl⟩ := Nat.exists_eq_succ_of_ne_zero h0
      have hl' : l ≤ 30 := by simp only at hl; omega
      rw [orthant_eq hs hl', advance_eq hs hl']
      simp only [Outcome.bind_ok, childAt_eq]
      change ((∃ u, NodeAt (.node c) ⟨l + 1, x⟩ u) → ∃ r, (((c (topChild l x)).update sh f (rest l x)).bind
        fun t' => .ok (Tree.node fun m => if m = topChild l x then t' else c m)) = .ok r ∧ _) ∧
        ((¬ ∃ u, NodeAt (.node c) ⟨l + 1, x⟩ u) → (((c (topChild l x)).update sh f (rest l x)).bind
        fun t' => .ok (Tree.node fun m => if m = topChild l x then t' else c m)) = _)
      have hvr := valid_rest hv
      obtain ⟨ih1, ih2⟩ := ih (topChild l x) (rest l x) hvr (by simp only [rest]; omega)
      simp only [nodeAt_node_succ]
      constructor
      · intro h
        obtain ⟨r, hr, hleaf⟩ := ih1 h
        refine ⟨_, by rw [hr]; rfl, ?_⟩
        intro j b
        have hx : (⟨l.succ, x⟩ : Index R) = Index.descend (topChild l x) (rest l x) := (descend_top l x).symm
        rw [hx]
        simp only [leafAt_node]
        constructor
        · rintro ⟨m, j', rfl, h⟩
          by_cases hm : m = topChild l x
          · subst hm
            rw [if_pos rfl] at h
            have hj' := h.valid
            rw [inside_descend hj' hvr]
            rcases (hleaf _ _).1 h with ⟨h1, a, h2, rfl⟩ | ⟨h1, h2⟩
            · exact .inl ⟨⟨rfl, h1⟩, a, ⟨_, _, rfl, h2⟩, rfl⟩
            · exact .inr ⟨fun h => h1 h.2, _, _, rfl, h2⟩
          · rw [if_neg hm] at h
            refine .inr ⟨?_, m, j', rfl, h⟩
            rw [inside_descend h.valid hvr]
            exact fun h => hm h.1
        · rintro (⟨h1, a, ⟨m, j', rfl, h2⟩, rfl⟩ | ⟨h1, m, j', rfl, h2⟩)
          · rw [inside_descend h2.valid hvr] at h1
            obtain ⟨rfl, h1⟩ := h1
            exact ⟨_, j', rfl, by rw [if_pos rfl]; exact (hleaf _ _).2 (.inl ⟨h1, a, h2, rfl⟩)⟩
          · rw [inside_descend h2.valid hvr] at h1
            refine ⟨m, j', rfl, ?_⟩
            by_cases hm : m = topChild l x
            · subst hm
              rw [if_pos rfl]
              exact (hleaf _ _).2 (.inr ⟨fun h => h1 ⟨rfl, h⟩, h2⟩)
            · rw [if_neg hm]; exact h2
      · intro h
        rw [ih2 h]; rfl

theorem insert_code [Inhabited α] (hs : Shift sh) (v : α) (l : Nat) (t : Tree R α) (x : Seq R Nat)
    (hl : l ≤ 31) :
    ((⟨l, x⟩ : Index R).Valid → ¬ InteriorAt t ⟨l, x⟩ → ∃ r, Tree.insert sh v l t ⟨l, x⟩ = .ok r ∧
      LeafAt r ⟨l, x⟩ v ∧
      (∀ j b, LeafAt t j b → ¬ (⟨l, x⟩ : Index R).Inside j → LeafAt r j b) ∧
      (∀ j b, LeafAt r j b → (j = ⟨l, x⟩ ∧ b = v) ∨ (LeafAt t j b ∧ ¬ (⟨l, x⟩ : Index R).Inside j) ∨
        (b = default ∧ j ≠ ⟨l, x⟩ ∧ ∃ m a, LeafAt t m a ∧ (⟨l, x⟩ : Index R).Inside m ∧ j.Inside m)) ∧
      (∀ j, InteriorAt r j ↔ InteriorAt t j ∨ ((⟨l, x⟩ : Index R).Inside j ∧ j ≠ ⟨l, x⟩))) ∧
    ((InteriorAt t ⟨l, x⟩ ∨ ¬ (⟨l, x⟩ : Index R).Valid) →
      Tree.insert sh v l t ⟨l, x⟩ = .throws .outOfRange) := by
  induction l generalizing t x with
  | zero =>
    unfold Tree.insert
    constructor
    · intro hv hi
      have hx := level_zero_valid rfl hv
      have hx0 : x = fun _ => 0 := congrArg Index.coords hx
      rw [hx] at hi ⊢
      subst hx0
      cases t with
      | node c => exact absurd ⟨c, .here _⟩ hi
      | leaf a =>
        refine ⟨.leaf v, ?_, .here _, ?_, ?_, ?_⟩
        · rw [if_neg]
          rw [Bool.or_eq_true, any_coords]
          simp [Index.root, Tree.hasValue]
        · intro j b h h'
          rw [leafAt_leaf] at h
          exact absurd (by rw [h.1]; exact inside_refl _) h'
        · intro j b h
          exact .inl (leafAt_leaf.1 h)
        · intro j
          refine ⟨fun h => absurd h interiorAt_leaf, ?_⟩
          rintro (h | ⟨⟨m, hm, h⟩, hne⟩)
          · exact absurd h interiorAt_leaf
          · exfalso
            apply hne
            have hlev : j.level = 0 := by
              have := congrArg Index.level h
              simp only [Index.root, Index.within] at this; omega
            exact level_zero_valid hlev (Index.Inside.valid_outer ⟨m, hm, h⟩ (by intro a; simp [Index.root]))
    · intro h
      rw [if_pos]
      rw [Bool.or_eq_true]
      rcases h with ⟨c, h⟩ | h
      · right
        rw [(nodeAt_level_zero rfl).1 h |>.2.symm]; rfl
      · left
        rw [any_coords]
        intro hx
        apply h
        intro a
        have : x a = 0 := congrFun hx a
        simp only at this ⊢
        omega
  | succ l ih =>
    unfold Tree.insert
    have hl' : l ≤ 30 := by omega
    simp only
    rw [orthant_eq hs hl', advance_eq hs hl']
    simp only [Outcome.bind_ok, childAt_eq]
    -- the children that the code works on
    generalize hc : t.childrenOrDefault = c
    have hcode : (Tree.insert sh v l (c ⟨toIntegral fun a => decide (2 ^ l ≤ x a), toIntegral_lt _⟩)
        ⟨l, fun a => x a - if 2 ^ l ≤ x a then 2 ^ l else 0⟩) =
        Tree.insert sh v l (c (topChild l x)) (rest l x) := rfl
    rw [hcode]
    obtain ⟨ih1, ih2⟩ := ih (c (topChild l x)) (rest l x).coords (by omega)
    have hrest : (⟨l, (rest l x).coords⟩ : Index R) = rest l x := rfl
    rw [hrest] at ih1 ih2
    have hx : (⟨l + 1, x⟩ : Index R) = Index.descend (topChild l x) (rest l x) := (descend_top l x).symm
    have hvalid : (⟨l + 1, x⟩ : Index R).Valid ↔ (rest l x).Valid :=
      ⟨valid_rest, fun h => by rw [hx]; exact descend_valid h⟩
    have hint : InteriorAt t ⟨l + 1, x⟩ ↔ InteriorAt (c (topChild l x)) (rest l x) := by
      subst hc
      cases t with
      | leaf a =>
        constructor
        · rintro ⟨d, hd⟩
          exact absurd (nodeAt_leaf.1 hd).2 (by simp)
        · rintro ⟨d, hd⟩
          exact absurd (nodeAt_leaf.1 hd).2 (by simp)
      | node c =>
        constructor
        · rintro ⟨d, hd⟩; exact ⟨d, nodeAt_node_succ.1 hd⟩
        · rintro ⟨d, hd⟩; exact ⟨d, nodeAt_node_succ.2 hd⟩
    constructor
    · intro hv hi
      have hvr := hvalid.1 hv
      obtain ⟨r, hr, h1, h2, h3, h4⟩ := ih1 hvr (fun h => hi (hint.2 h))
      refine ⟨_, by rw [hr]; rfl, ?_, ?_, ?_, ?_⟩
      · rw [hx]
        refine leafAt_node.2 ⟨topChild l x, _, rfl, ?_⟩
        simp only [topChild, if_true]
        exact h1
      · intro j b hj hnot
        subst hc
        cases t with
        | leaf a =>
          rw [leafAt_leaf] at hj
          exact absurd (by rw [hj.1, inside_root]; exact hv) hnot
        | node c =>
          have hj2 := leafAt_node.1 hj
          clear hj
          obtain ⟨m, j', rfl, hj⟩ := hj2
          refine leafAt_node.2 ⟨m, j', rfl, ?_⟩
          change LeafAt (if m = topChild l x then r else c m) j' b
          change ∀ j b, LeafAt (c (topChild l x)) j b → _ at h2
          by_cases hm : m = topChild l x
          · subst hm
            rw [if_pos rfl]
            apply h2 _ _ hj
            intro h
            apply hnot
            rw [hx]
            exact (inside_descend hvr hj.valid).2 ⟨rfl, h⟩
          · rw [if_neg hm]; exact hj
      · intro j b hj
        have hj2 := leafAt_node.1 hj
        clear hj
        obtain ⟨m, j', rfl, hj⟩ := hj2
        change LeafAt (if m = topChild l x then r else c m) j' b at hj
        rw [hx]
        subst hc
        cases t with
        | leaf a =>
          by_cases hm : m = topChild l x
          · subst hm
            rw [if_pos rfl] at hj
            have hjv := hj.valid
            rcases h3 _ _ hj with ⟨rfl, rfl⟩ | ⟨h, h'⟩ | ⟨hb, hne, m, a', hm, him, hjm⟩
            · exact .inl ⟨rfl, rfl⟩
            · have h := leafAt_leaf.1 h
              refine absurd (by rw [h.1, inside_root]; exact hvr) h'
            · refine .inr (.inr ⟨hb, ?_, Index.root, a, .here _, ?_, ?_⟩)
              · intro h; exact hne (descend_inj hjv hvr h).2
              · rw [inside_root]; exact descend_valid hvr
              · rw [inside_root]; exact descend_valid hjv
          · rw [if_neg hm] at hj
            have hjv := hj.valid
            have hj := leafAt_leaf.1 hj
            refine .inr (.inr ⟨hj.2, ?_, Index.root, a, .here _, ?_, ?_⟩)
            · intro h; exact hm (descend_inj hjv hvr h).1
            · rw [inside_root]; exact descend_valid hvr
            · rw [inside_root]; exact descend_valid hjv
        | node c =>
          by_cases hm : m = topChild l x
          · subst hm
            rw [if_pos rfl] at hj
            have hjv := hj.valid
            rcases h3 _ _ hj with ⟨rfl, rfl⟩ | ⟨h, h'⟩ | ⟨hb, hne, m, a', hm, him, hjm⟩
            · exact .inl ⟨rfl, rfl⟩
            · refine .inr (.inl ⟨leafAt_node.2 ⟨_, _, rfl, h⟩, ?_⟩)
              rw [inside_descend hvr hjv]
              exact fun h => h' h.2
            · have hmv := hm.valid
              refine .inr (.inr ⟨hb, ?_, Index.descend (topChild l x) m, a', leafAt_node.2 ⟨_, _, rfl, hm⟩, ?_, ?_⟩)
              · intro h; exact hne (descend_inj hjv hvr h).2
              · exact (inside_descend hvr hmv).2 ⟨rfl, him⟩
              · exact (inside_descend hjv hmv).2 ⟨rfl, hjm⟩
          · rw [if_neg hm] at hj
            have hjv := hj.valid
            refine .inr (.inl ⟨leafAt_node.2 ⟨_, _, rfl, hj⟩, ?_⟩)
            rw [inside_descend hvr hjv]
            exact fun h => hm h.1.symm
      · intro j
        change InteriorAt (.node fun m => if m = topChild l x then r else c m) j ↔ _
        rw [hx, interiorAt_node]
        have hcase : ∀ (m : Fin (2 ^ R)) (j' : Index R), j'.Valid →
            (InteriorAt (if m = topChild l x then r else c m) j' ↔
              InteriorAt (c m) j' ∨ ((Index.descend (topChild l x) (rest l x)).Inside (Index.descend m j') ∧
                Index.descend m j' ≠ Index.descend (topChild l x) (rest l x))) := by
          intro m j' hj'
          rw [inside_descend hvr hj']
          by_cases hm : m = topChild l x
          · subst hm
            rw [if_pos rfl, h4]
            constructor
            · rintro (h | ⟨h, h'⟩)
              · exact .inl h
              · exact .inr ⟨⟨rfl, h⟩, fun he => h' (descend_inj hj' hvr he).2⟩
            · rintro (h | ⟨⟨_, h⟩, h'⟩)
              · exact .inl h
              · exact .inr ⟨h, fun he => h' (by rw [he])⟩
          · rw [if_neg hm]
            constructor
            · exact .inl
            · rintro (h | ⟨⟨h, _⟩, _⟩)
              · exact h
              · exact absurd h.symm hm
        have hroot : (Index.descend (topChild l x) (rest l x)).Inside Index.root ∧
            Index.root ≠ Index.descend (topChild l x) (rest l x) :=
          ⟨inside_root.2 (descend_valid hvr), fun h => root_ne_descend h.symm⟩
        have htc : ∀ (m : Fin (2 ^ R)) (j' : Index R), j'.Valid →
            (InteriorAt (c m) j' ↔ InteriorAt t (Index.descend m j')) := by
          intro m j' hj'
          subst hc
          cases t with
          | leaf a => exact ⟨fun h => absurd h interiorAt_leaf, fun h => absurd h interiorAt_leaf⟩
          | node c =>
            constructor
            · rintro ⟨d, hd⟩; exact ⟨d, (nodeAt_descend hj').2 hd⟩
            · rintro ⟨d, hd⟩; exact ⟨d, (nodeAt_descend hj').1 hd⟩
        constructor
        · rintro (rfl | ⟨m, j', rfl, h⟩)
          · exact .inr hroot
          · have hj' := h.valid
            rcases (hcase m j' hj').1 h with h | h
            · exact .inl ((htc m j' hj').1 h)
            · exact .inr h
        · intro h
          have hjv : j.Valid := by
            rcases h with h | ⟨h, _⟩
            · exact h.valid
            · exact h.valid_outer (descend_valid hvr)
          rcases valid_cases hjv with rfl | ⟨m, j', hj', rfl⟩
          · exact .inl rfl
          · refine .inr ⟨m, j', rfl, (hcase m j' hj').2 ?_⟩
            rcases h with h | h
            · exact .inl ((htc m j' hj').2 h)
            · exact .inr h
    · intro h
      rw [ih2]
      · rfl
      · rcases h with h | h
        · exact .inl (hint.1 h)
        · exact .inr (fun h' => h (hvalid.2 h'))

/-- A leaf strictly inside a cell makes the cell subdivided. -/
theorem interior_of_leaf_inside {t : Tree R α} {i j : Index R} {a : α} (h : LeafAt t i a)
    (hij : i.Inside j) (hne : i ≠ j) : InteriorAt t j := by
  have hj : j.Valid := hij.valid_outer h.valid
  induction t generalizing i j with
  | leaf b =>
    obtain ⟨rfl, rfl⟩ := leafAt_leaf.1 h
    exfalso
    obtain ⟨m, hm, he⟩ := hij
    apply hne
    have hlev : j.level = 0 := by
      have := congrArg Index.level he
      simp only [Index.root, Index.within] at this; omega
    exact (level_zero_valid hlev hj).symm
  | node c ih =>
    rw [interiorAt_node]
    rcases valid_cases hj with rfl | ⟨k, j', hj', rfl⟩
    · exact .inl rfl
    · obtain ⟨m, i', rfl, h'⟩ := leafAt_node.1 h
      obtain ⟨rfl, hin⟩ := (inside_descend h'.valid hj').1 hij
      exact .inr ⟨m, j', rfl, ih m h' hin (fun e => hne (by rw [e])) hj'⟩

/-- A subdivided cell has a leaf strictly inside. -/
theorem leaf_of_interior {t : Tree R α} {j : Index R} (h : InteriorAt t j) :
    ∃ i a, LeafAt t i a ∧ i.Inside j ∧ i ≠ j := by
  induction t generalizing j with
  | leaf b => exact absurd h interiorAt_leaf
  | node c ih =>
    rcases interiorAt_node.1 h with rfl | ⟨k, j', rfl, h'⟩
    · obtain ⟨i, a, hi⟩ := exists_leaf (c Tree.first)
      have := leafAt_node.2 ⟨Tree.first, i, rfl, hi⟩
      exact ⟨_, a, this, inside_root.2 this.valid, root_ne_descend⟩
    · obtain ⟨i, a, hi, hin, hne⟩ := ih k h'
      refine ⟨_, a, leafAt_node.2 ⟨k, i, rfl, hi⟩, (inside_descend hi.valid h'.valid).2 ⟨rfl, hin⟩, ?_⟩
      intro e; exact hne (descend_inj hi.valid h'.valid e).2

/-- If all leaves of `t` are leaves of `u` then the trees are equal. -/
theorem tree_eq_of_leaf_subset {t u : Tree R α} (h : ∀ i a, LeafAt t i a → LeafAt u i a) : t = u := by
  induction t generalizing u with
  | leaf a => exact nodeAt_root.1 (h Index.root a (.here _))
  | node c ih =>
    cases u with
    | leaf b =>
      obtain ⟨i, a, hi⟩ := exists_leaf (c Tree.first)
      have := h _ _ (leafAt_node.2 ⟨_, i, rfl, hi⟩)
      exact absurd (leafAt_leaf.1 this).1 root_ne_descend
    | node d =>
      congr 1; funext k
      apply ih
      intro i a hi
      exact (leafAt_descend hi.valid).1 (h _ _ (leafAt_node.2 ⟨k, i, rfl, hi⟩))

end Verif.Tree
