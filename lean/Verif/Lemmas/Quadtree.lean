import Verif.Model.Quadtree
import Verif.Spec.Quadtree
import Verif.Props.Tree
import Verif.Props.TreeIndex

/-! Lemmas on the balancing of quadtrees. -/

namespace Verif.Tree
open Verif Verif.Seq Verif.Nd

variable {R : Nat} {α β : Type} {sh : Nat → Outcome Nat}

theorem mapM_ok {f : α → Outcome β} {g : α → β} {t : Tree R α} (h : ∀ i a, LeafAt t i a → f a = .ok (g a)) :
    t.mapM f = .ok (t.map g) := by
  induction t with
  | leaf a => unfold Tree.mapM; rw [h Index.root a (.here _)]; rfl
  | node c ih =>
    unfold Tree.mapM
    rw [sequence_ok.2 (fun k => ih k fun i a hi => h _ a (leafAt_node.2 ⟨k, i, rfl, hi⟩))]
    rfl

theorem bifurcateIfMM_ok {p : α → Outcome Bool} {q : α → Bool} {f : α → Outcome (Seq (2 ^ R) α)}
    {g : α → Seq (2 ^ R) α} {t : Tree R α} (hp : ∀ i a, LeafAt t i a → p a = .ok (q a))
    (h : ∀ i a, LeafAt t i a → q a = true → f a = .ok (g a)) :
    t.bifurcateIfMM p f = .ok (t.bifurcateIf q g) := by
  induction t with
  | leaf a =>
    unfold Tree.bifurcateIfMM Tree.bifurcateIf
    rw [hp Index.root a (.here _), Outcome.bind_ok]
    cases hq : q a with
    | false => rfl
    | true => rw [if_pos rfl, if_pos rfl, h Index.root a (.here _) hq]; rfl
  | node c ih =>
    unfold Tree.bifurcateIfMM
    rw [sequence_ok.2 (fun k => ih k (fun i a hi => hp _ a (leafAt_node.2 ⟨k, i, rfl, hi⟩))
      fun i a hi => h _ a (leafAt_node.2 ⟨k, i, rfl, hi⟩))]
    rfl

theorem bifurcateIfM_eq {p : α → Bool} {f : α → Outcome (Seq (2 ^ R) α)} {t : Tree R α} :
    t.bifurcateIfM p f = t.bifurcateIfMM (fun a => .ok (p a)) f := by
  induction t with
  | leaf a => rfl
  | node c ih => unfold Tree.bifurcateIfM Tree.bifurcateIfMM; simp only [ih]

/-! ### subtrees -/

theorem nodeAt_within {t u : Tree R α} {j : Index R} (h : NodeAt t j u) {m : Index R} (hm : m.Valid) {v : Tree R α} :
    NodeAt t (j.within m) v ↔ NodeAt u m v := by
  induction h with
  | here t => rw [root_within]
  | inChild c k j u h ih => rw [descend_within, nodeAt_descend (within_valid h.valid hm), ih]

theorem nodeAt_of_inside {t v : Tree R α} {l j : Index R} (h : NodeAt t l v) (hi : l.Inside j) : ∃ u, NodeAt t j u := by
  have hj : j.Valid := hi.valid_outer h.valid
  induction t generalizing l j with
  | leaf b =>
    obtain ⟨rfl, rfl⟩ := nodeAt_leaf.1 h
    obtain ⟨m, hm, he⟩ := hi
    have hlev : j.level = 0 := by
      have := congrArg Index.level he
      simp only [Index.root, Index.within] at this; omega
    exact ⟨_, (nodeAt_level_zero hlev).2 ⟨level_zero_valid hlev hj, rfl⟩⟩
  | node c ih =>
    rcases valid_cases hj with rfl | ⟨k, j', hj', rfl⟩
    · exact ⟨_, .here _⟩
    · generalize hN : Tree.node c = N at h
      cases h with
      | here => exact absurd hi not_root_inside_descend
      | inChild c' m l' _ h' =>
        cases hN
        obtain ⟨rfl, hin⟩ := (inside_descend h'.valid hj').1 hi
        obtain ⟨u, hu⟩ := ih m h' hin hj'
        exact ⟨u, .inChild _ _ _ _ hu⟩

/-- A leaf below a cell that is a node. -/
theorem exists_leaf_inside {t u : Tree R α} {j : Index R} (h : NodeAt t j u) : ∃ l a, LeafAt t l a ∧ l.Inside j := by
  obtain ⟨m, a, hm⟩ := exists_leaf u
  exact ⟨j.within m, a, (nodeAt_within h hm.valid).2 hm, m, hm.valid, rfl⟩

/-- Every valid cell is a node or lies strictly inside a leaf. -/
theorem node_or_inside_leaf (t : Tree R α) {j : Index R} (hj : j.Valid) :
    (∃ u, NodeAt t j u) ∨ ∃ l a, LeafAt t l a ∧ j.Inside l ∧ l.level < j.level := by
  induction t generalizing j with
  | leaf b =>
    by_cases h : j.level = 0
    · exact .inl ⟨_, (nodeAt_level_zero h).2 ⟨level_zero_valid h hj, rfl⟩⟩
    · exact .inr ⟨Index.root, b, .here _, inside_root.2 hj, by simp only [Index.root]; omega⟩
  | node c ih =>
    rcases valid_cases hj with rfl | ⟨k, j', hj', rfl⟩
    · exact .inl ⟨_, .here _⟩
    · rcases ih k hj' with ⟨u, hu⟩ | ⟨l, a, hl, hin, hlt⟩
      · exact .inl ⟨u, .inChild _ _ _ _ hu⟩
      · exact .inr ⟨_, a, leafAt_node.2 ⟨k, l, rfl, hl⟩, (inside_descend hj' hl.valid).2 ⟨rfl, hin⟩, by
          simp only [Index.descend]; omega⟩

/-! ### flags -/

theorem deepNode_code (hs : Shift sh) (t : Tree R α) (j : Index R) (hl : j.level ≤ 31) :
    ∃ b, deepNode sh t j = .ok b ∧ (b = true ↔ ∃ l a, LeafAt t l a ∧ l.Inside j ∧ j.level + 1 < l.level) := by
  obtain ⟨b, hb, hbi⟩ := containsNode_code hs t j hl
  unfold deepNode
  rw [hb, Outcome.bind_ok]
  cases b with
  | false =>
    refine ⟨false, rfl, fun h => absurd h (by decide), ?_⟩
    rintro ⟨l, a, h, hin, _⟩
    exact hbi.2 (nodeAt_of_inside h hin)
  | true =>
    obtain ⟨u, hu⟩ := hbi.1 rfl
    rw [if_pos rfl, ((tree_node_at hs t j hl).1 u).2 hu]
    refine ⟨_, rfl, ?_⟩
    rw [decide_eq_true_iff]
    obtain ⟨⟨i, a, hi, hlev⟩, hle⟩ := tree_depth u
    constructor
    · intro h
      refine ⟨j.within i, a, (nodeAt_within hu hi.valid).2 hi, ⟨i, hi.valid, rfl⟩, ?_⟩
      simp only [Index.within]; omega
    · rintro ⟨_, a, hl, ⟨m, hm, rfl⟩, hlt⟩
      have := hle m a ((nodeAt_within hu hm).1 hl)
      simp only [Index.within] at hlt; omega

theorem neighbour_cases (i j : Index 2) (hv : i.Valid) (hl : i.level ≤ 30) (hs : Shift sh) :
    (Neighbour i j ∧ j.Valid) ↔ i.nextOn sh 0 = .ok j ∨ i.prevOn sh 0 = .ok j ∨ i.nextOn sh 1 = .ok j ∨
      i.prevOn sh 1 = .ok j := by
  have key : ∀ a : Fin 2, ((i.level = j.level ∧ (∀ b, b ≠ a → i.coords b = j.coords b) ∧
      (j.coords a = (i.coords a + 1) % 2 ^ i.level ∨ i.coords a = (j.coords a + 1) % 2 ^ i.level)) ∧ j.Valid) ↔
      i.nextOn sh a = .ok j ∨ i.prevOn sh a = .ok j := by
    intro a
    obtain ⟨n, p, hn, hp, vn, vp, ln, lp, hb, ca, cp, _, _⟩ := index_step hs i hv hl a
    rw [hn, hp]
    constructor
    · rintro ⟨⟨h1, h2, h3⟩, hj⟩
      rcases h3 with h3 | h3
      · left
        congr 1
        ext b
        · rw [ln, h1]
        · by_cases hba : b = a
          · subst hba; rw [ca, h3]
          · rw [(hb b hba).1, h2 b hba]
      · right
        congr 1
        ext b
        · rw [lp, h1]
        · by_cases hba : b = a
          · subst hba
            rw [h3] at cp
            have e1 := vp b
            have e2 := hj b
            rw [lp] at e1
            rw [← h1] at e2
            have := Nat.two_pow_pos i.level
            generalize 2 ^ i.level = M at *
            generalize p.coords b = x at *
            generalize j.coords b = y at *
            rcases Nat.lt_or_ge (x + 1) M with h | h
            · rw [Nat.mod_eq_of_lt h] at cp
              rcases Nat.lt_or_ge (y + 1) M with h' | h'
              · rw [Nat.mod_eq_of_lt h'] at cp; omega
              · have : y + 1 = M := by omega
                rw [this, Nat.mod_self] at cp; omega
            · have hx : x + 1 = M := by omega
              rw [hx, Nat.mod_self] at cp
              rcases Nat.lt_or_ge (y + 1) M with h' | h'
              · rw [Nat.mod_eq_of_lt h'] at cp; omega
              · omega
          · rw [(hb b hba).2, h2 b hba]
    · rintro (h | h)
      · cases h
        exact ⟨⟨ln.symm, fun b hba => ((hb b hba).1).symm, .inl ca⟩, vn⟩
      · cases h
        exact ⟨⟨lp.symm, fun b hba => ((hb b hba).2).symm, .inr cp.symm⟩, vp⟩
  have k0 := key 0
  have k1 := key 1
  simp only [Fin.val_zero, Fin.val_one] at k0 k1
  constructor
  · rintro ⟨⟨h1, a, h2, h3⟩, hj⟩
    have := (key a).1 ⟨⟨h1, h2, h3⟩, hj⟩
    match a, this with
    | 0, this => rcases this with h | h <;> simp_all
    | 1, this => rcases this with h | h <;> simp_all
  · rintro (h | h | h | h)
    · obtain ⟨⟨h1, h2, h3⟩, hj⟩ := k0.2 (.inl h); exact ⟨⟨h1, 0, h2, h3⟩, hj⟩
    · obtain ⟨⟨h1, h2, h3⟩, hj⟩ := k0.2 (.inr h); exact ⟨⟨h1, 0, h2, h3⟩, hj⟩
    · obtain ⟨⟨h1, h2, h3⟩, hj⟩ := k1.2 (.inl h); exact ⟨⟨h1, 1, h2, h3⟩, hj⟩
    · obtain ⟨⟨h1, h2, h3⟩, hj⟩ := k1.2 (.inr h); exact ⟨⟨h1, 1, h2, h3⟩, hj⟩

theorem hasDeepNeighbour_code (hs : Shift sh) (t : Tree 2 α) (i : Index 2) (hv : i.Valid) (hl : i.level ≤ 30) :
    ∃ b, hasDeepNeighbour sh t i = .ok b ∧ (b = true ↔ OverRefined t i) := by
  have hn : ∀ j, Neighbour i j ∧ j.Valid ↔ _ := fun j => neighbour_cases i j hv hl hs
  obtain ⟨n0, p0, en0, ep0, _, _, ln0, lp0, _⟩ := index_step hs i hv hl 0
  obtain ⟨n1, p1, en1, ep1, _, _, ln1, lp1, _⟩ := index_step hs i hv hl 1
  simp only [Fin.val_zero, Fin.val_one] at en0 ep0 en1 ep1
  obtain ⟨b1, h1, e1⟩ := deepNode_code hs t n0 (by omega)
  obtain ⟨b2, h2, e2⟩ := deepNode_code hs t p0 (by omega)
  obtain ⟨b3, h3, e3⟩ := deepNode_code hs t n1 (by omega)
  obtain ⟨b4, h4, e4⟩ := deepNode_code hs t p1 (by omega)
  rw [ln0] at e1
  rw [lp0] at e2
  rw [ln1] at e3
  rw [lp1] at e4
  have hor : OverRefined t i ↔ b1 = true ∨ b2 = true ∨ b3 = true ∨ b4 = true := by
    rw [e1, e2, e3, e4]
    constructor
    · rintro ⟨j, hj, hjv, h⟩
      rcases (hn j).1 ⟨hj, hjv⟩ with hh | hh | hh | hh
      · rw [en0] at hh; cases hh; exact .inl h
      · rw [ep0] at hh; cases hh; exact .inr (.inl h)
      · rw [en1] at hh; cases hh; exact .inr (.inr (.inl h))
      · rw [ep1] at hh; cases hh; exact .inr (.inr (.inr h))
    · rintro (h | h | h | h)
      · have := (hn n0).2 (.inl en0); exact ⟨n0, this.1, this.2, h⟩
      · have := (hn p0).2 (.inr (.inl ep0)); exact ⟨p0, this.1, this.2, h⟩
      · have := (hn n1).2 (.inr (.inr (.inl en1))); exact ⟨n1, this.1, this.2, h⟩
      · have := (hn p1).2 (.inr (.inr (.inr ep1))); exact ⟨p1, this.1, this.2, h⟩
  unfold hasDeepNeighbour
  rw [en0, ep0, en1, ep1, hor]
  simp only [Outcome.bind_ok, h1, h2, h3, h4]
  cases b1 <;> cases b2 <;> cases b3 <;> cases b4 <;> simp

open Classical in
theorem flags_code (hs : Shift sh) (t : Tree 2 α) (D : Nat) (hD : DepthLe t D) (h30 : D ≤ 30) :
    ∃ F, overRefinedNeighbours sh t = .ok F ∧
      ∀ i b, LeafAt F i b ↔ (∃ a, LeafAt t i a) ∧ b = decide (OverRefined t i) := by
  have hi := (tree_indexes t D hD (by omega)).2.2.2.2
  refine ⟨_, mapM_ok (g := fun i => decide (OverRefined t i)) fun i v h => ?_, fun i b => ?_⟩
  · obtain ⟨rfl, a, ha⟩ := (hi i v).1 h
    obtain ⟨b, hb, hbi⟩ := hasDeepNeighbour_code hs t v ha.valid (by have := hD _ _ ha; omega)
    rw [hb]
    congr 1
    rw [Bool.eq_iff_iff, hbi, decide_eq_true_iff]
  · rw [leafAt_map]
    constructor
    · rintro ⟨v, hv, rfl⟩
      obtain ⟨rfl, ha⟩ := (hi i v).1 hv
      exact ⟨ha, rfl⟩
    · rintro ⟨ha, rfl⟩
      exact ⟨i, (hi i i).2 ⟨rfl, ha⟩, rfl⟩

theorem mem_sink {t : Tree R α} {a : α} : a ∈ t.sink ↔ ∃ i, LeafAt t i a := by
  rw [sink_eq_leaves]
  induction t with
  | leaf b => simp [leaves, leafAt_leaf, eq_comm]
  | node c ih =>
    simp only [leaves, List.mem_flatMap, List.mem_finRange, true_and, ih, leafAt_node]
    constructor
    · rintro ⟨k, i, h⟩; exact ⟨_, k, i, rfl, h⟩
    · rintro ⟨_, k, i, _, h⟩; exact ⟨k, i, h⟩

theorem sink_le (t : Tree R α) (D : Nat) (hD : DepthLe t D) : t.sink.length ≤ (2 ^ R) ^ D := by
  rw [sink_eq_leaves]
  induction t generalizing D with
  | leaf a => simp only [leaves, List.length_singleton]; exact Nat.one_le_pow _ _ (Nat.two_pow_pos R)
  | node c ih =>
    obtain ⟨D', rfl, _⟩ := depthLe_child hD Tree.first
    have hk : ∀ k, (leaves (c k)).length ≤ (2 ^ R) ^ D' := fun k => by
      obtain ⟨D'', h, h'⟩ := depthLe_child hD k
      have : D'' = D' := by omega
      subst this
      exact ih k _ h'
    unfold leaves
    rw [List.length_flatMap]
    have : ∀ l : List (Fin (2 ^ R)), (l.map fun k => (leaves (c k)).length).sum ≤ l.length * (2 ^ R) ^ D' := by
      intro l
      induction l with
      | nil => simp
      | cons k l ihl =>
        have := hk k
        simp only [List.map_cons, List.sum_cons, List.length_cons, Nat.add_mul, Nat.one_mul]
        omega
    have h := this (List.finRange (2 ^ R))
    rw [List.length_finRange] at h
    rw [pow_succ, Nat.mul_comm]
    exact h

theorem child_inside (j : Index R) (k : Nat) : (j.child k).Inside j := by
  refine ⟨⟨1, fun a => (k.testBit a).toNat⟩, fun a => ?_, ?_⟩
  · simpa using Bool.toNat_lt (k.testBit a)
  · ext a <;> simp [Index.child, Index.within, mul_comm]

theorem inside_trans {i j l : Index R} (h : i.Inside j) (h' : j.Inside l) : i.Inside l := by
  obtain ⟨m, hm, rfl⟩ := h
  obtain ⟨n, hn, rfl⟩ := h'
  refine ⟨n.within m, within_valid hn hm, ?_⟩
  ext a
  · simp only [Index.within]; omega
  · simp only [Index.within, Nat.pow_add]; ring

/-- One round of refinement. -/
theorem round_code (hs : Shift sh) (refine : α → Outcome (Seq (2 ^ 2) α)) (t : Tree 2 α) (D : Nat) (hD : DepthLe t D)
    (h30 : D ≤ 30) (href : ∀ i a, LeafAt t i a → OverRefined t i → ∃ c, refine a = .ok c) :
    ∃ F p q, overRefinedNeighbours sh t = .ok F ∧ F.pair t = .ok p ∧
      p.bifurcateIfM (fun z => z.1) (fun z => (refine z.2).map fun y k => (z.1, y k)) = .ok q ∧
      (∀ i b, LeafAt (q.map fun z => z.2) i b ↔ (LeafAt t i b ∧ ¬ OverRefined t i) ∨
        ∃ j a k c, LeafAt t j a ∧ OverRefined t j ∧ refine a = .ok c ∧ i = j.child (Fin.val k) ∧ b = c k) ∧
      ((∃ i a, LeafAt t i a ∧ OverRefined t i) → t.sink.length < (q.map fun z => z.2).sink.length) ∧
      (F.any = true ↔ ∃ i a, LeafAt t i a ∧ OverRefined t i) := by
  classical
  obtain ⟨F, hF, hFl⟩ := flags_code hs t D hD h30
  have hsame : SameShape F t := fun i => ⟨fun ⟨b, hb⟩ => ((hFl i b).1 hb).1, fun h => ⟨_, (hFl i _).2 ⟨h, rfl⟩⟩⟩
  obtain ⟨p, hp, hpl⟩ := (binaryOp_code Prod.mk F t).1 hsame
  have hpl' : ∀ i z, LeafAt p i z ↔ LeafAt t i z.2 ∧ z.1 = decide (OverRefined t i) := by
    intro i z
    rw [hpl]
    constructor
    · rintro ⟨a, b, h1, h2, rfl⟩; exact ⟨h2, ((hFl i a).1 h1).2⟩
    · rintro ⟨h1, h2⟩; exact ⟨z.1, z.2, (hFl i z.1).2 ⟨⟨_, h1⟩, h2⟩, h1, rfl⟩
  obtain ⟨_, a0, _⟩ := exists_leaf t
  have : Nonempty (Seq (2 ^ 2) α) := ⟨fun _ => a0⟩
  have hex : ∀ a, ∃ c, (∃ i, LeafAt t i a ∧ OverRefined t i) → refine a = .ok c := by
    intro a
    by_cases h : ∃ i, LeafAt t i a ∧ OverRefined t i
    · obtain ⟨i, h1, h2⟩ := h
      obtain ⟨c, hc⟩ := href i a h1 h2
      exact ⟨c, fun _ => hc⟩
    · exact ⟨fun _ => a0, fun h' => absurd h' h⟩
  choose g hg using hex
  have hq : p.bifurcateIfM (fun z => z.1) (fun z => (refine z.2).map fun y k => (z.1, y k)) =
      .ok (p.bifurcateIf (fun z => z.1) fun z k => (z.1, g z.2 k)) := by
    rw [bifurcateIfM_eq]
    refine bifurcateIfMM_ok (fun _ _ _ => rfl) fun i z hz hz1 => ?_
    obtain ⟨h1, h2⟩ := (hpl' i z).1 hz
    rw [hg z.2 ⟨i, h1, by rw [hz1] at h2; exact of_decide_eq_true h2.symm⟩]
    rfl
  have hpt : p.map (fun z => z.2) = t := by
    apply tree_eq_of_leafAt
    intro i a
    rw [leafAt_map]
    constructor
    · rintro ⟨z, hz, rfl⟩; exact ((hpl' i z).1 hz).1
    · intro h; exact ⟨(decide (OverRefined t i), a), (hpl' i _).2 ⟨h, rfl⟩, rfl⟩
  refine ⟨F, p, _, hF, hp, hq, fun i b => ?_, fun hex => ?_, ?_⟩
  · rw [leafAt_map]
    constructor
    · rintro ⟨z, hz, rfl⟩
      rcases (tree_bifurcate_if _ _ _ _ _).1 hz with ⟨h1, h2⟩ | ⟨j, y, k, h1, h2, rfl, rfl⟩
      · obtain ⟨h3, h4⟩ := (hpl' i z).1 h1
        left
        rw [h2] at h4
        exact ⟨h3, of_decide_eq_false h4.symm⟩
      · obtain ⟨h3, h4⟩ := (hpl' j y).1 h1
        right
        rw [h2] at h4
        have ho := of_decide_eq_true h4.symm
        exact ⟨j, y.2, k, g y.2, h3, ho, hg _ ⟨j, h3, ho⟩, rfl, rfl⟩
    · rintro (⟨h1, h2⟩ | ⟨j, a, k, c, h1, h2, h3, rfl, rfl⟩)
      · exact ⟨(false, b), (tree_bifurcate_if _ _ _ _ _).2 (.inl ⟨(hpl' i _).2 ⟨h1, (decide_eq_false h2).symm⟩, rfl⟩), rfl⟩
      · refine ⟨(true, c k), (tree_bifurcate_if _ _ _ _ _).2 (.inr ⟨j, (true, a), k,
          (hpl' j _).2 ⟨h1, (decide_eq_true h2).symm⟩, rfl, rfl, ?_⟩), rfl⟩
        have e := hg a ⟨j, h1, h2⟩
        rw [h3] at e
        rw [Outcome.ok.inj e]
  · obtain ⟨i, a, h1, h2⟩ := hex
    rw [(tree_map _ _).2.1, List.length_map, (tree_bifurcate_if_size _ _ _).2]
    have e : t.sink.length = p.sink.length := by
      conv_lhs => rw [← hpt]
      rw [(tree_map _ _).2.1, List.length_map]
    have hpos : 0 < p.sink.countP fun z => z.1 :=
      List.countP_pos_iff.2 ⟨(true, a), mem_sink.2 ⟨i, (hpl' i _).2 ⟨h1, (decide_eq_true h2).symm⟩⟩, rfl⟩
    omega
  · rw [((tree_reductions (β := Nat) t).2.2.2 F).1, List.any_eq_true]
    constructor
    · rintro ⟨b, hb, hb'⟩
      obtain ⟨i, hi⟩ := mem_sink.1 hb
      obtain ⟨⟨a, ha⟩, he⟩ := (hFl i b).1 hi
      refine ⟨i, a, ha, of_decide_eq_true ?_⟩
      rw [← he]; exact hb'
    · rintro ⟨i, a, h1, h2⟩
      exact ⟨true, mem_sink.2 ⟨i, (hFl i _).2 ⟨⟨a, h1⟩, (decide_eq_true h2).symm⟩⟩, rfl⟩

/-- A balanced tree that refines a tree subdivides the over-refined leaves of the latter. -/
theorem balanced_refines_round {t r : Tree 2 α} {u : Tree 2 β} (hu : Balanced u) (hut : Refines u t)
    (h1 : ∀ i a, LeafAt t i a → ¬ OverRefined t i → LeafAt r i a)
    (h2 : ∀ i a (k : Fin (2 ^ 2)), LeafAt t i a → OverRefined t i → ∃ b, LeafAt r (i.child k) b) : Refines u r := by
  intro i a hi
  obtain ⟨j, b, hj, hin⟩ := hut i a hi
  by_cases ho : OverRefined t j
  · obtain ⟨m, hm, rfl⟩ := hin
    rcases valid_cases hm with rfl | ⟨k, m', hm', rfl⟩
    · exfalso
      rw [within_root] at hi
      obtain ⟨n, hn, hnv, l, c, hl, hln, hlev⟩ := ho
      refine hu j a hi ⟨n, hn, hnv, ?_⟩
      rcases node_or_inside_leaf u hl.valid with ⟨v, hv⟩ | ⟨m, d, hmd, hlm, hlt⟩
      · obtain ⟨x, e, hx, hxl⟩ := exists_leaf_inside hv
        refine ⟨x, e, hx, inside_trans hxl hln, ?_⟩
        obtain ⟨y, _, rfl⟩ := hxl
        simp only [Index.within]; omega
      · exfalso
        obtain ⟨j', b', hj', hmj⟩ := hut m d hmd
        have e := tree_leaf_disjoint t l j' c b' hl hj' (inside_trans hlm hmj)
        obtain ⟨y, _, hy⟩ := hmj
        have := congrArg Index.level hy
        simp only [Index.within, ← e] at this
        omega
    · obtain ⟨c, hc⟩ := h2 j b k hj ho
      exact ⟨_, c, hc, m', hm', by rw [child_within]⟩
  · exact ⟨j, b, h1 j b hj ho, hin⟩

/-- The loop: if a property `Q` of cells and blocks is handed down by the division of blocks. -/
theorem ensureValid_code (hs : Shift sh) (refine : α → Outcome (Seq (2 ^ 2) α)) (D : Nat) (h30 : D ≤ 30)
    (Q : Index 2 → α → Prop)
    (hQ : ∀ i a, i.level < D → i.Valid → Q i a → ∃ c, refine a = .ok c ∧ ∀ k, Q (i.child (Fin.val k)) (c k)) :
    ∀ (n : Nat) (t : Tree 2 α), (2 ^ 2) ^ D < t.sink.length + n → DepthLe t D → (∀ i a, LeafAt t i a → Q i a) →
    ∃ N r, (∀ fuel, N ≤ fuel → ensureValidQuadtree sh refine fuel t = .ok r) ∧ Balanced r ∧ DepthLe r D ∧
      (∀ i a, LeafAt r i a → Q i a) ∧ (∀ i a, LeafAt r i a → ∃ j b, LeafAt t j b ∧ i.Inside j) ∧
      (Balanced t → r = t) ∧ (∀ (β : Type) (u : Tree 2 β), Balanced u → Refines u t → Refines u r) := by
  intro n
  induction n with
  | zero =>
    intro t h hD
    have := sink_le t D hD
    omega
  | succ n ih =>
    intro t h hD hQt
    have hlt : ∀ i a, LeafAt t i a → OverRefined t i → i.level + 1 < D := by
      rintro i a hi ⟨j, _, _, l, b, hl, _, hlev⟩
      have := hD l b hl
      omega
    obtain ⟨F, p, q, hF, hp, hq, hr, hsz, hany⟩ := round_code hs refine t D hD h30 fun i a hi ho => by
      obtain ⟨c, hc, _⟩ := hQ i a (by have := hlt i a hi ho; omega) hi.valid (hQt i a hi)
      exact ⟨c, hc⟩
    set r := q.map fun z => z.2 with hrdef
    have hrD : DepthLe r D := by
      intro i b hb
      rcases (hr i b).1 hb with ⟨h1, _⟩ | ⟨j, a, k, c, h1, h2, h3, rfl, rfl⟩
      · exact hD i b h1
      · have := hlt j a h1 h2
        simp only [Index.child]; omega
    have hrQ : ∀ i a, LeafAt r i a → Q i a := by
      intro i b hb
      rcases (hr i b).1 hb with ⟨h1, _⟩ | ⟨j, a, k, c, h1, h2, h3, rfl, rfl⟩
      · exact hQt i b h1
      · obtain ⟨c', hc', hk⟩ := hQ j a (by have := hlt j a h1 h2; omega) h1.valid (hQt j a h1)
        rw [h3] at hc'
        rw [Outcome.ok.inj hc']
        exact hk k
    have hrI : ∀ i a, LeafAt r i a → ∃ j b, LeafAt t j b ∧ i.Inside j := by
      intro i b hb
      rcases (hr i b).1 hb with ⟨h1, _⟩ | ⟨j, a, k, c, h1, h2, h3, rfl, rfl⟩
      · exact ⟨i, b, h1, inside_refl i⟩
      · exact ⟨j, a, h1, child_inside j k⟩
    have hsame : (¬ ∃ i a, LeafAt t i a ∧ OverRefined t i) → r = t := by
      intro hno
      symm
      apply tree_eq_of_leaf_subset
      intro i a hi
      exact (hr i a).2 (.inl ⟨hi, fun ho => hno ⟨i, a, hi, ho⟩⟩)
    obtain ⟨G, hG, _⟩ := flags_code hs r D hrD h30
    have hGany : G.any = true ↔ ∃ i a, LeafAt r i a ∧ OverRefined r i := by
      obtain ⟨G', _, _, hG', _, _, _, _, h'⟩ := round_code hs refine r D hrD h30 fun i a hi ho => by
        obtain ⟨j, _, _, l, b, hl, _, hlev⟩ := ho
        have := hrD l b hl
        obtain ⟨c, hc, _⟩ := hQ i a (by omega) hi.valid (hrQ i a hi)
        exact ⟨c, hc⟩
      rw [hG] at hG'
      rw [Outcome.ok.inj hG']; exact h'
    have hstep : ∀ fuel, ensureValidQuadtree sh refine (fuel + 1) t =
        if G.any then ensureValidQuadtree sh refine fuel r else .ok r := by
      intro fuel
      rw [ensureValidQuadtree, hF, Outcome.bind_ok, hp, Outcome.bind_ok, hq, Outcome.bind_ok, ← hrdef, hG,
        Outcome.bind_ok]
    have hmin : ∀ (β : Type) (u : Tree 2 β), Balanced u → Refines u t → Refines u r := fun β u hu hut =>
      balanced_refines_round hu hut (fun i a h1 h2 => (hr i a).2 (.inl ⟨h1, h2⟩)) (fun i a k h1 h2 => by
        obtain ⟨c, hc, _⟩ := hQ i a (by have := hlt i a h1 h2; omega) h1.valid (hQt i a h1)
        exact ⟨c k, (hr _ _).2 (.inr ⟨i, a, k, c, h1, h2, hc, rfl, rfl⟩)⟩)
    by_cases hg : G.any = true
    · have hflag : ∃ i a, LeafAt t i a ∧ OverRefined t i := by
        by_contra hno
        have e := hsame hno
        rw [e] at hGany
        exact hno (hGany.1 hg)
      have hs' := hsz hflag
      obtain ⟨N, r', h1, h2, h3, h4, h5, h6, h7⟩ := ih r (by omega) hrD hrQ
      refine ⟨N + 1, r', fun fuel hf => ?_, h2, h3, h4, fun i a hi => ?_, fun hb => ?_,
        fun β u hu hut => h7 β u hu (hmin β u hu hut)⟩
      · obtain ⟨m, rfl⟩ : ∃ m, fuel = m + 1 := ⟨fuel - 1, by omega⟩
        rw [hstep, if_pos hg, h1 m (by omega)]
      · obtain ⟨j, b, hj, hin⟩ := h5 i a hi
        obtain ⟨l, c, hl, hin'⟩ := hrI j b hj
        exact ⟨l, c, hl, inside_trans hin hin'⟩
      · obtain ⟨i, a, hi, ho⟩ := hflag
        exact absurd ho (hb i a hi)
    · refine ⟨1, r, fun fuel hf => ?_, fun i a hi ho => hg (hGany.2 ⟨i, a, hi, ho⟩), hrD, hrQ, hrI, fun hb => ?_,
        hmin⟩
      · obtain ⟨m, rfl⟩ : ∃ m, fuel = m + 1 := ⟨fuel - 1, by omega⟩
        rw [hstep, if_neg hg]
      · exact hsame fun ⟨i, a, hi, ho⟩ => hb i a hi ho

end Verif.Tree
