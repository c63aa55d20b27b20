import Verif.Lemmas.Along
import Verif.Props.QuadtreeLookup

/-!
# One block of the flux correction
-/

namespace Verif.Tree

open Verif

variable {R : Nat} {α β : Type} {sh : Nat → Outcome Nat}

/-- A function of the index mapped over the leaves of a tree. -/
theorem mapIndexes_ok {f : Index R → Outcome β} {P : Index R → β → Prop} (t : Tree R α) (D : Nat) (hD : DepthLe t D) (h30 : D < 64)
    (h : ∀ i a, LeafAt t i a → ∃ B, f i = .ok B ∧ P i B) :
    ∃ u, Tree.mapM f (t.indexes ⟨0, fun _ => 0⟩) = .ok u ∧ SameShape u t ∧ ∀ i B, LeafAt u i B → f i = .ok B ∧ P i B := by
  classical
  have hroot : (⟨0, fun _ => 0⟩ : Index R) = Index.root := rfl
  rw [hroot]
  have hv : (Index.root : Index R).Valid := fun a => by simp [Index.root]
  obtain ⟨i0, a0, h0⟩ := exists_leaf t
  obtain ⟨B0, _, _⟩ := h i0 a0 h0
  have hli := leafAt_indexes t Index.root hv D hD (by simpa [Index.root] using h30)
  let G : Index R → β := fun i => if hi : ∃ a, LeafAt t i a then (h i _ hi.choose_spec).choose else B0
  have hG : ∀ i, (∃ a, LeafAt t i a) → f i = .ok (G i) ∧ P i (G i) := by
    intro i hi
    have := (h i _ hi.choose_spec).choose_spec
    simp only [G, dif_pos hi]
    exact this
  refine ⟨(t.indexes Index.root).map G, mapM_ok fun i v hi => ?_, fun i => ?_, fun i B hi => ?_⟩
  · obtain ⟨h1, h2⟩ := (hli i v).1 hi
    rw [root_within] at h2
    subst h2
    exact (hG v h1).1
  · constructor
    · rintro ⟨b, hb⟩
      obtain ⟨v, hv, _⟩ := leafAt_map.1 hb
      exact ((hli i v).1 hv).1
    · intro hi
      exact ⟨_, leafAt_map.2 ⟨_, (hli i _).2 ⟨hi, rfl⟩, rfl⟩⟩
  · obtain ⟨v, hv, rfl⟩ := leafAt_map.1 hi
    obtain ⟨h1, h2⟩ := (hli i v).1 hv
    rw [root_within] at h2
    subst h2
    exact hG v h1

theorem Follows.level {wrap : Prop} {a : Fin R} {i j : Index R} (h : Follows wrap a i j) : i.level = j.level := h.1

theorem follows_mono {wrap : Prop} {a : Fin R} {i j : Index R} (h : Follows wrap a i j) : Follows True a i j :=
  ⟨h.1, h.2.1, h.2.2.imp id fun h => ⟨trivial, h.2⟩⟩

theorem follows_iff {a : Fin R} {i j : Index R} (hi : i.Valid) (hj : j.Valid) : Follows True a i j ↔
    i.level = j.level ∧ (∀ b, b ≠ a → i.coords b = j.coords b) ∧ j.coords a = (i.coords a + 1) % 2 ^ i.level := by
  constructor
  · intro h
    obtain ⟨h1, h2, h3⟩ := h
    refine ⟨h1, h2, ?_⟩
    have := hj a
    rw [← h1] at this
    rcases h3 with h3 | ⟨_, h3, h4⟩
    · rw [← h3, Nat.mod_eq_of_lt this]
    · rw [h3, h4, Nat.mod_self]
  · rintro ⟨h1, h2, h3⟩
    refine ⟨h1, h2, ?_⟩
    have := hi a
    by_cases hlt : i.coords a + 1 < 2 ^ i.level
    · rw [Nat.mod_eq_of_lt hlt] at h3
      exact Or.inl h3
    · have e : i.coords a + 1 = 2 ^ i.level := by omega
      rw [e, Nat.mod_self] at h3
      exact Or.inr ⟨trivial, e, h3⟩

theorem nextOn_follows (hs : Shift sh) {i : Index R} (hv : i.Valid) (hl : i.level ≤ 30) (a : Fin R) :
    ∃ j, i.nextOn sh a = .ok j ∧ j.Valid ∧ Follows True a i j := by
  obtain ⟨n, p, h1, _, h3, _, h5, _, h7, h8, _⟩ := index_step hs i hv hl a
  exact ⟨n, h1, h3, (follows_iff hv h3).2 ⟨h5.symm, fun b hb => (h7 b hb).1.symm, h8⟩⟩

theorem prevOn_follows (hs : Shift sh) {i : Index R} (hv : i.Valid) (hl : i.level ≤ 30) (a : Fin R) :
    ∃ j, i.prevOn sh a = .ok j ∧ j.Valid ∧ Follows True a j i := by
  obtain ⟨n, p, _, h2, _, h4, _, h6, h7, _, h9, _⟩ := index_step hs i hv hl a
  exact ⟨p, h2, h4, (follows_iff h4 hv).2 ⟨h6, fun b hb => (h7 b hb).2, by rw [h6]; exact h9.symm⟩⟩

theorem Follows.unique_next {a : Fin R} {i j k : Index R} (hi : i.Valid) (hj : j.Valid) (hk : k.Valid) (h : Follows True a i j)
    (h' : Follows True a i k) : j = k := by
  obtain ⟨h1, h2, h3⟩ := (follows_iff hi hj).1 h
  obtain ⟨g1, g2, g3⟩ := (follows_iff hi hk).1 h'
  ext b
  · exact h1.symm.trans g1
  · by_cases hb : b = a
    · rw [hb, h3, g3]
    · rw [← h2 b hb, ← g2 b hb]

theorem Follows.unique_prev {a : Fin R} {i j k : Index R} (hj : j.Valid) (hk : k.Valid) (h : Follows True a j i)
    (h' : Follows True a k i) : j = k := by
  obtain ⟨h1, h2, h3⟩ := h
  obtain ⟨g1, g2, g3⟩ := h'
  have e1 : j.level = k.level := h1.trans g1.symm
  ext b
  · exact e1
  · by_cases hb : b = a
    · subst hb
      have := hj b
      have := hk b
      rw [e1] at h3
      rcases h3 with h3 | ⟨_, h3, h4⟩ <;> rcases g3 with g3 | ⟨_, g3, g4⟩ <;> omega
    · rw [h2 b hb, g2 b hb]

end Verif.Tree

namespace Verif.Binary

open Verif Verif.Nd Verif.Tree

variable {K : Type} {sh : Nat → Outcome Nat}

theorem childOn_eq (a : Fin 2) (s m : Bool) : childOn a s.toNat m.toNat = Index.root.child (corner a s m) := by
  ext b
  · rfl
  · fin_cases a <;> fin_cases b <;> cases s <;> cases m <;> rfl

variable [AddCommGroup K] [Inhabited K]

omit [Inhabited K] in
/-- The fluxes of a divided neighbour, added in pairs. -/
theorem joined_ok (hs : Shift sh) {a : Fin 2} {N : Nat} (hN : 1 ≤ N) (hN2 : (N + 1) * N < 2 ^ 31) {s : Bool} {c : Fin (2 ^ 2) → Arr 2 K}
    {g : Fin (2 ^ 2) → Nat → Nat → K} (hg : ∀ k, Along a (c k) (N + 1) N (g k)) :
    ∃ D, joined sh a s.toNat (.node fun k => .leaf (c k)) = .ok D ∧
      Along a D (N + 1) N (fun x y =>
        (if 2 * y < N then g (corner a s false) x (2 * y) else g (corner a s true) x (2 * y - N)) +
        (if 2 * y + 1 < N then g (corner a s false) x (2 * y + 1) else g (corner a s true) x (2 * y + 1 - N))) := by
  have hsmall : N < 2 ^ 31 := lt_of_le_of_lt (Nat.le_mul_of_pos_left N (Nat.succ_pos N)) hN2
  have hat : ∀ m : Bool, Verif.Tree.Tree.at' sh (Verif.Tree.Tree.node fun k => Tree.Tree.leaf (c k)) (childOn a s.toNat m.toNat) = .ok (c (corner a s m)) := by
    intro m
    rw [childOn_eq]
    refine ((tree_at hs _ _ (by simp [Index.child, Index.root])).1 _).2 ?_
    exact nodeAt_child (.here _) _
  obtain ⟨C, e1, h1⟩ := (hg (corner a s false)).concatOther (hg (corner a s true)) (by omega)
  obtain ⟨D, e2, h2⟩ := (h1.congr rfl (two_mul N).symm (fun _ _ _ _ => rfl)).restrictOther hN (by omega) (by omega)
  refine ⟨D, ?_, h2⟩
  unfold joined
  have h0 := hat false
  have h1 := hat true
  rw [Bool.toNat_false] at h0
  rw [Bool.toNat_true] at h1
  rw [h0, Outcome.bind_ok, h1, Outcome.bind_ok, e1, Outcome.bind_ok, e2]

theorem parent_child {R : Nat} {m : Index R} {k : Nat} (hl : m.level < 2 ^ 64 - 1) : (m.child k).parentIndex = m := by
  ext b
  · simp only [Index.parentIndex, Index.child]
    rw [decr_succ (by omega)]
  · simp only [Index.parentIndex, Index.child]
    have := Bool.toNat_le (k.testBit b)
    omega

theorem correctLower_ok (hs : TotalShift sh) (t : Tree 2 (Arr 2 K)) (D : Nat) (hD : DepthLe t D) (h30 : D ≤ 30) (hb : Balanced t)
    (a : Fin 2) (N : Nat) (hN : 1 ≤ N) (hN2 : (N + 1) * N < 2 ^ 31) (f : Index 2 → Nat → Nat → K)
    (hf : ∀ i b, LeafAt t i b → Along a b (N + 1) N (f i)) (i : Index 2) (b : Arr 2 K) (hi : LeafAt t i b)
    (F : Arr 2 K) (p : Nat → Nat → K) (hF : Along a F (N + 1) N p) (hp : ∀ y, y < N → p 0 y = f i 0 y) :
    ∃ F' q, correctLower sh a t i F = .ok F' ∧ Along a F' (N + 1) N q ∧ (∀ x y, 0 < x → x ≤ N → y < N → q x y = p x y) ∧
      LowerCorrected a N t f i (q 0) := by
  have hsmall : N < 2 ^ 31 := lt_of_le_of_lt (Nat.le_mul_of_pos_left N (Nat.succ_pos N)) hN2
  have hlev := hD i b hi
  obtain ⟨j, ej, hjv, hfol⟩ := prevOn_follows hs.1 hi.valid (by omega : i.level ≤ 30) a
  have hjl : j.level = i.level := hfol.1
  have huniq : ∀ k, k.Valid → Follows True a k i → k = j := fun k hk hf => Follows.unique_prev hk hjv hf hfol
  unfold correctLower
  rw [ej, Outcome.bind_ok]
  rcases neighbour_node hb hi (by omega) (Or.inr ⟨(hfol.neighbour hi.valid).symm, hjv⟩) with ⟨x, hx⟩ | ⟨x, n, hx, hn, h0⟩ | ⟨c, hc⟩
  · refine ⟨F, p, ?_, hF, fun _ _ _ _ _ => rfl, fun k hk hfk => ?_⟩
    · rw [(contains_leaf hs.1 hx (by omega)).1, Outcome.bind_ok, if_pos rfl]
    · obtain rfl := huniq k hk hfk
      refine ⟨fun _ _ => hp, fun _ _ _ _ _ => hp, fun c hc => ?_⟩
      exact absurd (nodeAt_unique hx hc) (by simp)
  · have hpl : j.parentIndex.level + 1 = j.level := by
      have := congrArg Index.level hn
      simp only [Index.child] at this
      omega
    refine ⟨F, p, ?_, hF, fun _ _ _ _ _ => rfl, fun k hk hfk => ?_⟩
    · have e := contains_below_leaf hs.1 hx n (by omega)
      rw [← hn] at e
      rw [e, Outcome.bind_ok, if_neg (by decide), (contains_leaf hs.1 hx (by omega)).1, Outcome.bind_ok, if_pos rfl]
    · obtain rfl := huniq k hk hfk
      refine ⟨fun _ _ => hp, fun _ _ _ _ _ => hp, fun c hc => ?_⟩
      rw [hn] at hc
      exact absurd hc (not_node_of_parent_leaf hx n)
  · have hint : InteriorAt t j := ⟨_, hc⟩
    obtain ⟨h1, h2⟩ := contains_interior hs hint D hD h30
    have hg : ∀ k, Along a (c k) (N + 1) N (f (j.child k)) := fun k => hf _ _ (nodeAt_child hc k)
    obtain ⟨J, e1, d1⟩ := joined_ok hs.1 hN hN2 (s := true) hg
    rw [Bool.toNat_true] at e1
    obtain ⟨lo, e2, d2⟩ := d1.selectFinal (l := 1) (by omega) (by omega) (by omega)
    obtain ⟨up, e3, d3⟩ := hF.dropFirst (by omega) (by omega)
    obtain ⟨C, e4, d4⟩ := d2.concat d3 (by omega)
    obtain ⟨E, e5, d5⟩ := (d4.congr (Nat.add_comm 1 N) rfl (fun _ _ _ _ => rfl)).evaluate (by omega) hN hN2
    refine ⟨E, _, ?_, d5, fun x y h0 _ _ => ?_, fun k hk hfk => ?_⟩
    · rw [h1, Outcome.bind_ok, if_neg (by decide), h2, Outcome.bind_ok, if_neg (by decide),
        ((tree_node_at hs.1 t j (by omega)).1 _).2 hc, Outcome.bind_ok, e1, Outcome.bind_ok, e2, Outcome.bind_ok, e3, Outcome.bind_ok,
        e4, Outcome.bind_ok, e5]
    · rw [if_neg (by omega), Nat.sub_add_cancel h0]
    · obtain rfl := huniq k hk hfk
      refine ⟨fun x hx => absurd (nodeAt_unique hx hc) (by simp), fun m x n hx hn => ?_, fun c' _ y _ => ?_⟩
      · rw [hn] at hc
        exact absurd hc (not_node_of_parent_leaf hx n)
      · dsimp only
        rw [if_pos Nat.zero_lt_one, Nat.add_sub_cancel, Nat.add_zero]
        rfl

theorem correctUpper_ok (hs : TotalShift sh) (t : Tree 2 (Arr 2 K)) (D : Nat) (hD : DepthLe t D) (h30 : D ≤ 30) (hb : Balanced t)
    (a : Fin 2) (N : Nat) (hN : 1 ≤ N) (hN2 : (N + 1) * N < 2 ^ 31) (f : Index 2 → Nat → Nat → K)
    (hf : ∀ i b, LeafAt t i b → Along a b (N + 1) N (f i)) (i : Index 2) (b : Arr 2 K) (hi : LeafAt t i b)
    (F : Arr 2 K) (p : Nat → Nat → K) (hF : Along a F (N + 1) N p) (hp : ∀ y, y < N → p N y = f i N y) :
    ∃ F' q, correctUpper sh a t i F = .ok F' ∧ Along a F' (N + 1) N q ∧ (∀ x y, x < N → y < N → q x y = p x y) ∧
      UpperCorrected a N t f i (q N) := by
  have hsmall : N < 2 ^ 31 := lt_of_le_of_lt (Nat.le_mul_of_pos_left N (Nat.succ_pos N)) hN2
  have hlev := hD i b hi
  obtain ⟨j, ej, hjv, hfol⟩ := nextOn_follows hs.1 hi.valid (by omega : i.level ≤ 30) a
  have hjl : i.level = j.level := hfol.1
  have huniq : ∀ k, k.Valid → Follows True a i k → k = j := fun k hk hf => Follows.unique_next hi.valid hk hjv hf hfol
  unfold correctUpper
  rw [ej, Outcome.bind_ok]
  rcases neighbour_node hb hi (by omega) (Or.inr ⟨hfol.neighbour hjv, hjv⟩) with ⟨x, hx⟩ | ⟨x, n, hx, hn, h0⟩ | ⟨c, hc⟩
  · refine ⟨F, p, ?_, hF, fun _ _ _ _ => rfl, fun k hk hfk => ?_⟩
    · rw [(contains_leaf hs.1 hx (by omega)).1, Outcome.bind_ok, if_pos rfl]
    · obtain rfl := huniq k hk hfk
      refine ⟨fun _ _ => hp, fun _ _ _ _ _ => hp, fun c hc => ?_⟩
      exact absurd (nodeAt_unique hx hc) (by simp)
  · have hpl : j.parentIndex.level + 1 = j.level := by
      have := congrArg Index.level hn
      simp only [Index.child] at this
      omega
    refine ⟨F, p, ?_, hF, fun _ _ _ _ => rfl, fun k hk hfk => ?_⟩
    · have e := contains_below_leaf hs.1 hx n (by omega)
      rw [← hn] at e
      rw [e, Outcome.bind_ok, if_neg (by decide), (contains_leaf hs.1 hx (by omega)).1, Outcome.bind_ok, if_pos rfl]
    · obtain rfl := huniq k hk hfk
      refine ⟨fun _ _ => hp, fun _ _ _ _ _ => hp, fun c hc => ?_⟩
      rw [hn] at hc
      exact absurd hc (not_node_of_parent_leaf hx n)
  · have hint : InteriorAt t j := ⟨_, hc⟩
    obtain ⟨h1, h2⟩ := contains_interior hs hint D hD h30
    have hg : ∀ k, Along a (c k) (N + 1) N (f (j.child k)) := fun k => hf _ _ (nodeAt_child hc k)
    obtain ⟨J, e1, d1⟩ := joined_ok hs.1 hN hN2 (s := false) hg
    rw [Bool.toNat_false] at e1
    obtain ⟨up, e2, d2⟩ := d1.selectFirst (l := 1) (by omega) (by omega) (by omega)
    obtain ⟨lo, e3, d3⟩ := hF.dropFinal (by omega) (by omega)
    obtain ⟨C, e4, d4⟩ := d3.concat d2 (by omega)
    obtain ⟨E, e5, d5⟩ := d4.evaluate (by omega) hN hN2
    refine ⟨E, _, ?_, d5, fun x y h0 _ => ?_, fun k hk hfk => ?_⟩
    · rw [h1, Outcome.bind_ok, if_neg (by decide), h2, Outcome.bind_ok, if_neg (by decide),
        ((tree_node_at hs.1 t j (by omega)).1 _).2 hc, Outcome.bind_ok, e1, Outcome.bind_ok, e2, Outcome.bind_ok, e3, Outcome.bind_ok,
        e4, Outcome.bind_ok, e5]
    · rw [if_pos h0]
    · obtain rfl := huniq k hk hfk
      refine ⟨fun x hx => absurd (nodeAt_unique hx hc) (by simp), fun m x n hx hn => ?_, fun c' _ y _ => ?_⟩
      · rw [hn] at hc
        exact absurd hc (not_node_of_parent_leaf hx n)
      · dsimp only
        rw [if_neg (lt_irrefl N), Nat.sub_self]
        rfl

end Verif.Binary
