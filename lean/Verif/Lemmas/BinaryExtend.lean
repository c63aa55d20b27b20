import Verif.Spec.BinaryMesh
import Verif.Lemmas.FluxCorrection
import Verif.Lemmas.Mesh

/-!
# Guard cells of the binary program
-/

namespace Verif.Tree

open Verif Verif.Nd

variable {R : Nat} {α β γ : Type} {sh : Nat → Outcome Nat}

/-- Leaves carry one value only. -/
theorem leaf_unique {t : Tree R α} {i : Index R} {a b : α} (ha : LeafAt t i a) (hb : LeafAt t i b) : a = b := by
  have := nodeAt_unique ha hb
  injection this

/-- A function of the index mapped over the leaves of a tree, with a description of the results. -/
theorem mapIndexes_choose [Inhabited γ] {f : Index R → Outcome β} {P : Index R → β → γ → Prop} (t : Tree R α) (D : Nat) (hD : DepthLe t D)
    (h64 : D < 64) (h : ∀ i a, LeafAt t i a → ∃ B q, f i = .ok B ∧ P i B q) :
    ∃ (u : Tree R β) (g : Index R → γ), Tree.mapM f (t.indexes ⟨0, fun _ => 0⟩) = .ok u ∧ SameShape u t ∧ ∀ i B, LeafAt u i B → f i = .ok B ∧ P i B (g i) := by
  classical
  obtain ⟨u, e, hsh, hl⟩ := mapIndexes_ok (P := fun i B => ∃ q, P i B q) t D hD h64 fun i a hi => by
    obtain ⟨B, q, h1, h2⟩ := h i a hi
    exact ⟨B, h1, q, h2⟩
  have hex : ∀ i, ∃ q : γ, ∀ B, LeafAt u i B → P i B q := by
    intro i
    by_cases hi : ∃ B, LeafAt u i B
    · obtain ⟨B, hB⟩ := hi
      obtain ⟨_, q, hq⟩ := hl i B hB
      exact ⟨q, fun B' hB' => leaf_unique hB hB' ▸ hq⟩
    · exact ⟨default, fun B hB => absurd ⟨B, hB⟩ hi⟩
  choose g hg using hex
  exact ⟨u, g, e, hsh, fun i B hB => ⟨(hl i B hB).1, hg i B hB⟩⟩

theorem mapM_choose [Inhabited γ] {f : α → Outcome β} {P : Index R → β → γ → Prop} (t : Tree R α)
    (h : ∀ i a, LeafAt t i a → ∃ B q, f a = .ok B ∧ P i B q) :
    ∃ (u : Tree R β) (g : Index R → γ), Tree.mapM f t = .ok u ∧ SameShape u t ∧ ∀ i B, LeafAt u i B → P i B (g i) := by
  classical
  obtain ⟨i0, a0, h0⟩ := exists_leaf t
  obtain ⟨B0, _, _, _⟩ := h i0 a0 h0
  let G : α → β := fun a => if ha : ∃ B, f a = .ok B then ha.choose else B0
  have hG : ∀ i a, LeafAt t i a → f a = .ok (G a) := by
    intro i a hi
    obtain ⟨B, _, hB, _⟩ := h i a hi
    have ha : ∃ B, f a = .ok B := ⟨B, hB⟩
    simp only [G, dif_pos ha]
    exact ha.choose_spec
  have hex : ∀ i, ∃ q : γ, ∀ a, LeafAt t i a → P i (G a) q := by
    intro i
    by_cases hi : ∃ a, LeafAt t i a
    · obtain ⟨a, ha⟩ := hi
      obtain ⟨B, q, hB, hq⟩ := h i a ha
      rw [hG i a ha] at hB
      injection hB with hB
      refine ⟨q, fun a' ha' => ?_⟩
      rw [leaf_unique ha' ha, hB]
      exact hq
    · exact ⟨default, fun a ha => absurd ⟨a, ha⟩ hi⟩
  choose g hg using hex
  refine ⟨t.map G, g, mapM_ok hG, fun i => ?_, fun i B hB => ?_⟩
  · constructor
    · rintro ⟨b, hb⟩
      obtain ⟨a, ha, _⟩ := leafAt_map.1 hb
      exact ⟨a, ha⟩
    · rintro ⟨a, ha⟩
      exact ⟨_, leafAt_map.2 ⟨a, ha, rfl⟩⟩
  · obtain ⟨a, ha, rfl⟩ := leafAt_map.1 hB
    exact hg i a ha

theorem SameShape.trans {t : Tree R α} {u : Tree R β} {v : Tree R γ} (h : SameShape t u) (h' : SameShape u v) : SameShape t v :=
  fun i => (h i).trans (h' i)

theorem sameShape_map (t : Tree R α) (g : α → β) : SameShape (t.map g) t := by
  intro i
  constructor
  · rintro ⟨b, hb⟩
    obtain ⟨a, ha, _⟩ := leafAt_map.1 hb
    exact ⟨a, ha⟩
  · rintro ⟨a, ha⟩
    exact ⟨_, leafAt_map.2 ⟨a, ha, rfl⟩⟩

/-- Two trees that are divided in the same way are paired. -/
theorem pair_ok {t : Tree R α} {u : Tree R β} (h : SameShape t u) :
    ∃ r, t.pair u = .ok r ∧ SameShape r t ∧ ∀ i p, LeafAt r i p → LeafAt t i p.1 ∧ LeafAt u i p.2 := by
  obtain ⟨r, e, hl⟩ := (binaryOp_code Prod.mk t u).1 h
  refine ⟨r, e, fun i => ?_, fun i p hp => ?_⟩
  · constructor
    · rintro ⟨p, hp⟩
      obtain ⟨a, b, ha, _, _⟩ := (hl i p).1 hp
      exact ⟨a, ha⟩
    · rintro ⟨a, ha⟩
      obtain ⟨b, hb⟩ := (h i).1 ⟨a, ha⟩
      exact ⟨_, (hl i _).2 ⟨a, b, ha, hb, rfl⟩⟩
  · obtain ⟨a, b, ha, hb, rfl⟩ := (hl i p).1 hp
    exact ⟨ha, hb⟩

theorem pairIndexes_ok (t : Tree R α) (D : Nat) (hD : DepthLe t D) (h : D < 64) :
    ∃ r, t.pairIndexes = .ok r ∧ SameShape r t ∧ ∀ i p, LeafAt r i p → p.1 = i ∧ LeafAt t i p.2 := by
  obtain ⟨r, e, hl⟩ := tree_pair_indexes t D hD h
  refine ⟨r, e, fun i => ?_, fun i p hp => (hl i p).1 hp⟩
  constructor
  · rintro ⟨p, hp⟩
    exact ⟨_, ((hl i p).1 hp).2⟩
  · rintro ⟨a, ha⟩
    exact ⟨(i, a), (hl i _).2 ⟨rfl, ha⟩⟩

/-- The block of a tree that is divided as another one can be read at the leaves of the latter. -/
theorem at_ok (hs : Shift sh) {t : Tree R α} {u : Tree R β} (h : SameShape u t) {i : Index R} {a : α} (hi : LeafAt t i a) (hl : i.level ≤ 31) :
    ∃ b, LeafAt u i b ∧ u.at' sh i = .ok b := by
  obtain ⟨b, hb⟩ := (h i).2 ⟨a, hi⟩
  exact ⟨b, hb, ((tree_at hs u i hl).1 b).2 hb⟩

theorem DepthLe.sameShape {t : Tree R α} {u : Tree R β} (h : SameShape u t) {D : Nat} (hD : DepthLe t D) : DepthLe u D := by
  intro i b hi
  obtain ⟨a, ha⟩ := (h i).1 ⟨b, hi⟩
  exact hD i a ha

theorem Balanced.sameShape {t : Tree R α} {u : Tree R β} (h : SameShape u t) (hb : Balanced t) : Balanced u := by
  intro i b hi hc
  obtain ⟨a, ha⟩ := (h i).1 ⟨b, hi⟩
  refine hb i a ha ?_
  obtain ⟨j, h1, h2, l, c, hc, h3⟩ := hc
  obtain ⟨d, hd⟩ := (h l).1 ⟨c, hc⟩
  exact ⟨j, h1, h2, l, d, hd, h3⟩

end Verif.Tree

namespace Verif.Binary

open Verif Verif.Nd Verif.Tree Iso2d

variable {sh : Nat → Outcome Nat}

/-- A function of two numbers with the axis `a` first. -/
def turn {α : Type} (a : Fin 2) (f : Nat → Nat → α) : Nat → Nat → α :=
  match a with
  | 0 => f
  | 1 => fun x y => f y x

theorem along_turn {α : Type} {a : Fin 2} {A : Arr 2 α} {N : Nat} {f : Nat → Nat → α} : Along a A N N (turn a f) ↔ Grid A N N f := by
  fin_cases a <;> rfl

theorem turn_turn {α : Type} (a : Fin 2) (f : Nat → Nat → α) : turn a (turn a f) = f := by fin_cases a <;> rfl

/-- The values `q` that are found at the index `j` for the values `f` in the blocks of `T`: those of the block `j` itself; or the part of a block that is twice
as large; or means of four cells of the four blocks at `j`. -/
def GuardAt {β : Type} (T : Verif.Tree.Tree 2 β) (N : Nat) (f : Index 2 → Nat → Nat → Tri) (j : Index 2) (q : Nat → Nat → Tri) : Prop :=
  ((∃ c, LeafAt T j c) ∧ q = f j) ∨
  (∃ m c k, LeafAt T m c ∧ j = m.child k ∧ ∀ x y,
    q x y = f m ((x + if j.coords 0 % 2 = 1 then N else 0) / 2) ((y + if j.coords 1 % 2 = 1 then N else 0) / 2)) ∨
  ((∀ k : Fin (2 ^ 2), ∃ c, LeafAt T (j.child k) c) ∧ ∀ x, x < N → ∀ y, y < N → ∃ v : Fin 4 → Tri,
    (∀ n, ∃ k : Fin (2 ^ 2), ∃ x' y', x' < N ∧ y' < N ∧ v n = f (j.child k) x' y') ∧ q x y = (v 0 + v 1 + v 2 + v 3).mul (1 / 4))

theorem GuardAt.leaf {β : Type} {T : Verif.Tree.Tree 2 β} {N : Nat} {f : Index 2 → Nat → Nat → Tri} {j : Index 2} {q : Nat → Nat → Tri} (h : GuardAt T N f j q)
    {c : β} (hj : LeafAt T j c) : q = f j := by
  rcases h with ⟨_, h⟩ | ⟨m, d, k, hm, rfl, _⟩ | ⟨h, _⟩
  · exact h
  · exact absurd hj (not_node_of_parent_leaf hm k)
  · obtain ⟨d, hd⟩ := h 0
    exact absurd hd (not_node_of_parent_leaf hj _)

theorem GuardAt.sameShape {β γ : Type} {T : Verif.Tree.Tree 2 β} {t : Verif.Tree.Tree 2 γ} (hsh : SameShape t T) {N : Nat} {f : Index 2 → Nat → Nat → Tri}
    {j : Index 2} {q : Nat → Nat → Tri} (h : GuardAt t N f j q) : GuardAt T N f j q := by
  rcases h with ⟨h1, h⟩ | ⟨m, d, k, hm, h1, h2⟩ | ⟨h1, h2⟩
  · exact .inl ⟨(hsh j).1 h1, h⟩
  · obtain ⟨d', hd'⟩ := (hsh m).1 ⟨d, hm⟩
    exact .inr (.inl ⟨m, d', k, hd', h1, h2⟩)
  · exact .inr (.inr ⟨fun k => (hsh _).1 (h1 k), h2⟩)

/-- Reading a block at a leaf or next to one, and applying an operator. -/
theorem getCellBlockWith_ok (hs : TotalShift sh) (t : Quad Tri) (D : Nat) (hD : DepthLe t D) (h30 : D ≤ 30) (hb : Balanced t) (N : Nat)
    (hN : 1 ≤ N) (hN2 : N * N < 2 ^ 31) (f : Index 2 → Nat → Nat → Tri) (hf : ∀ i b, LeafAt t i b → Grid b N N (f i)) (i j : Index 2)
    (b : Arr 2 Tri) (hi : LeafAt t i b) (hn : Neighbour i j) (hv : j.Valid) {post : Arr 2 Tri → Outcome (Arr 2 Tri)}
    {P : (Nat → Nat → Tri) → Arr 2 Tri → Prop} (hpost : ∀ A g, Grid A N N g → ∃ B, post A = .ok B ∧ P g B) (fuel : Nat) :
    ∃ B g, getCellBlockWith sh post t (fuel + 1) j = .ok B ∧ P g B ∧ GuardAt t N f j g := by
  have hil := hD i b hi
  have hjl : i.level = j.level := hn.1
  have hs1 : ∀ a, 1 ≤ (![N, N] : Ix 2) a := by
    intro a; match a with
    | 0 => exact hN
    | 1 => exact hN
  have hc : count (![N, N] : Ix 2) < 2 ^ 31 := by rw [count_pair]; exact hN2
  have hlt := lt_of_count hs1 hc
  rcases neighbour_node hb hi (by omega) (.inr ⟨hn, hv⟩) with ⟨c, h⟩ | ⟨c, n, h, hjn, h0⟩ | ⟨c, h⟩
  · obtain ⟨B, e, hB⟩ := hpost c (f j) (hf j c h)
    obtain ⟨h3, h4⟩ := contains_leaf hs.1 h (by omega)
    refine ⟨B, f j, ?_, hB, .inl ⟨⟨c, h⟩, rfl⟩⟩
    unfold getCellBlockWith
    rw [h3, Outcome.bind_ok, if_pos rfl, h4, Outcome.bind_ok, e, rethrow_ok]
  · obtain ⟨C, h1, d1⟩ := refineCells_denotes (grid_iff.1 (hf _ c h)) (fun a => by have := hlt a; omega)
      (toIntegral fun a => decide (j.coords a % 2 = 1))
    have d1' := Grid.of_denotes d1
    obtain ⟨B, e, hB⟩ := hpost C _ d1'
    have hpl : j.parentIndex.level + 1 = j.level := by
      simp only [Index.parentIndex]
      obtain ⟨l, hl'⟩ : ∃ l, j.level = l + 1 := ⟨j.level - 1, by omega⟩
      rw [hl', decr_succ (by omega)]
    have h3 : t.contains sh j = .ok false := by
      rw [hjn]; exact contains_below_leaf hs.1 h _ (by omega)
    obtain ⟨h4, h5⟩ := contains_leaf hs.1 h (by omega)
    refine ⟨B, _, ?_, hB, .inr (.inl ⟨_, c, n, h, hjn, fun x y => ?_⟩)⟩
    · unfold getCellBlockWith
      rw [h3, Outcome.bind_ok, if_neg (by decide), h4, Outcome.bind_ok, if_pos rfl, orthant_relative hs.1,
        Outcome.bind_ok, h5, Outcome.bind_ok, h1, Outcome.bind_ok, e, rethrow_ok]
    · simp only [toIntegral_testBit, decide_eq_true_eq]
      rfl
  · have hleaf : ∀ n : Fin (2 ^ 2), LeafAt t (j.child n) (c n) := fun n => nodeAt_child h n
    have hlev : j.level + 1 ≤ 30 := by
      have := hD _ _ (hleaf Tree.first)
      simp only [Index.child] at this; omega
    choose C h1 d1 using fun n : Fin (2 ^ 2) => get_cell_block_leaf (R := 1) (k := ℝ) hs.1 t (j.child n) hlev (c n)
      (hleaf n) ![N, N] (fun i => f (j.child n) (i 0) (i 1)) hs1 hc (grid_iff.1 (hf _ _ (hleaf n))) fuel
    obtain ⟨h3, h4⟩ := contains_interior hs ⟨_, h⟩ D hD h30
    obtain ⟨Pq, h5, d5⟩ := combineCells_blocks (R := 2)
      (fun n => C ⟨n % 2 ^ 2, Nat.mod_lt _ (Nat.two_pow_pos _)⟩) ![N, N]
      (fun n => fun i => f (j.child (n % 2 ^ 2)) (i 0) (i 1)) hs1 (fun a => by have := hlt a; omega)
      (fun n => d1 _) (fun n => by simp only [Nat.mod_mod])
    obtain ⟨Q, h6, d6⟩ := coarsenCells_mean (k := ℝ) hs1 (fun a => by have := hlt a; omega) d5
    obtain ⟨B, e, hB⟩ := hpost Q _ (Grid.of_denotes d6)
    refine ⟨B, _, ?_, hB, .inr (.inr ⟨fun k => ⟨_, hleaf k⟩, fun x _ y _ => ?_⟩)⟩
    swap
    · let cell : Nat → Tri := fun n => f (j.child ((toIntegral fun a : Fin 2 => decide ((![N, N] : Ix 2) a ≤ 2 * (![x, y] : Ix 2) a + (n.testBit a).toNat)) % 2 ^ 2))
        ((2 * x + (n.testBit 0).toNat) % N) ((2 * y + (n.testBit 1).toNat) % N)
      refine ⟨fun n => cell n, fun n => ⟨⟨_, Nat.mod_lt _ (by norm_num)⟩, _, _, Nat.mod_lt _ hN, Nat.mod_lt _ hN, rfl⟩, ?_⟩
      show ((2 : ℝ)⁻¹) ^ 2 • ∑ n ∈ Finset.range (2 ^ 2), cell n = _
      rw [show (2 : ℝ)⁻¹ ^ 2 = 1 / 4 by norm_num]
      simp only [Nat.reducePow, Finset.sum_range_succ, Finset.sum_range_zero, zero_add]
      rfl
    unfold getCellBlockWith
    rw [h3, Outcome.bind_ok, if_neg (by decide), h4, Outcome.bind_ok, if_neg (by decide),
      childBlocks_ok h.valid (by omega) h1, Outcome.bind_ok, h5, Outcome.bind_ok, h6, Outcome.bind_ok, e, rethrow_ok]

theorem Shaped.lt {β : Type} {T : Verif.Tree.Tree 2 β} {D N : Nat} (h : Shaped T D N) : N + 2 < 2 ^ 31 :=
  lt_of_le_of_lt (Nat.le_mul_of_pos_left _ (by omega)) h.bound

theorem Shaped.of_le {β : Type} {T : Verif.Tree.Tree 2 β} {D N : Nat} (h : Shaped T D N) {m n : Nat} (hm : m ≤ N + 2) (hn : n ≤ N + 2) :
    m * n < 2 ^ 31 := lt_of_le_of_lt (Nat.mul_le_mul hm hn) h.bound

section
variable {β : Type} {T : Verif.Tree.Tree 2 β} {D N : Nat}

theorem extendBlock_ok (hs : TotalShift sh) (hT : Shaped T D N) {t : Quad Tri} {f : Index 2 → Nat → Nat → Tri} (hf : Blocks T t N N f)
    (a : Fin 2) (fuel : Nat) (i : Index 2) (b : Arr 2 Tri) (hi : LeafAt t i b) :
    ∃ (B : Arr 2 Tri) (g : Nat → Nat → Tri), extendBlock sh (fuel + 1) t a i = .ok B ∧ Along a B (N + 2) N g ∧
      (∀ x, x < N → ∀ y, y < N → g (x + 1) y = turn a (f i) x y) ∧
      (∃ j q, j.Valid ∧ Follows True a i j ∧ GuardAt t N f j q ∧ ∀ y, y < N → g (N + 1) y = turn a q 0 y) ∧
      (∃ j q, j.Valid ∧ Follows True a j i ∧ GuardAt t N f j q ∧ ∀ y, y < N → g 0 y = turn a q (N - 1) y) := by
  have hN := hT.pos
  have hlt := hT.lt
  have hD := hT.depth.sameShape hf.1
  have hb := hT.balanced.sameShape hf.1
  have h30 := hT.small
  have hlev := hD i b hi
  obtain ⟨n, en, hnv, hn⟩ := nextOn_follows hs.1 hi.valid (by omega) a
  obtain ⟨p, ep, hpv, hp⟩ := prevOn_follows hs.1 hi.valid (by omega) a
  obtain ⟨L, gl, eL, hL, hLf⟩ := getCellBlockWith_ok hs t D hD h30 hb N hN (hT.of_le (by omega) (by omega)) f hf.2 i p b hi
    (hp.neighbour hi.valid).symm hpv (post := fun A => (selectFinal 1 a A).bind evaluate)
    (P := fun g B => Along a B 1 N (fun x y => turn a g (N - 1 + x) y)) (fun A g hA => by
      obtain ⟨S, e1, h1⟩ := (along_turn (a := a).2 hA).selectFinal (l := 1) hN (by omega) (by omega)
      obtain ⟨E, e2, h2⟩ := h1.evaluate le_rfl hN (by omega)
      exact ⟨E, by rw [e1, Outcome.bind_ok, e2], h2⟩) fuel
  obtain ⟨Rr, gr, eR, hR, hRf⟩ := getCellBlockWith_ok hs t D hD h30 hb N hN (hT.of_le (by omega) (by omega)) f hf.2 i n b hi
    (hn.neighbour hnv) hnv (post := fun A => (selectFirst 1 a A).bind evaluate)
    (P := fun g B => Along a B 1 N (turn a g)) (fun A g hA => by
      obtain ⟨S, e1, h1⟩ := (along_turn (a := a).2 hA).selectFirst (l := 1) hN (by omega) (by omega)
      obtain ⟨E, e2, h2⟩ := h1.evaluate le_rfl hN (by omega)
      exact ⟨E, by rw [e1, Outcome.bind_ok, e2], h2⟩) fuel
  obtain ⟨C1, e1, h1⟩ := Along.concat hL (along_turn (a := a).2 (hf.2 i b hi)) (by omega)
  obtain ⟨C2, e2, h2⟩ := Along.concat h1 hR (by omega)
  obtain ⟨E, e3, h3⟩ := h2.evaluate (by omega) hN (hT.of_le (by omega) (by omega))
  rw [show 1 + N + 1 = N + 2 by omega] at h3
  refine ⟨E, _, ?_, h3, fun x hx y hy => ?_, ⟨n, gr, hnv, hn, hRf, fun y hy => ?_⟩, p, gl, hpv, hp, hLf, fun y hy => ?_⟩
  · unfold extendBlock
    rw [((tree_at hs.1 t i (by omega)).1 b).2 hi, Outcome.bind_ok, ep, Outcome.bind_ok, eL, Outcome.bind_ok, en, Outcome.bind_ok, eR,
      Outcome.bind_ok, e1, Outcome.bind_ok, e2, Outcome.bind_ok, e3]
  · rw [if_pos (by omega), if_neg (by omega), Nat.add_sub_cancel]
  · rw [if_neg (by omega), show N + 1 - (1 + N) = 0 by omega]
  · rw [if_pos (by omega), if_pos (by omega), Nat.add_zero]

/-- The blocks get one more cell on each side along axis `a`; next to a block of the same level, it is the cell of that block. -/
structure Extended (T : Verif.Tree.Tree 2 β) (N : Nat) (a : Fin 2) (u : Quad Tri) (f g : Index 2 → Nat → Nat → Tri) : Prop where
  shape : SameShape u T
  along : ∀ i b, LeafAt u i b → Along a b (N + 2) N (g i)
  inner : ∀ i b, LeafAt T i b → ∀ x, x < N → ∀ y, y < N → g i (x + 1) y = turn a (f i) x y
  upper : ∀ i j b c, LeafAt T i b → LeafAt T j c → Follows True a i j → ∀ y, y < N → g i (N + 1) y = turn a (f j) 0 y
  lower : ∀ i j b c, LeafAt T i b → LeafAt T j c → Follows True a i j → ∀ y, y < N → g j 0 y = turn a (f i) (N - 1) y
  after : ∀ i b, LeafAt T i b → ∃ j q, j.Valid ∧ Follows True a i j ∧ GuardAt T N f j q ∧ ∀ y, y < N → g i (N + 1) y = turn a q 0 y
  before : ∀ i b, LeafAt T i b → ∃ j q, j.Valid ∧ Follows True a j i ∧ GuardAt T N f j q ∧ ∀ y, y < N → g i 0 y = turn a q (N - 1) y

theorem extend_ok (hs : TotalShift sh) (hT : Shaped T D N) {t : Quad Tri} {f : Index 2 → Nat → Nat → Tri} (hf : Blocks T t N N f)
    (a : Fin 2) (fuel : Nat) : ∃ (u : Quad Tri) (g : Index 2 → Nat → Nat → Tri), extend sh (fuel + 1) t a = .ok u ∧ Extended T N a u f g := by
  have hD := hT.depth.sameShape hf.1
  obtain ⟨u, g, e, hsh, hl⟩ := mapIndexes_choose (P := fun i B (g : Nat → Nat → Tri) => Along a B (N + 2) N g ∧
      (∀ x, x < N → ∀ y, y < N → g (x + 1) y = turn a (f i) x y) ∧
      (∃ j q, j.Valid ∧ Follows True a i j ∧ GuardAt t N f j q ∧ ∀ y, y < N → g (N + 1) y = turn a q 0 y) ∧
      (∃ j q, j.Valid ∧ Follows True a j i ∧ GuardAt t N f j q ∧ ∀ y, y < N → g 0 y = turn a q (N - 1) y)) t D hD (by have := hT.small; omega)
    (fun i b hi => extendBlock_ok hs hT hf a fuel i b hi)
  have get : ∀ i b, LeafAt T i b → ∃ b, LeafAt u i b := fun i b hi => (hsh i).2 ((hf.1 i).2 ⟨b, hi⟩)
  have hafter : ∀ i b, LeafAt T i b → ∃ j q, j.Valid ∧ Follows True a i j ∧ GuardAt T N f j q ∧ ∀ y, y < N → g i (N + 1) y = turn a q 0 y := by
    intro i b hi
    obtain ⟨_, hB⟩ := get i b hi
    obtain ⟨j, q, h1, h2, h3, h4⟩ := (hl i _ hB).2.2.2.1
    exact ⟨j, q, h1, h2, h3.sameShape hf.1, h4⟩
  have hbefore : ∀ i b, LeafAt T i b → ∃ j q, j.Valid ∧ Follows True a j i ∧ GuardAt T N f j q ∧ ∀ y, y < N → g i 0 y = turn a q (N - 1) y := by
    intro i b hi
    obtain ⟨_, hB⟩ := get i b hi
    obtain ⟨j, q, h1, h2, h3, h4⟩ := (hl i _ hB).2.2.2.2
    exact ⟨j, q, h1, h2, h3.sameShape hf.1, h4⟩
  refine ⟨u, g, e, hsh.trans hf.1, fun i b hi => (hl i b hi).2.1, fun i b hi => ?_, fun i j b c hi hj hfol y hy => ?_,
    fun i j b c hi hj hfol y hy => ?_, hafter, hbefore⟩
  · obtain ⟨_, hB⟩ := get i b hi
    exact (hl i _ hB).2.2.1
  · obtain ⟨k, q, h1, h2, h3, h4⟩ := hafter i b hi
    obtain rfl := hfol.unique_next hi.valid hj.valid h1 h2
    rw [h4 y hy, h3.leaf hj]
  · obtain ⟨k, q, h1, h2, h3, h4⟩ := hbefore j c hj
    obtain rfl := hfol.unique_prev hi.valid h1 h2
    rw [h4 y hy, h3.leaf hi]

end

end Verif.Binary
