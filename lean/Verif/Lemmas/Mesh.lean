import Verif.Spec.Mesh
import Verif.Lemmas.QuadtreeLookup
import Mathlib.Algebra.Group.Basic
import Mathlib.Tactic.Abel

/-!
# Differences of fluxes summed over the leaves of a balanced quadtree
-/

namespace Verif.Tree

open Verif

variable {R : Nat} {α K : Type}

theorem leafSumAt_congr [AddCommMonoid K] {f g : Index R → α → K} {u t : Tree R α} {i : Index R} (hu : NodeAt t i u)
    (h : ∀ j b, LeafAt t j b → f j b = g j b) : leafSumAt f u i = leafSumAt g u i := by
  induction u generalizing i with
  | leaf a => exact h i a hu
  | node c ih => exact Finset.sum_congr rfl fun k _ => ih k (nodeAt_child hu k)

theorem leafSum_congr [AddCommMonoid K] {f g : Index R → α → K} {t : Tree R α}
    (h : ∀ j b, LeafAt t j b → f j b = g j b) : leafSum t f = leafSum t g := leafSumAt_congr (.here t) h

theorem leafSumAt_add [AddCommMonoid K] (f g : Index R → α → K) (u : Tree R α) (i : Index R) :
    leafSumAt (fun j b => f j b + g j b) u i = leafSumAt f u i + leafSumAt g u i := by
  induction u generalizing i with
  | leaf a => rfl
  | node c ih =>
    unfold leafSumAt
    rw [← Finset.sum_add_distrib]
    exact Finset.sum_congr rfl fun k _ => ih k _

theorem leafSum_add [AddCommMonoid K] (f g : Index R → α → K) (t : Tree R α) :
    leafSum t (fun j b => f j b + g j b) = leafSum t f + leafSum t g := leafSumAt_add f g t _

theorem leafSumAt_hom {L : Type} [AddCommMonoid K] [AddCommMonoid L] (φ : K →+ L) (f : Index R → α → K) (u : Tree R α) (i : Index R) :
    leafSumAt (fun j b => φ (f j b)) u i = φ (leafSumAt f u i) := by
  induction u generalizing i with
  | leaf a => rfl
  | node c ih =>
    unfold leafSumAt
    rw [map_sum]
    exact Finset.sum_congr rfl fun k _ => ih k _

theorem leafSum_hom {L : Type} [AddCommMonoid K] [AddCommMonoid L] (φ : K →+ L) (f : Index R → α → K) (t : Tree R α) :
    leafSum t (fun j b => φ (f j b)) = φ (leafSum t f) := leafSumAt_hom φ f t _

theorem leafSumAt_zero [AddCommMonoid K] {f : Index R → α → K} {u t : Tree R α} {i : Index R} (hu : NodeAt t i u)
    (h : ∀ j b, LeafAt t j b → f j b = 0) : leafSumAt f u i = 0 := by
  induction u generalizing i with
  | leaf a => exact h i a hu
  | node c ih => exact Finset.sum_eq_zero fun k _ => ih k (nodeAt_child hu k)

theorem leafSumAt_sub [AddCommGroup K] (f g : Index R → α → K) (u : Tree R α) (i : Index R) :
    leafSumAt (fun j b => f j b - g j b) u i = leafSumAt f u i - leafSumAt g u i := by
  induction u generalizing i with
  | leaf a => rfl
  | node c ih =>
    unfold leafSumAt
    rw [← Finset.sum_sub_distrib]
    exact Finset.sum_congr rfl fun k _ => ih k _

theorem leafSum_sub [AddCommGroup K] (f g : Index R → α → K) (t : Tree R α) :
    leafSum t (fun j b => f j b - g j b) = leafSum t f - leafSum t g := leafSumAt_sub f g t _

/-- The sum over the leaves may be taken over the values a map puts there. -/
theorem leafSumAt_map {β : Type} [AddCommMonoid K] (φ : α → β) (f : Index R → β → K) (u : Tree R α) (i : Index R) :
    leafSumAt f (u.map φ) i = leafSumAt (fun j a => f j (φ a)) u i := by
  induction u generalizing i with
  | leaf a => rfl
  | node c ih =>
    unfold Tree.map leafSumAt
    exact Finset.sum_congr rfl fun k _ => ih k _

section
variable [AddCommGroup K]

/-- The part of the lower side of the subtree at `i`. -/
def lowSum (a : Fin R) (L : Index R → K) : Tree R α → Index R → K
  | .leaf _, i => L i
  | .node c, i => ∑ k : Fin (2 ^ R), if (k : Nat).testBit a then 0 else lowSum a L (c k) (i.child k)

/-- The part of the upper side of the subtree at `i`. -/
def highSum (a : Fin R) (L : Index R → K) : Tree R α → Index R → K
  | .leaf _, i => L i
  | .node c, i => ∑ k : Fin (2 ^ R), if (k : Nat).testBit a then highSum a L (c k) (i.child k) else 0

theorem lowSum_eq_zero (a : Fin R) (L : Index R → K) (u : Tree R α) (i : Index R) (hi : 0 < i.coords a) :
    leafSumAt (fun j _ => if AtLower a j then L j else 0) u i = 0 := by
  induction u generalizing i with
  | leaf b => exact if_neg (by unfold AtLower; omega)
  | node c ih =>
    exact Finset.sum_eq_zero fun k _ => ih k _ (by
      show 0 < 2 * i.coords a + _
      omega)

theorem lowSum_eq (a : Fin R) (L : Index R → K) (u : Tree R α) (i : Index R) (hi : i.coords a = 0) :
    leafSumAt (fun j _ => if AtLower a j then L j else 0) u i = lowSum a L u i := by
  induction u generalizing i with
  | leaf b => exact if_pos hi
  | node c ih =>
    refine Finset.sum_congr rfl fun k _ => ?_
    by_cases hk : (k : Nat).testBit a
    · rw [if_pos hk]
      refine lowSum_eq_zero a L _ _ ?_
      show 0 < 2 * i.coords a + ((k : Nat).testBit a).toNat
      rw [hk]
      simp
    · rw [if_neg hk]
      refine ih k _ ?_
      show 2 * i.coords a + ((k : Nat).testBit a).toNat = 0
      rw [hi, Bool.eq_false_iff.mpr hk]
      rfl

theorem highSum_eq_zero (a : Fin R) (L : Index R → K) (u : Tree R α) (i : Index R) (hi : i.coords a + 1 < 2 ^ i.level) :
    leafSumAt (fun j _ => if AtUpper a j then L j else 0) u i = 0 := by
  induction u generalizing i with
  | leaf b => exact if_neg (by unfold AtUpper; omega)
  | node c ih =>
    refine Finset.sum_eq_zero fun k _ => ih k _ ?_
    show 2 * i.coords a + ((k : Nat).testBit a).toNat + 1 < 2 ^ (i.level + 1)
    rw [Nat.pow_succ]
    have := Bool.toNat_le ((k : Nat).testBit a)
    omega

theorem highSum_eq (a : Fin R) (L : Index R → K) (u : Tree R α) (i : Index R) (hi : i.coords a + 1 = 2 ^ i.level) :
    leafSumAt (fun j _ => if AtUpper a j then L j else 0) u i = highSum a L u i := by
  induction u generalizing i with
  | leaf b => exact if_pos hi
  | node c ih =>
    refine Finset.sum_congr rfl fun k _ => ?_
    by_cases hk : (k : Nat).testBit a
    · rw [if_pos hk]
      refine ih k _ ?_
      show 2 * i.coords a + ((k : Nat).testBit a).toNat + 1 = 2 ^ (i.level + 1)
      rw [hk, Nat.pow_succ]
      simp only [Bool.toNat_true]
      omega
    · rw [if_neg hk]
      refine highSum_eq_zero a L _ _ ?_
      show 2 * i.coords a + ((k : Nat).testBit a).toNat + 1 < 2 ^ (i.level + 1)
      rw [Bool.eq_false_iff.mpr hk, Nat.pow_succ]
      simp only [Bool.toNat_false]
      omega

theorem Follows.neighbour {wrap : Prop} {a : Fin R} {i j : Index R} (h : Follows wrap a i j) (hj : j.Valid) : Neighbour i j := by
  refine ⟨h.1, a, h.2.1, Or.inl ?_⟩
  have := hj a
  rw [← h.1] at this
  rcases h.2.2 with h2 | ⟨_, h2, h3⟩
  · rw [← h2, Nat.mod_eq_of_lt this]
  · rw [h2, h3, Nat.mod_self]

/-- Flips the bit `a`. -/
theorem Follows.child {wrap : Prop} {a : Fin R} {i j : Index R} (h : Follows wrap a i j) {k l : Nat} (hk : k.testBit a = true)
    (hl : l.testBit a = false) (hb : ∀ b : Fin R, b ≠ a → k.testBit b = l.testBit b) : Follows wrap a (i.child k) (j.child l) := by
  refine ⟨congrArg (· + 1) h.1, fun b hne => ?_, ?_⟩
  · show 2 * i.coords b + _ = 2 * j.coords b + _
    rw [h.2.1 b hne, hb b hne]
  · show 2 * j.coords a + (l.testBit a).toNat = 2 * i.coords a + (k.testBit a).toNat + 1 ∨
      wrap ∧ 2 * i.coords a + (k.testBit a).toNat + 1 = 2 ^ (i.level + 1) ∧ 2 * j.coords a + (l.testBit a).toNat = 0
    rw [hk, hl, Nat.pow_succ]
    simp only [Bool.toNat_true, Bool.toNat_false]
    rcases h.2.2 with h2 | ⟨hw, h2, h3⟩
    · left; omega
    · right; exact ⟨hw, by omega, by omega⟩

theorem follows_sibling {wrap : Prop} {a : Fin R} (i : Index R) {k l : Nat} (hk : k.testBit a = false)
    (hl : l.testBit a = true) (hb : ∀ b : Fin R, b ≠ a → k.testBit b = l.testBit b) : Follows wrap a (i.child k) (i.child l) := by
  refine ⟨rfl, fun b hne => ?_, Or.inl ?_⟩
  · show 2 * i.coords b + _ = 2 * i.coords b + _
    rw [hb b hne]
  · show 2 * i.coords a + (l.testBit a).toNat = 2 * i.coords a + (k.testBit a).toNat + 1
    rw [hk, hl]
    rfl

end

section
variable [AddCommGroup K]

theorem corner_bit (a : Fin 2) (s m : Bool) : (corner a s m : Nat).testBit a = s := by
  fin_cases a <;> cases s <;> cases m <;> rfl

theorem corner_other (a : Fin 2) (s m : Bool) (b : Fin 2) (hb : b ≠ a) : (corner a s m : Nat).testBit b = m := by
  fin_cases a <;> fin_cases b <;> first | exact absurd rfl hb | (cases s <;> cases m <;> rfl)

theorem sum_corner (a : Fin 2) (f : Fin (2 ^ 2) → K) :
    ∑ k, f k = f (corner a false false) + f (corner a false true) + (f (corner a true false) + f (corner a true true)) := by
  have : ∑ k, f k = f 0 + f 1 + f 2 + f 3 := Fin.sum_univ_four f
  rw [this]
  fin_cases a
  · show f 0 + f 1 + f 2 + f 3 = f 0 + f 2 + (f 1 + f 3)
    abel
  · show f 0 + f 1 + f 2 + f 3 = f 0 + f 1 + (f 2 + f 3)
    abel

theorem lowSum_node (a : Fin 2) (L : Index 2 → K) (c : Fin (2 ^ 2) → Tree 2 α) (i : Index 2) :
    lowSum a L (.node c) i = lowSum a L (c (corner a false false)) (i.child (corner a false false))
      + lowSum a L (c (corner a false true)) (i.child (corner a false true)) := by
  rw [lowSum.eq_2, sum_corner a]
  simp only [corner_bit, if_true, Bool.false_eq_true, if_false, add_zero]

theorem highSum_node (a : Fin 2) (L : Index 2 → K) (c : Fin (2 ^ 2) → Tree 2 α) (i : Index 2) :
    highSum a L (.node c) i = highSum a L (c (corner a true false)) (i.child (corner a true false))
      + highSum a L (c (corner a true true)) (i.child (corner a true true)) := by
  rw [highSum.eq_2, sum_corner a]
  simp only [corner_bit, if_true, Bool.false_eq_true, if_false, zero_add]

/-- What the lower and upper sides of the leaves must satisfy: equal at faces shared by leaves of one level, and the sum of
the finer sides where the neighbour is divided. -/
structure Matched (wrap : Prop) (a : Fin 2) (t : Tree 2 α) (L U : Index 2 → K) : Prop where
  same : ∀ i j b c, LeafAt t i b → LeafAt t j c → Follows wrap a i j → U i = L j
  finerAbove : ∀ i j b (c : Fin (2 ^ 2) → α), LeafAt t i b → NodeAt t j (.node fun k => .leaf (c k)) → Follows wrap a i j →
    U i = L (j.child (corner a false false)) + L (j.child (corner a false true))
  finerBelow : ∀ i j b (c : Fin (2 ^ 2) → α), NodeAt t i (.node fun k => .leaf (c k)) → LeafAt t j b → Follows wrap a i j →
    U (i.child (corner a true false)) + U (i.child (corner a true true)) = L j

theorem Matched.sides {wrap : Prop} {a : Fin 2} {t : Tree 2 α} {L U : Index 2 → K} (h : Matched wrap a t L U) (hb : Balanced t)
    (D : Nat) (hD : DepthLe t D) (h30 : D ≤ 30) (u v : Tree 2 α) (i j : Index 2) (hu : NodeAt t i u) (hv : NodeAt t j v)
    (hf : Follows wrap a i j) : highSum a U u i = lowSum a L v j := by
  induction u generalizing v i j with
  | leaf b =>
    cases v with
    | leaf c => exact h.same i j b c hu hv hf
    | node c =>
      have hlev : i.level ≤ 30 := le_trans (hD i b hu) h30
      rcases neighbour_node hb hu hlev (Or.inr ⟨hf.neighbour hv.valid, hv.valid⟩) with ⟨x, hx⟩ | ⟨x, n, hx, hn, _⟩ | ⟨x, hx⟩
      · exact absurd (nodeAt_unique hv hx) (by simp)
      · exact absurd hv (fun hv => by rw [hn] at hv; exact not_node_of_parent_leaf hx n hv)
      · obtain rfl : c = fun n => .leaf (x n) := by
          have := nodeAt_unique hv hx
          injection this
        rw [lowSum_node]
        exact h.finerAbove i j b x hu hx hf
  | node c ih =>
    cases v with
    | leaf b =>
      have hlev : j.level ≤ 30 := le_trans (hD j b hv) h30
      rcases neighbour_node hb hv hlev (Or.inr ⟨(hf.neighbour hv.valid).symm, hu.valid⟩) with ⟨x, hx⟩ | ⟨x, n, hx, hn, _⟩ | ⟨x, hx⟩
      · exact absurd (nodeAt_unique hu hx) (by simp)
      · exact absurd hu (fun hu => by rw [hn] at hu; exact not_node_of_parent_leaf hx n hu)
      · obtain rfl : c = fun n => .leaf (x n) := by
          have := nodeAt_unique hu hx
          injection this
        rw [highSum_node]
        exact h.finerBelow i j b x hx hv hf
    | node d =>
      rw [highSum_node, lowSum_node]
      have key : ∀ m, highSum a U (c (corner a true m)) (i.child (corner a true m))
          = lowSum a L (d (corner a false m)) (j.child (corner a false m)) := fun m =>
        ih _ _ _ _ (nodeAt_child hu _) (nodeAt_child hv _)
          (hf.child (corner_bit a true m) (corner_bit a false m) fun b hb => by rw [corner_other a _ _ b hb, corner_other a _ _ b hb])
      rw [key false, key true]

/-- The differences over the leaves of a subtree add up to the difference of its sides. -/
theorem Matched.subtree {wrap : Prop} {a : Fin 2} {t : Tree 2 α} {L U : Index 2 → K} (h : Matched wrap a t L U) (hb : Balanced t)
    (D : Nat) (hD : DepthLe t D) (h30 : D ≤ 30) (u : Tree 2 α) (i : Index 2) (hu : NodeAt t i u) :
    leafSumAt (fun j _ => U j - L j) u i = highSum a U u i - lowSum a L u i := by
  induction u generalizing i with
  | leaf b => rfl
  | node c ih =>
    rw [highSum_node, lowSum_node]
    unfold leafSumAt
    rw [sum_corner a]
    have hk := fun k => ih k _ (nodeAt_child hu k)
    have key : ∀ m, highSum a U (c (corner a false m)) (i.child (corner a false m))
        = lowSum a L (c (corner a true m)) (i.child (corner a true m)) := fun m =>
      h.sides hb D hD h30 _ _ _ _ (nodeAt_child hu _) (nodeAt_child hu _)
        (follows_sibling i (corner_bit a false m) (corner_bit a true m) fun b hb => by
          rw [corner_other a _ _ b hb, corner_other a _ _ b hb])
    simp only [hk, key]
    abel

theorem Matched.total {wrap : Prop} {a : Fin 2} {t : Tree 2 α} {L U : Index 2 → K} (h : Matched wrap a t L U) (hb : Balanced t)
    (D : Nat) (hD : DepthLe t D) (h30 : D ≤ 30) :
    leafSum t (fun j _ => U j - L j)
      = leafSum t (fun j _ => if AtUpper a j then U j else 0) - leafSum t (fun j _ => if AtLower a j then L j else 0) := by
  unfold leafSum
  rw [h.subtree hb D hD h30 t _ (.here t), highSum_eq a U t _ rfl, lowSum_eq a L t _ rfl]

theorem Matched.total_wrap {a : Fin 2} {t : Tree 2 α} {L U : Index 2 → K} (h : Matched True a t L U) (hb : Balanced t)
    (D : Nat) (hD : DepthLe t D) (h30 : D ≤ 30) : leafSum t (fun j _ => U j - L j) = 0 := by
  unfold leafSum
  rw [h.subtree hb D hD h30 t _ (.here t), h.sides hb D hD h30 t t _ _ (.here t) (.here t) ⟨rfl, fun _ _ => rfl, Or.inr ⟨trivial, rfl, rfl⟩⟩,
    sub_self]

end

end Verif.Tree

namespace Verif.Tree

/-- Sums that depend on the index only agree for trees that are divided in the same way. -/
theorem leafSum_sameShape {R : Nat} {α β K : Type} [AddCommMonoid K] {u : Tree R α} {t : Tree R β} (h : SameShape u t) (f : Index R → K) :
    leafSum u (fun i _ => f i) = leafSum t (fun i _ => f i) := by
  unfold leafSum
  generalize (Index.root : Index R) = r
  induction u generalizing t r with
  | leaf a =>
    cases t with
    | leaf b => rfl
    | node d => exact absurd h not_sameShape_leaf_node
  | node c ih =>
    cases t with
    | leaf b => exact absurd h.symm not_sameShape_leaf_node
    | node d =>
      unfold leafSumAt
      exact Finset.sum_congr rfl fun k _ => ih k ((sameShape_node.1 h) k) _

end Verif.Tree
