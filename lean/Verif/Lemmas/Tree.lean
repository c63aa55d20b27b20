import Verif.Spec.Tree
import Verif.Props.Sequence
import Mathlib.Data.Nat.Bitwise
import Mathlib.Tactic.Ring
import Mathlib.Tactic.ByContra
import Mathlib.Tactic.Push

namespace Verif.Tree
open Verif Verif.Seq

variable {R : Nat} {α β γ : Type} {sh : Nat → Outcome Nat}

theorem shl1_shift : Shift shl1 := fun n h => by simp [shl1, h]

theorem decr_succ {l : Nat} (h : l < 2 ^ 64) : decr (l + 1) = l := by
  unfold decr
  have : l + 1 + 2 ^ 64 - 1 = l + 2 ^ 64 := by omega
  rw [this, Nat.add_mod_right, Nat.mod_eq_of_lt h]

/-! ### bits -/

theorem binaryRepr_eq (v : Nat) (a : Fin R) : binaryRepr R v a = v.testBit a := by
  unfold binaryRepr
  rw [Nat.and_two_pow]
  cases v.testBit a <;> simp

theorem toIntegral_eq (b : Seq R Bool) :
    toIntegral b = (List.ofFn (fun e : Fin R => if b e then 2 ^ (e : Nat) else 0)).sum := by
  unfold toIntegral; rw [seq_sum]

theorem toIntegral_zero (b : Seq 0 Bool) : toIntegral b = 0 := by
  rw [toIntegral_eq]; simp

theorem toIntegral_succ (b : Seq (R + 1) Bool) :
    toIntegral b = toIntegral (fun e : Fin R => b e.castSucc) + (b (Fin.last R)).toNat * 2 ^ R := by
  rw [toIntegral_eq, toIntegral_eq, List.ofFn_succ']
  simp only [List.concat_eq_append, List.sum_append, List.sum_singleton, Fin.val_castSucc,
    Fin.val_last]
  cases b (Fin.last R) <;> simp

theorem toIntegral_lt (b : Seq R Bool) : toIntegral b < 2 ^ R := by
  induction R with
  | zero => rw [toIntegral_zero]; simp
  | succ R ih =>
    rw [toIntegral_succ, Nat.pow_succ]
    have := ih (fun e : Fin R => b e.castSucc)
    cases b (Fin.last R) <;> simp <;> omega

theorem toIntegral_testBit (b : Seq R Bool) (a : Fin R) : (toIntegral b).testBit a = b a := by
  induction R with
  | zero => exact a.elim0
  | succ R ih =>
    have hlt := toIntegral_lt (fun e : Fin R => b e.castSucc)
    rw [toIntegral_succ, Nat.add_comm, Nat.mul_comm]
    rcases Fin.eq_castSucc_or_eq_last a with ⟨a, rfl⟩ | rfl
    · rw [Nat.testBit_two_pow_mul_add _ hlt]
      simp [ih]
    · rw [Nat.testBit_two_pow_mul_add _ hlt]
      cases b (Fin.last R) <;> simp

theorem testBit_inj_nat {k m : Nat} (hk : k < 2 ^ R) (hm : m < 2 ^ R)
    (h : ∀ a : Fin R, k.testBit a = m.testBit a) : k = m := by
  apply Nat.eq_of_testBit_eq
  intro i
  by_cases hi : i < R
  · exact h ⟨i, hi⟩
  · rw [Nat.testBit_lt_two_pow (lt_of_lt_of_le hk (Nat.pow_le_pow_right (by norm_num) (by omega))),
      Nat.testBit_lt_two_pow (lt_of_lt_of_le hm (Nat.pow_le_pow_right (by norm_num) (by omega)))]

theorem testBit_inj {k m : Fin (2 ^ R)} (h : ∀ a : Fin R, (k : Nat).testBit a = (m : Nat).testBit a) :
    k = m := Fin.ext (testBit_inj_nat k.2 m.2 h)

theorem toIntegral_repr (k : Fin (2 ^ R)) : toIntegral (fun a : Fin R => (k : Nat).testBit a) = k :=
  testBit_inj_nat (toIntegral_lt _) k.2 (fun a => toIntegral_testBit _ a)

theorem childAt_eq (c : Fin (2 ^ R) → Tree R α) (o : Seq R Bool) :
    Tree.childAt c o = .ok ⟨toIntegral o, toIntegral_lt o⟩ := by
  unfold Tree.childAt; rw [dif_pos (toIntegral_lt o)]

/-! ### descending -/

theorem any_coords (x : Seq R Nat) : Seq.any (fun a => decide (x a ≠ 0)) = true ↔ x ≠ fun _ => 0 := by
  rw [(seq_all_any _).2]
  simp only [decide_eq_true_eq]
  constructor
  · rintro ⟨i, hi⟩ h; exact hi (congrFun h i)
  · intro h; by_contra hc; push Not at hc; exact h (funext hc)

theorem orthant_eq (hs : Shift sh) {l : Nat} (h : l ≤ 30) (x : Seq R Nat) :
    Index.orthant sh ⟨l + 1, x⟩ = .ok (fun a => decide (2 ^ l ≤ x a)) := by
  unfold Index.orthant
  have h2 : (2:Nat) ^ l ≠ 0 := (Nat.two_pow_pos l).ne'
  rw [decr_succ (by omega), hs l h]
  simp only [Outcome.bind_ok, if_neg h2]
  congr 1; funext a
  congr 1
  simp [Nat.div_eq_zero_iff]

theorem advance_eq (hs : Shift sh) {l : Nat} (h : l ≤ 30) (x : Seq R Nat) :
    Index.advanceLevel sh ⟨l + 1, x⟩ = .ok ⟨l, fun a => x a - if 2 ^ l ≤ x a then 2 ^ l else 0⟩ := by
  unfold Index.advanceLevel
  rw [orthant_eq hs h, decr_succ (by omega), hs l h]
  simp

/-- The child number and the remaining index of an index one level down. -/
def topChild (l : Nat) (x : Seq R Nat) : Fin (2 ^ R) :=
  ⟨toIntegral (fun a => decide (2 ^ l ≤ x a)), toIntegral_lt _⟩

def rest (l : Nat) (x : Seq R Nat) : Index R := ⟨l, fun a => x a - if 2 ^ l ≤ x a then 2 ^ l else 0⟩

theorem descend_top (l : Nat) (x : Seq R Nat) :
    Index.descend (topChild l x) (rest l x) = ⟨l + 1, x⟩ := by
  unfold Index.descend topChild rest
  ext a
  · rfl
  · simp only [toIntegral_testBit]
    by_cases h : 2 ^ l ≤ x a <;> simp [h]

theorem descend_valid {k : Nat} {j : Index R} (h : j.Valid) : (Index.descend k j).Valid := by
  intro a
  have := h a
  simp only [Index.descend, Nat.pow_succ]
  cases k.testBit a <;> simp <;> omega

theorem top_descend {k : Fin (2 ^ R)} {j : Index R} (h : j.Valid) :
    topChild j.level (Index.descend k j).coords = k ∧ rest j.level (Index.descend k j).coords = j := by
  have hb : ∀ a : Fin R, decide (2 ^ j.level ≤ (Index.descend k j).coords a) = (k : Nat).testBit a := by
    intro a
    have := h a
    simp only [Index.descend]
    by_cases hk : (k : Nat).testBit a = true
    · simp [hk]
    · simp [hk]; omega
  constructor
  · unfold topChild
    apply Fin.ext
    simp only [hb]
    exact toIntegral_repr k
  · unfold rest
    ext a
    · rfl
    · have hb := hb a
      have := h a
      simp only [Index.descend] at hb ⊢
      by_cases hk : (k : Nat).testBit a = true
      · simp [hk]
      · simp [hk, Nat.not_le.2 this]

theorem descend_inj {k m : Fin (2 ^ R)} {i j : Index R} (hi : i.Valid) (hj : j.Valid)
    (h : Index.descend k i = Index.descend m j) : k = m ∧ i = j := by
  have hl : i.level = j.level := by
    have := congrArg Index.level h; simp only [Index.descend] at this; omega
  have h1 := top_descend (k := k) hi
  have h2 := top_descend (k := m) hj
  rw [h, hl] at h1
  exact ⟨h1.1.symm.trans h2.1, h1.2.symm.trans h2.2⟩

theorem valid_rest {l : Nat} {x : Seq R Nat} (h : (⟨l + 1, x⟩ : Index R).Valid) : (rest l x).Valid := by
  intro a
  have := h a
  simp only [rest, Nat.pow_succ] at *
  split <;> omega

theorem root_ne_descend {k : Nat} {j : Index R} : Index.descend k j ≠ Index.root := by
  intro h
  have := congrArg Index.level h
  simp [Index.descend, Index.root] at this

theorem NodeAt.valid {t u : Tree R α} {i : Index R} (h : NodeAt t i u) : i.Valid := by
  induction h with
  | here t => intro a; simp [Index.root]
  | inChild c k j u _ ih => exact descend_valid ih

theorem nodeAt_root {t u : Tree R α} : NodeAt t Index.root u ↔ u = t := by
  constructor
  · intro h
    generalize hr : (Index.root : Index R) = r at h
    cases h with
    | here => rfl
    | inChild c k j u h => exact absurd hr.symm root_ne_descend
  · rintro rfl; exact .here _

theorem nodeAt_level_zero {t u : Tree R α} {i : Index R} (hl : i.level = 0) :
    NodeAt t i u ↔ i = Index.root ∧ u = t := by
  constructor
  · intro h
    have hi : i = Index.root := by
      have hv := h.valid
      ext a
      · exact hl
      · have := hv a; rw [hl] at this; simp at this; simp [Index.root, this]
    subst hi
    exact ⟨rfl, nodeAt_root.1 h⟩
  · rintro ⟨rfl, rfl⟩; exact .here _

theorem nodeAt_leaf {a : α} {i : Index R} {u : Tree R α} :
    NodeAt (.leaf a) i u ↔ i = Index.root ∧ u = .leaf a := by
  constructor
  · intro h; cases h; exact ⟨rfl, rfl⟩
  · rintro ⟨rfl, rfl⟩; exact .here _

theorem nodeAt_node_succ {c : Fin (2 ^ R) → Tree R α} {l : Nat} {x : Seq R Nat} {u : Tree R α} :
    NodeAt (.node c) ⟨l + 1, x⟩ u ↔ NodeAt (c (topChild l x)) (rest l x) u := by
  constructor
  · intro h
    generalize hr : (⟨l + 1, x⟩ : Index R) = r at h
    cases h with
    | here => exact absurd (congrArg Index.level hr) (by simp [Index.root])
    | inChild c k j u h =>
      have hl : l = j.level := by
        have := congrArg Index.level hr; simp only [Index.descend] at this; omega
      have hx : x = (Index.descend k j).coords := congrArg Index.coords hr
      obtain ⟨h1, h2⟩ := top_descend (k := k) h.valid
      subst hl hx
      rw [h1, h2]; exact h
  · intro h
    rw [← descend_top l x]
    exact .inChild _ _ _ _ h

theorem nodeAt_descend {c : Fin (2 ^ R) → Tree R α} {k : Fin (2 ^ R)} {j : Index R} {u : Tree R α}
    (hj : j.Valid) : NodeAt (.node c) (Index.descend k j) u ↔ NodeAt (c k) j u := by
  constructor
  · intro h
    have := nodeAt_node_succ (l := j.level) (x := (Index.descend k j).coords).1 h
    rwa [(top_descend hj).1, (top_descend hj).2] at this
  · intro h; exact .inChild _ _ _ _ h

theorem nodeAt_unique {t u v : Tree R α} {i : Index R} (h : NodeAt t i u) (h' : NodeAt t i v) : u = v := by
  induction h with
  | here t => exact (nodeAt_root.1 h').symm
  | inChild c k j u h ih => exact ih ((nodeAt_descend h.valid).1 h')

theorem leafAt_node {c : Fin (2 ^ R) → Tree R α} {i : Index R} {a : α} :
    LeafAt (.node c) i a ↔ ∃ k j, i = Index.descend (Fin.val k) j ∧ LeafAt (c k) j a := by
  constructor
  · intro h
    cases h with
    | inChild c k j u h => exact ⟨k, j, rfl, h⟩
  · rintro ⟨k, j, rfl, h⟩; exact .inChild _ _ _ _ h

theorem leafAt_leaf {b a : α} {i : Index R} : LeafAt (.leaf b) i a ↔ i = Index.root ∧ a = b := by
  unfold LeafAt; rw [nodeAt_leaf]; simp

theorem leafAt_descend {c : Fin (2 ^ R) → Tree R α} {k : Fin (2 ^ R)} {j : Index R} {a : α}
    (hj : j.Valid) : LeafAt (.node c) (Index.descend k j) a ↔ LeafAt (c k) j a := nodeAt_descend hj

theorem exists_leaf (t : Tree R α) : ∃ i a, LeafAt t i a := by
  induction t with
  | leaf a => exact ⟨Index.root, a, .here _⟩
  | node c ih =>
    obtain ⟨i, a, h⟩ := ih Tree.first
    exact ⟨_, a, leafAt_node.2 ⟨_, _, rfl, h⟩⟩

/-! ### lookup -/

theorem nodeAt_code (hs : Shift sh) (t : Tree R α) (i : Index R) (hl : i.level ≤ 31) :
    (∃ u, t.nodeAt sh i = .ok u ∧ NodeAt t i u) ∨
    (t.nodeAt sh i = .throws .outOfRange ∧ ¬ ∃ u, NodeAt t i u) := by
  have hz : ∀ (t : Tree R α) (i : Index R), i.level = 0 →
      (∃ u, (if Seq.any (fun x => decide (i.coords x ≠ 0)) then (.throws .outOfRange : Outcome (Tree R α))
        else .ok t) = .ok u ∧ NodeAt t i u) ∨
      ((if Seq.any (fun x => decide (i.coords x ≠ 0)) then (.throws .outOfRange : Outcome (Tree R α))
        else .ok t) = .throws .outOfRange ∧ ¬ ∃ u, NodeAt t i u) := by
    intro t i h0
    by_cases h : i.coords = fun _ => 0
    · left
      refine ⟨t, ?_, (nodeAt_level_zero h0).2 ⟨Index.ext h0 h, rfl⟩⟩
      rw [if_neg (by rw [any_coords]; simpa using h)]
    · right
      refine ⟨by rw [if_pos (by rw [any_coords]; exact h)], ?_⟩
      rintro ⟨u, hu⟩
      exact h (congrArg Index.coords ((nodeAt_level_zero h0).1 hu).1)
  induction t generalizing i with
  | leaf a =>
    unfold Tree.nodeAt
    by_cases h0 : i.level = 0
    · rw [if_pos h0]; exact hz _ i h0
    · right
      refine ⟨by rw [if_neg h0], ?_⟩
      rintro ⟨u, hu⟩
      rw [nodeAt_leaf] at hu
      exact h0 (by rw [hu.1]; rfl)
  | node c ih =>
    unfold Tree.nodeAt
    by_cases h0 : i.level = 0
    · rw [if_pos h0]; exact hz _ i h0
    · rw [if_neg h0]
      obtain ⟨l, x⟩ := i
      obtain ⟨l, rfl⟩ := Nat.exists_eq_succ_of_ne_zero h0
      have hl' : l ≤ 30 := by simp only at hl; omega
      rw [orthant_eq hs hl', advance_eq hs hl']
      simp only [Outcome.bind_ok, childAt_eq]
      have := ih (topChild l x) (rest l x) (by simp only [rest]; omega)
      simp only [Nat.succ_eq_add_one, nodeAt_node_succ]
      exact this

theorem containsNode_code (hs : Shift sh) (t : Tree R α) (i : Index R) (hl : i.level ≤ 31) :
    ∃ b, t.containsNode sh i = .ok b ∧ (b = true ↔ ∃ u, NodeAt t i u) := by
  have hz : ∀ (t : Tree R α) (i : Index R), i.level = 0 →
      ((!Seq.any (fun x => decide (i.coords x ≠ 0))) = true ↔ ∃ u, NodeAt t i u) := by
    intro t i h0
    rw [Bool.not_eq_true', ← Bool.not_eq_true, any_coords, not_not]
    constructor
    · intro h; exact ⟨t, (nodeAt_level_zero h0).2 ⟨Index.ext h0 h, rfl⟩⟩
    · rintro ⟨u, hu⟩; exact congrArg Index.coords ((nodeAt_level_zero h0).1 hu).1
  induction t generalizing i with
  | leaf a =>
    unfold Tree.containsNode
    by_cases h0 : i.level = 0
    · rw [if_pos h0]; exact ⟨_, rfl, hz _ i h0⟩
    · refine ⟨false, by rw [if_neg h0], ?_⟩
      simp only [Bool.false_eq_true, false_iff]
      rintro ⟨u, hu⟩
      rw [nodeAt_leaf] at hu
      exact h0 (by rw [hu.1]; rfl)
  | node c ih =>
    unfold Tree.containsNode
    by_cases h0 : i.level = 0
    · rw [if_pos h0]; exact ⟨_, rfl, hz _ i h0⟩
    · rw [if_neg h0]
      obtain ⟨l, x⟩ := i
      obtain ⟨l, rfl⟩ := Nat.exists_eq_succ_of_ne_zero h0
      have hl' : l ≤ 30 := by simp only at hl; omega
      rw [orthant_eq hs hl', advance_eq hs hl']
      simp only [Outcome.bind_ok, childAt_eq]
      have := ih (topChild l x) (rest l x) (by simp only [rest]; omega)
      simp only [Nat.succ_eq_add_one, nodeAt_node_succ]
      exact this

theorem contains_code (hs : Shift sh) (t : Tree R α) (i : Index R) (hl : i.level ≤ 31) (hv : i.Valid)
    (hi : ¬ InteriorAt t i) :
    ∃ b, t.contains sh i = .ok b ∧ (b = true ↔ ∃ a, LeafAt t i a) := by
  induction t generalizing i with
  | leaf a =>
    refine ⟨_, rfl, ?_⟩
    rw [Bool.and_eq_true, decide_eq_true_eq, Bool.not_eq_true', ← Bool.not_eq_true, any_coords, not_not]
    simp only [leafAt_leaf]
    constructor
    · rintro ⟨h1, h2⟩; exact ⟨a, Index.ext h1 h2, rfl⟩
    · rintro ⟨b, rfl, rfl⟩; exact ⟨rfl, rfl⟩
  | node c ih =>
    unfold Tree.contains
    have h0 : i.level ≠ 0 := by
      intro h0
      apply hi
      refine ⟨c, (nodeAt_level_zero h0).2 ⟨?_, rfl⟩⟩
      ext a
      · exact h0
      · have := hv a; rw [h0] at this; simp at this; simp [Index.root, this]
    obtain ⟨l, x⟩ := i
    obtain ⟨l, rfl⟩ := Nat.exists_eq_succ_of_ne_zero h0
    have hl' : l ≤ 30 := by simp only at hl; omega
    rw [orthant_eq hs hl', advance_eq hs hl']
    simp only [Outcome.bind_ok, childAt_eq]
    have := ih (topChild l x) (rest l x) (by simp only [rest]; omega) (valid_rest hv)
      (by rintro ⟨d, hd⟩; exact hi ⟨d, nodeAt_node_succ.2 hd⟩)
    simp only [Nat.succ_eq_add_one, LeafAt, nodeAt_node_succ]
    exact this

/-! ### enumeration -/

/-- The indexes of the leaves, depth first. -/
def paths : Tree R α → List (Index R)
  | .leaf _ => [Index.root]
  | .node c => (List.finRange (2 ^ R)).flatMap fun k => (paths (c k)).map (Index.descend k)

theorem flatten_ofFn {n : Nat} (f : Fin n → List β) :
    (List.ofFn f).flatten = (List.finRange n).flatMap f := by
  rw [List.ofFn_eq_map, List.flatMap]

theorem sink_eq_leaves (t : Tree R α) : t.sink = leaves t := by
  induction t with
  | leaf a => rfl
  | node c ih =>
    unfold Tree.sink leaves
    rw [flatten_ofFn]
    congr 1; funext k; exact ih k

theorem mem_paths {t : Tree R α} {i : Index R} : i ∈ paths t ↔ ∃ a, LeafAt t i a := by
  induction t generalizing i with
  | leaf a => simp [paths, leafAt_leaf]
  | node c ih =>
    simp only [paths, List.mem_flatMap, List.mem_map, List.mem_finRange, true_and, ih, leafAt_node]
    constructor
    · rintro ⟨k, j, ⟨a, h⟩, rfl⟩; exact ⟨a, k, j, rfl, h⟩
    · rintro ⟨a, k, j, rfl, h⟩; exact ⟨k, j, ⟨a, h⟩, rfl⟩

theorem valid_of_mem_paths {t : Tree R α} {i : Index R} (h : i ∈ paths t) : i.Valid := by
  obtain ⟨a, h⟩ := mem_paths.1 h; exact h.valid

theorem nodup_paths (t : Tree R α) : (paths t).Nodup := by
  induction t with
  | leaf a => simp [paths]
  | node c ih =>
    unfold paths
    rw [List.nodup_flatMap]
    constructor
    · intro k _
      apply List.Nodup.map_on _ (ih k)
      intro i hi j hj h
      exact (descend_inj (k := k) (m := k) (valid_of_mem_paths hi) (valid_of_mem_paths hj) h).2
    · apply List.Pairwise.imp _ (List.nodup_finRange _)
      intro k m hne
      rw [Function.onFun, List.disjoint_left]
      intro i hi hj
      rw [List.mem_map] at hi hj
      obtain ⟨i', hi', rfl⟩ := hi
      obtain ⟨j', hj', hij⟩ := hj
      exact hne (descend_inj (valid_of_mem_paths hi') (valid_of_mem_paths hj') hij.symm).1

theorem forall₂_flatMap {ι : Type} {P : β → γ → Prop} (l : List ι) (f : ι → List β) (g : ι → List γ)
    (h : ∀ k ∈ l, List.Forall₂ P (f k) (g k)) : List.Forall₂ P (l.flatMap f) (l.flatMap g) := by
  induction l with
  | nil => simp
  | cons k l ih =>
    simp only [List.flatMap_cons]
    exact List.rel_append (h k (by simp)) (ih fun m hm => h m (by simp [hm]))

theorem forall₂_paths (t : Tree R α) : List.Forall₂ (LeafAt t) (paths t) (leaves t) := by
  induction t with
  | leaf a => simp [paths, leaves, leafAt_leaf]
  | node c ih =>
    unfold paths leaves
    apply forall₂_flatMap
    intro k _
    rw [List.forall₂_map_left_iff]
    apply List.Forall₂.imp _ (ih k)
    intro i a h
    exact leafAt_node.2 ⟨k, i, rfl, h⟩

theorem depthLe_child {c : Fin (2 ^ R) → Tree R α} {D : Nat} (h : DepthLe (.node c) D) (k : Fin (2 ^ R)) :
    ∃ D', D = D' + 1 ∧ DepthLe (c k) D' := by
  obtain ⟨i, a, hi⟩ := exists_leaf (c k)
  have h1 := h _ _ (leafAt_node.2 ⟨k, i, rfl, hi⟩)
  simp only [Index.descend] at h1
  refine ⟨D - 1, by omega, ?_⟩
  intro j b hj
  have h1 := h _ _ (leafAt_node.2 ⟨k, j, rfl, hj⟩)
  simp only [Index.descend] at h1
  omega

theorem childIndexes_eq {i : Index R} (hv : i.Valid) (hl : i.level < 63) (k : Fin (2 ^ R)) :
    i.childIndexes k = i.child k := by
  unfold Index.childIndexes Index.child
  ext a
  · rfl
  · simp only [binaryRepr_eq]
    have h1 := hv a
    have h2 : 2 * 2 ^ i.level ≤ 2 ^ 63 := by
      rw [← Nat.pow_succ']; exact Nat.pow_le_pow_right (by norm_num) (by omega)
    rw [Nat.mod_eq_of_lt]
    · cases (k : Nat).testBit a <;> simp <;> omega
    · cases (k : Nat).testBit a <;> simp <;> omega

theorem child_valid {i : Index R} (hv : i.Valid) (k : Nat) : (i.child k).Valid := by
  intro a
  have := hv a
  simp only [Index.child, Nat.pow_succ]
  cases k.testBit a <;> simp <;> omega

theorem child_within (i j : Index R) (k : Nat) : (i.child k).within j = i.within (Index.descend k j) := by
  unfold Index.child Index.within Index.descend
  ext a
  · simp only; omega
  · simp only [Nat.pow_succ]; ring

theorem root_within (i : Index R) : Index.root.within i = i := by
  ext a <;> simp [Index.within, Index.root]

theorem within_root (i : Index R) : i.within Index.root = i := by
  ext a <;> simp [Index.within, Index.root]

theorem within_valid {i j : Index R} (hi : i.Valid) (hj : j.Valid) : (i.within j).Valid := by
  intro a
  have h1 := hi a
  have h2 := hj a
  simp only [Index.within, Nat.pow_add]
  calc i.coords a * 2 ^ j.level + j.coords a < i.coords a * 2 ^ j.level + 2 ^ j.level := by omega
    _ = (i.coords a + 1) * 2 ^ j.level := by ring
    _ ≤ 2 ^ i.level * 2 ^ j.level := Nat.mul_le_mul_right _ h1

theorem leaves_indexes (t : Tree R α) (i : Index R) (hv : i.Valid) (D : Nat) (hD : DepthLe t D)
    (hl : i.level + D < 64) : leaves (t.indexes i) = (paths t).map i.within := by
  induction t generalizing i D with
  | leaf a => simp [leaves, Tree.indexes, paths, within_root]
  | node c ih =>
    unfold Tree.indexes leaves paths
    rw [List.map_flatMap]
    congr 1; funext k
    obtain ⟨D', rfl, hD'⟩ := depthLe_child hD k
    simp only
    rw [childIndexes_eq hv (by omega), ih k (i.child k) (child_valid hv k) D' hD' (by
      simp only [Index.child]; omega)]
    rw [List.map_map]
    apply List.map_congr_left
    intro j _
    exact child_within i j k

end Verif.Tree
