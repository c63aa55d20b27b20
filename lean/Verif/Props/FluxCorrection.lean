import Verif.Lemmas.FluxCorrection
import Mathlib.Tactic.NormNum
import Mathlib.Tactic.FinCases

/-!
# C66: flux correction makes the adaptive mesh conservative

`TotalShift sh` describes machines where `1 << n` has some value for all `n`; under the C++ standard the correction has undefined
behaviour as soon as a neighbour is finer (`flux_correction_violated`).
-/

namespace Verif.Binary

open Verif Verif.Nd Verif.Tree

variable {K : Type} {sh : Nat → Outcome Nat}

/-- **C66**, the fluxes: on a balanced mesh whose blocks have `N` times `N` cells, the correction succeeds; it keeps all fluxes but
those through a side of a block where the neighbour is finer, and replaces each of these by the sum of the two finer fluxes through
the same face. -/
theorem flux_correction_partial [AddCommGroup K] [Inhabited K] (hs : TotalShift sh) (t : Tree 2 (Arr 2 K)) (D : Nat) (hD : DepthLe t D)
    (h30 : D ≤ 30) (hb : Balanced t) (a : Fin 2) (N : Nat) (hN : 1 ≤ N) (hN2 : (N + 1) * N < 2 ^ 31) (f : Index 2 → Nat → Nat → K)
    (hf : ∀ i b, LeafAt t i b → Along a b (N + 1) N (f i)) :
    ∃ (t' : Tree 2 (Arr 2 K)) (g : Index 2 → Nat → Nat → K), correctFluxes sh a t = .ok t' ∧ SameShape t' t ∧ (∀ i b, LeafAt t' i b → Along a b (N + 1) N (g i)) ∧
      ∀ i b, LeafAt t i b → (∀ x y, 0 < x → x < N → y < N → g i x y = f i x y) ∧
        LowerCorrected a N t f i (g i 0) ∧ UpperCorrected a N t f i (g i N) := by
  classical
  have hblock : ∀ i b, LeafAt t i b → ∃ B, correctBlock sh a t i = .ok B ∧ ∃ q, Along a B (N + 1) N q ∧
      (∀ x y, 0 < x → x < N → y < N → q x y = f i x y) ∧ LowerCorrected a N t f i (q 0) ∧ UpperCorrected a N t f i (q N) := by
    intro i b hi
    have hlev := hD i b hi
    obtain ⟨B, p, e1, d1, h1, h2⟩ := correctLower_ok hs t D hD h30 hb a N hN hN2 f hf i b hi b (f i) (hf i b hi) (fun _ _ => rfl)
    obtain ⟨C, q, e2, d2, h3, h4⟩ := correctUpper_ok hs t D hD h30 hb a N hN hN2 f hf i b hi B p d1
      (fun y hy => h1 N y (by omega) le_rfl hy)
    refine ⟨C, ?_, q, d2, fun x y h0 hx hy => (h3 x y hx hy).trans (h1 x y h0 hx.le hy), ?_, h4⟩
    · unfold correctBlock
      rw [((tree_at hs.1 t i (by omega)).1 b).2 hi, Outcome.bind_ok, e1, Outcome.bind_ok, e2]
    · intro j hj hfol
      obtain ⟨g1, g2, g3⟩ := h2 j hj hfol
      exact ⟨fun c hc y hy => (h3 0 y (by omega) hy).trans (g1 c hc y hy),
        fun m c k hm he y hy => (h3 0 y (by omega) hy).trans (g2 m c k hm he y hy),
        fun c hc y hy => (h3 0 y (by omega) hy).trans (g3 c hc y hy)⟩
  obtain ⟨t', e, hsame, hl⟩ := mapIndexes_ok t D hD (by omega) hblock
  have hex : ∀ i, ∃ q : Nat → Nat → K, (∃ b, LeafAt t i b) → (∀ b, LeafAt t' i b → Along a b (N + 1) N q) ∧
      (∀ x y, 0 < x → x < N → y < N → q x y = f i x y) ∧ LowerCorrected a N t f i (q 0) ∧ UpperCorrected a N t f i (q N) := by
    intro i
    by_cases hi : ∃ b, LeafAt t i b
    · obtain ⟨B, hB⟩ := (hsame i).2 hi
      obtain ⟨_, q, h1, h2, h3, h4⟩ := hl i B hB
      refine ⟨q, fun _ => ⟨fun b hb => ?_, h2, h3, h4⟩⟩
      have : b = B := by
        have := nodeAt_unique hb hB
        injection this
      rw [this]
      exact h1
    · exact ⟨fun _ _ => 0, fun h => absurd h hi⟩
  choose g hg using hex
  exact ⟨t', g, e, hsame, fun i b hb => (hg i ((hsame i).1 ⟨b, hb⟩)).1 b hb, fun i b hb => (hg i ⟨b, hb⟩).2⟩

theorem sum_pairs [AddCommMonoid K] (h : Nat → K) (n : Nat) :
    ∑ y ∈ Finset.range n, (h (2 * y) + h (2 * y + 1)) = ∑ y ∈ Finset.range (n + n), h y := by
  induction n with
  | zero => rfl
  | succ n ih =>
    rw [Finset.sum_range_succ, ih, show n + 1 + (n + 1) = n + n + 1 + 1 by omega, Finset.sum_range_succ, Finset.sum_range_succ, ← two_mul,
      add_assoc]

theorem sum_side [AddCommMonoid K] (N : Nat) (a : Fin 2) (s : Bool) (f : Index 2 → Nat → K) (j : Index 2) :
    ∑ y ∈ Finset.range N, (sideFluxes N a s f j (2 * y) + sideFluxes N a s f j (2 * y + 1))
      = ∑ y ∈ Finset.range N, f (j.child (corner a s false)) y + ∑ y ∈ Finset.range N, f (j.child (corner a s true)) y := by
  rw [sum_pairs (fun y => sideFluxes N a s f j y), Finset.sum_range_add]
  congr 1
  · refine Finset.sum_congr rfl fun y hy => ?_
    exact if_pos (Finset.mem_range.mp hy)
  · refine Finset.sum_congr rfl fun y hy => ?_
    unfold sideFluxes
    rw [if_neg (by omega), Nat.add_sub_cancel_left]

/-- The sides of the corrected fluxes match. -/
theorem corrected_matched [AddCommGroup K] (wrap : Prop) (t : Tree 2 (Arr 2 K)) (a : Fin 2) (N : Nat) (f g : Index 2 → Nat → Nat → K)
    (hsame : ∀ i j b c, LeafAt t i b → LeafAt t j c → Follows wrap a i j → ∀ y, y < N → f i N y = f j 0 y)
    (hg : ∀ i b, LeafAt t i b → LowerCorrected a N t f i (g i 0) ∧ UpperCorrected a N t f i (g i N)) :
    Matched wrap a t (fun i => ∑ y ∈ Finset.range N, g i 0 y) (fun i => ∑ y ∈ Finset.range N, g i N y) := by
  refine ⟨fun i j b c hi hj hf => ?_, fun i j b c hi hj hf => ?_, fun i j b c hi hj hf => ?_⟩
  · refine Finset.sum_congr rfl fun y hy => ?_
    have hy := Finset.mem_range.mp hy
    rw [((hg i b hi).2 j hj.valid (follows_mono hf)).1 c hj y hy, ((hg j c hj).1 i hi.valid (follows_mono hf)).1 b hi y hy]
    exact hsame i j b c hi hj hf y hy
  · have key : ∀ m, ∑ y ∈ Finset.range N, g (j.child (corner a false m)) 0 y
        = ∑ y ∈ Finset.range N, f (j.child (corner a false m)) 0 y := by
      intro m
      refine Finset.sum_congr rfl fun y hy => ?_
      have hy := Finset.mem_range.mp hy
      have hfc : Follows True a (i.child (corner a true m)) (j.child (corner a false m)) :=
        (follows_mono hf).child (corner_bit a true m) (corner_bit a false m) fun b hb => by
          rw [corner_other a _ _ b hb, corner_other a _ _ b hb]
      exact ((hg _ _ (nodeAt_child hj (corner a false m))).1 _ (child_valid hi.valid _) hfc).2.1 i b _ hi rfl y hy
    rw [key, key]
    refine Eq.trans ?_ (sum_side N a false (fun i => f i 0) j)
    refine Finset.sum_congr rfl fun y hy => ?_
    exact ((hg i b hi).2 j hj.valid (follows_mono hf)).2.2 c hj y (Finset.mem_range.mp hy)
  · have key : ∀ m, ∑ y ∈ Finset.range N, g (i.child (corner a true m)) N y
        = ∑ y ∈ Finset.range N, f (i.child (corner a true m)) N y := by
      intro m
      refine Finset.sum_congr rfl fun y hy => ?_
      have hy := Finset.mem_range.mp hy
      have hfc : Follows True a (i.child (corner a true m)) (j.child (corner a false m)) :=
        (follows_mono hf).child (corner_bit a true m) (corner_bit a false m) fun b hb => by
          rw [corner_other a _ _ b hb, corner_other a _ _ b hb]
      exact ((hg _ _ (nodeAt_child hi (corner a true m))).2 _ (child_valid hj.valid _) hfc).2.1 j b _ hj rfl y hy
    rw [key, key]
    refine (sum_side N a true (fun i => f i N) i).symm.trans ?_
    refine Finset.sum_congr rfl fun y hy => ?_
    exact (((hg j b hj).1 i hi.valid (follows_mono hf)).2.2 c hi y (Finset.mem_range.mp hy)).symm

theorem sum_differences [AddCommGroup K] (N : Nat) (g : Nat → Nat → K) :
    ∑ x ∈ Finset.range N, ∑ y ∈ Finset.range N, (g (x + 1) y - g x y)
      = ∑ y ∈ Finset.range N, g N y - ∑ y ∈ Finset.range N, g 0 y := by
  rw [Finset.sum_comm, ← Finset.sum_sub_distrib]
  exact Finset.sum_congr rfl fun y _ => Finset.sum_range_sub (fun x => g x y) N

/-- **C66**, conservation: let blocks of the same level that share a side have the same fluxes there (before correction).  After the
correction, the differences of the fluxes along the axis, added over all cells of all blocks, are what goes in and out through the
sides of the domain; if the fluxes are also the same on the two sides of the domain, they add up to nothing. -/
theorem flux_conservation_partial [AddCommGroup K] [Inhabited K] (hs : TotalShift sh) (t : Tree 2 (Arr 2 K)) (D : Nat) (hD : DepthLe t D)
    (h30 : D ≤ 30) (hb : Balanced t) (a : Fin 2) (N : Nat) (hN : 1 ≤ N) (hN2 : (N + 1) * N < 2 ^ 31) (f : Index 2 → Nat → Nat → K)
    (hf : ∀ i b, LeafAt t i b → Along a b (N + 1) N (f i))
    (hsame : ∀ i j b c, LeafAt t i b → LeafAt t j c → Follows False a i j → ∀ y, y < N → f i N y = f j 0 y) :
    ∃ (t' : Tree 2 (Arr 2 K)) (d lower upper : Index 2 → K), correctFluxes sh a t = .ok t' ∧ SameShape t' t ∧
      (∀ i b, LeafAt t' i b → (Nd.difference a b).bind Nd.sum = .ok (d i) ∧
        ((selectFirst 1 a b).bind Nd.sum = .ok (lower i) ∧ (selectFinal 1 a b).bind Nd.sum = .ok (upper i))) ∧
      leafSum t' (fun i _ => d i)
        = leafSum t' (fun i _ => if AtUpper a i then upper i else 0) - leafSum t' (fun i _ => if AtLower a i then lower i else 0) ∧
      ((∀ i j b c, LeafAt t i b → LeafAt t j c → Follows True a i j → ∀ y, y < N → f i N y = f j 0 y) →
        leafSum t' (fun i _ => d i) = 0) := by
  have hsmall : N < 2 ^ 31 := lt_of_le_of_lt (Nat.le_mul_of_pos_left N (Nat.succ_pos N)) hN2
  obtain ⟨t', g, e, hsh, hg, hc⟩ := flux_correction_partial hs t D hD h30 hb a N hN hN2 f hf
  refine ⟨t', fun i => ∑ y ∈ Finset.range N, g i N y - ∑ y ∈ Finset.range N, g i 0 y, fun i => ∑ y ∈ Finset.range N, g i 0 y,
    fun i => ∑ y ∈ Finset.range N, g i N y, e, hsh, fun i b hi => ⟨?_, ?_, ?_⟩, ?_, fun hwrap => ?_⟩
  · obtain ⟨C, e1, d1⟩ := (hg i b hi).difference (by omega) (by omega)
    rw [e1, Outcome.bind_ok, d1.sum hN hN (by omega) (by omega), sum_differences]
  · obtain ⟨C, e1, d1⟩ := (hg i b hi).selectFirst (l := 1) (by omega) (by omega) (by omega)
    rw [e1, Outcome.bind_ok, d1.sum le_rfl hN (by omega) (by omega), Finset.sum_range_one]
  · obtain ⟨C, e1, d1⟩ := (hg i b hi).selectFinal (l := 1) (by omega) (by omega) (by omega)
    rw [e1, Outcome.bind_ok, d1.sum le_rfl hN (by omega) (by omega), Finset.sum_range_one]
    rfl
  · rw [leafSum_sameShape hsh (fun i => _), leafSum_sameShape hsh (fun i => if AtUpper a i then _ else 0),
      leafSum_sameShape hsh (fun i => if AtLower a i then _ else 0)]
    exact (corrected_matched False t a N f g hsame fun i b hi => (hc i b hi).2).total hb D hD h30
  · rw [leafSum_sameShape hsh (fun i => _)]
    exact (corrected_matched True t a N f g hwrap fun i b hi => (hc i b hi).2).total_wrap hb D hD h30

/-! ### A mesh with one divided cell -/

/-- A block of one cell with the fluxes `p` and `q` through its faces. -/
def exBlock (p q : ℤ) : Arr 2 ℤ := ⟨![2, 1], fun i => .ok (if i 0 = 0 then p else q)⟩

/-- One cell of the root is divided into blocks through which something flows in at the left only. -/
def exFluxes : Tree 2 (Arr 2 ℤ) :=
  .node fun k => if k = 0 then .node fun m => .leaf (if m = 0 ∨ m = 2 then exBlock 0 1 else exBlock 1 1) else .leaf (exBlock 0 0)

/-- The fluxes of this mesh by index. -/
def exFlux (i : Index 2) (x _ : Nat) : ℤ := if i.level = 2 then (if i.coords 0 = 0 ∧ x = 0 then 0 else 1) else 0

theorem exBlock_along (p q : ℤ) : Along 0 (exBlock p q) (1 + 1) 1 (fun x _ => if x = 0 then p else q) :=
  ⟨rfl, rfl, fun _ _ _ _ => rfl⟩

theorem exFluxes_leaf {i : Index 2} {b : Arr 2 ℤ} (h : LeafAt exFluxes i b) :
    1 ≤ i.level ∧ i.level ≤ 2 ∧ (i.level = 2 → i.coords 0 ≤ 1) ∧ Along 0 b (1 + 1) 1 (exFlux i) := by
  obtain ⟨k, j, rfl, hj⟩ := leafAt_node.1 h
  by_cases h0 : k = 0
  · rw [if_pos h0] at hj
    obtain ⟨m, l, rfl, hl⟩ := leafAt_node.1 hj
    obtain ⟨rfl, rfl⟩ := leafAt_leaf.1 hl
    subst h0
    refine ⟨by simp [Index.descend], by simp [Index.descend, Index.root], fun _ => ?_, ?_⟩
    · fin_cases m <;> decide
    · fin_cases m
      · exact (exBlock_along 0 1).congr rfl rfl fun x _ y _ => by
          by_cases hx : x = 0 <;> simp [exFlux, Index.descend, Index.root, hx]
      · exact (exBlock_along 1 1).congr rfl rfl fun x _ y _ => by
          by_cases hx : x = 0 <;> simp [exFlux, Index.descend, Index.root]
      · exact (exBlock_along 0 1).congr rfl rfl fun x _ y _ => by
          by_cases hx : x = 0 <;> simp [exFlux, Index.descend, Index.root, hx, Nat.testBit]
      · exact (exBlock_along 1 1).congr rfl rfl fun x _ y _ => by
          by_cases hx : x = 0 <;> simp [exFlux, Index.descend, Index.root, Nat.testBit]
  · rw [if_neg h0] at hj
    obtain ⟨rfl, rfl⟩ := leafAt_leaf.1 hj
    refine ⟨by simp [Index.descend], by simp [Index.descend, Index.root], fun h => by simp [Index.descend, Index.root] at h, ?_⟩
    exact (exBlock_along 0 0).congr rfl rfl fun x _ y _ => by simp [exFlux, Index.descend, Index.root]

theorem exFluxes_balanced : Balanced exFluxes := by
  rintro i a hi ⟨j, _, _, l, b, hl, _, hlt⟩
  have := (exFluxes_leaf hi).1
  have := (exFluxes_leaf hl).2.1
  omega

theorem exFluxes_same (i j : Index 2) (b c : Arr 2 ℤ) (hi : LeafAt exFluxes i b) (hj : LeafAt exFluxes j c) (hf : Follows True 0 i j)
    (y : Nat) : exFlux i 1 y = exFlux j 0 y := by
  obtain ⟨h1, h2, h3, _⟩ := exFluxes_leaf hi
  obtain ⟨g1, g2, g3, _⟩ := exFluxes_leaf hj
  have hl := hf.1
  unfold exFlux
  by_cases h : i.level = 2
  · have := h3 h
    have h' : j.level = 2 := hl ▸ h
    rw [if_pos h, if_pos h', if_neg (by omega)]
    rcases hf.2.2 with e | ⟨_, e, _⟩
    · rw [if_neg (by omega)]
    · rw [h] at e
      omega
  · rw [if_neg h, if_neg (by omega)]

example : ∃ (t' : Tree 2 (Arr 2 ℤ)) (d : Index 2 → ℤ), correctFluxes exShift 0 exFluxes = .ok t' ∧
    (∀ i b, LeafAt t' i b → (Nd.difference 0 b).bind Nd.sum = .ok (d i)) ∧ leafSum t' (fun i _ => d i) = 0 := by
  obtain ⟨t', d, _, _, h1, _, h3, _, h5⟩ := flux_conservation_partial exShift_total exFluxes 2 (fun i b h => (exFluxes_leaf h).2.1)
    (by norm_num) exFluxes_balanced 0 1 le_rfl (by norm_num) exFlux (fun i b h => (exFluxes_leaf h).2.2.2)
    (fun i j b c hi hj hf y _ => exFluxes_same i j b c hi hj (follows_mono hf) y)
  exact ⟨t', d, h1, fun i b hb => (h3 i b hb).1, h5 fun i j b c hi hj hf y _ => exFluxes_same i j b c hi hj hf y⟩

/-- **C66**, "without correction it does not": blocks of the same level agree on all fluxes they share, across the sides of the
domain as well, and still the differences do not add up to nothing. -/
theorem uncorrected_not_conservative :
    (∀ i j b c, LeafAt exFluxes i b → LeafAt exFluxes j c → Follows True 0 i j → ∀ y, y < 1 → exFlux i 1 y = exFlux j 0 y) ∧
    (∀ i b, LeafAt exFluxes i b → Along 0 b (1 + 1) 1 (exFlux i)) ∧ Balanced exFluxes ∧
    (∀ i b, LeafAt exFluxes i b → (Nd.difference 0 b).bind Nd.sum = .ok (exFlux i 1 0 - exFlux i 0 0)) ∧
    leafSum exFluxes (fun i _ => exFlux i 1 0 - exFlux i 0 0) = 2 := by
  refine ⟨fun i j b c hi hj hf y _ => exFluxes_same i j b c hi hj hf y, fun i b h => (exFluxes_leaf h).2.2.2, exFluxes_balanced,
    fun i b hi => ?_, rfl⟩
  obtain ⟨C, e1, d1⟩ := (exFluxes_leaf hi).2.2.2.difference (by omega) (by omega)
  have e1' : Nd.difference 0 b = .ok C := e1
  rw [e1', Outcome.bind_ok, d1.sum le_rfl le_rfl (by omega) (by omega), Finset.sum_range_one, Finset.sum_range_one]

/-- **C66** violated under the C++ standard: where a neighbour is finer, the correction asks `contains` for an index that is divided,
which shifts by a level that has wrapped around. -/
theorem flux_correction_violated [Add K] [Inhabited K] (t : Tree 2 (Arr 2 K)) (a : Fin 2) (i j : Index 2) (hi : i.Valid)
    (hl : i.level ≤ 30) (hj : InteriorAt t j) (F : Arr 2 K) :
    (Follows True a i j → correctUpper shl1 a t i F = .ub) ∧ (Follows True a j i → correctLower shl1 a t i F = .ub) := by
  have hjv : j.Valid := by
    obtain ⟨c, hc⟩ := hj
    exact hc.valid
  constructor
  · intro hf
    obtain ⟨k, e, hk, hfk⟩ := nextOn_follows shl1_shift hi hl a
    obtain rfl := Follows.unique_next hi hjv hk hf hfk
    have hlev := hf.1
    unfold correctUpper
    rw [e, Outcome.bind_ok, tree_contains_interior_ub t j (by omega) hj]
    rfl
  · intro hf
    obtain ⟨k, e, hk, hfk⟩ := prevOn_follows shl1_shift hi hl a
    obtain rfl := Follows.unique_prev hjv hk hf hfk
    have hlev := hf.1
    unfold correctLower
    rw [e, Outcome.bind_ok, tree_contains_interior_ub t j (by omega) hj]
    rfl

example : correctUpper shl1 0 exFluxes ⟨1, ![1, 0]⟩ (exBlock 0 0) = .ub := by
  refine (flux_correction_violated exFluxes 0 ⟨1, ![1, 0]⟩ ⟨1, ![0, 0]⟩ (fun b => by fin_cases b <;> decide) (by norm_num) ?_ _).1 ?_
  · have h := nodeAt_child (NodeAt.here exFluxes) 0
    rw [if_pos rfl] at h
    have e : (⟨1, ![0, 0]⟩ : Index 2) = Index.root.child ((0 : Fin (2 ^ 2)) : Nat) := by
      ext b
      · rfl
      · fin_cases b <;> rfl
    rw [e]
    exact ⟨_, h⟩
  · refine ⟨rfl, fun b hb => ?_, Or.inr ⟨trivial, rfl, rfl⟩⟩
    fin_cases b
    · exact absurd rfl hb
    · rfl

example : ∃ (t' : Tree 2 (Arr 2 ℤ)) (g : Index 2 → Nat → Nat → ℤ), correctFluxes exShift 0 exFluxes = .ok t' ∧
    ∀ i b, LeafAt exFluxes i b → LowerCorrected 0 1 exFluxes exFlux i (g i 0) ∧ UpperCorrected 0 1 exFluxes exFlux i (g i 1) := by
  obtain ⟨t', g, h1, _, _, h2⟩ := flux_correction_partial exShift_total exFluxes 2 (fun i b h => (exFluxes_leaf h).2.1)
    (by norm_num) exFluxes_balanced 0 1 le_rfl (by norm_num) exFlux (fun i b h => (exFluxes_leaf h).2.2.2)
  exact ⟨t', g, h1, fun i b hb => (h2 i b hb).2⟩

end Verif.Binary
