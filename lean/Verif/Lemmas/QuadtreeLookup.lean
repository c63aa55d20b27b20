import Verif.Lemmas.QuadtreeBlocks

/-! Lemmas on reading the neighbouring blocks of a balanced tree. -/

namespace Verif.Tree
open Verif Verif.Seq Verif.Nd

variable {R : Nat} {α K : Type} {k : Type} [Field k] [AddCommGroup K] [Module k K]

/-- The cell `d` levels up that contains the cell. -/
def Index.up (i : Index R) (d : Nat) : Index R := ⟨i.level - d, fun a => i.coords a / 2 ^ d⟩

theorem inside_up {i : Index R} {d : Nat} (hd : d ≤ i.level) : i.Inside (i.up d) := by
  refine ⟨⟨d, fun a => i.coords a % 2 ^ d⟩, fun a => Nat.mod_lt _ (Nat.two_pow_pos d), ?_⟩
  ext a
  · simp only [Index.within, Index.up]; omega
  · simp only [Index.within, Index.up]
    rw [Nat.mul_comm]; exact (Nat.div_add_mod _ _).symm

theorem up_valid {i : Index R} (hv : i.Valid) {d : Nat} (hd : d ≤ i.level) : (i.up d).Valid :=
  (inside_up hd).valid_outer hv

theorem inside_eq_up {i j : Index R} (h : i.Inside j) : j.level ≤ i.level ∧ j = i.up (i.level - j.level) := by
  obtain ⟨m, hm, rfl⟩ := h
  refine ⟨by simp only [Index.within]; omega, ?_⟩
  ext a
  · simp only [Index.within, Index.up]; omega
  · simp only [Index.within, Index.up, Nat.add_sub_cancel_left]
    rw [Nat.add_comm, Nat.add_mul_div_right _ _ (Nat.two_pow_pos _), Nat.div_eq_of_lt (hm a), Nat.zero_add]

theorem div_step {x y N M : Nat} (hM : 0 < M) (hx : x < N * M) (hy : y = (x + 1) % (N * M)) :
    y / M = x / M ∨ y / M = (x / M + 1) % N := by
  have hxN : x / M < N := Nat.div_lt_of_lt_mul (by rwa [Nat.mul_comm])
  by_cases h : x + 1 = N * M
  · right
    rw [h, Nat.mod_self] at hy
    subst hy
    have : x / M + 1 = N := by
      have h1 : (x + 1) / M = N := by rw [h]; exact Nat.mul_div_cancel _ hM
      have h2 : (x + 1) / M ≤ x / M + 1 := by
        calc (x + 1) / M ≤ (x + M) / M := Nat.div_le_div_right (by omega)
          _ = x / M + 1 := Nat.add_div_right x hM
      omega
    rw [this, Nat.mod_self, Nat.zero_div]
  · rw [Nat.mod_eq_of_lt (by omega)] at hy
    subst hy
    rw [Nat.succ_div]
    split
    · right
      have : (x + 1) / M < N := Nat.div_lt_of_lt_mul (by rw [Nat.mul_comm]; omega)
      rw [Nat.succ_div, if_pos ‹_›] at this
      rw [Nat.mod_eq_of_lt this]
    · left; rfl

theorem Neighbour.symm {i j : Index R} (h : Neighbour i j) : Neighbour j i := by
  obtain ⟨h1, a, h2, h3⟩ := h
  refine ⟨h1.symm, a, fun b hb => (h2 b hb).symm, ?_⟩
  rw [← h1]; exact h3.symm

theorem neighbour_up {i j : Index R} (h : Neighbour i j) (hi : i.Valid) (hj : j.Valid) {d : Nat} (hd : d ≤ i.level) :
    i.up d = j.up d ∨ Neighbour (i.up d) (j.up d) := by
  obtain ⟨h1, a, h2, h3⟩ := h
  have hp : 2 ^ i.level = 2 ^ (i.level - d) * 2 ^ d := by rw [← Nat.pow_add]; congr 1; omega
  have hia := hi a
  have hja := hj a
  rw [← h1] at hja
  rw [hp] at h3 hia hja
  have hM := Nat.two_pow_pos d
  have key : (i.coords a / 2 ^ d = j.coords a / 2 ^ d) ∨
      (j.coords a / 2 ^ d = (i.coords a / 2 ^ d + 1) % 2 ^ (i.level - d) ∨
       i.coords a / 2 ^ d = (j.coords a / 2 ^ d + 1) % 2 ^ (i.level - d)) := by
    rcases h3 with h | h
    · rcases div_step hM hia h with e | e
      · exact .inl e.symm
      · exact .inr (.inl e)
    · rcases div_step hM hja h with e | e
      · exact .inl e
      · exact .inr (.inr e)
  rcases key with e | e
  · left
    ext b
    · simp only [Index.up, h1]
    · simp only [Index.up]
      by_cases hb : b = a
      · rw [hb, e]
      · rw [h2 b hb]
  · right
    exact ⟨by simp only [Index.up, h1], a, fun b hb => by simp only [Index.up]; rw [h2 b hb], e⟩

theorem child_eq_within (j : Index R) (n : Nat) : j.child n = j.within (Index.descend n Index.root) := by
  rw [← child_within, within_root]

theorem nodeAt_child {t : Tree R α} {j : Index R} {c : Fin (2 ^ R) → Tree R α} (h : NodeAt t j (.node c))
    (n : Fin (2 ^ R)) : NodeAt t (j.child n) (c n) := by
  rw [child_eq_within]
  have hv : (Index.root : Index R).Valid := fun a => by simp [Index.root]
  refine (nodeAt_within h ?_).2 (.inChild c n _ _ (.here _))
  rw [descend_root]; exact child_valid hv _

theorem leafAt_not_interior {t : Tree R α} {j : Index R} {a : α} (h : LeafAt t j a) : ¬ InteriorAt t j := by
  rintro ⟨c, hc⟩
  cases nodeAt_unique h hc

/-- In a balanced tree a leaf and its neighbours are leaves, children of leaves, or divided into leaves. -/
theorem neighbour_node {t : Tree R α} (hb : Balanced t) {i j : Index R} {a : α} (hi : LeafAt t i a)
    (h30 : i.level ≤ 30) (hj : j = i ∨ Neighbour i j ∧ j.Valid) :
    (∃ b, LeafAt t j b) ∨ (∃ b n, LeafAt t j.parentIndex b ∧ j = j.parentIndex.child n ∧ j.level ≠ 0) ∨
      ∃ c : Fin (2 ^ R) → α, NodeAt t j (.node fun n => .leaf (c n)) := by
  rcases hj with rfl | ⟨hn, hv⟩
  · exact .inl ⟨a, hi⟩
  have hlev : i.level = j.level := hn.1
  rcases node_or_inside_leaf t hv with ⟨u, hu⟩ | ⟨m, b, hm, hin, hlt⟩
  · cases u with
    | leaf b => exact .inl ⟨b, hu⟩
    | node c =>
      right; right
      have : ∀ n, ∃ b, c n = .leaf b := by
        intro n
        cases hcn : c n with
        | leaf b => exact ⟨b, rfl⟩
        | node c' =>
          exfalso
          have h1 := nodeAt_child hu n
          rw [hcn] at h1
          have h2 := nodeAt_child h1 Tree.first
          obtain ⟨l, b, hl, hli⟩ := exists_leaf_inside h2
          refine hb i a hi ⟨j, hn, hv, l, b, hl, inside_trans hli (inside_trans (child_inside _ _) (child_inside _ _)), ?_⟩
          have := (inside_eq_up hli).1
          simp only [Index.child] at this
          omega
      choose d hd using this
      refine ⟨d, ?_⟩
      rw [show (fun n => Tree.leaf (d n)) = c from funext fun n => (hd n).symm]
      exact hu
  · right; left
    obtain ⟨hle, he⟩ := inside_eq_up hin
    by_cases h1 : m.level + 1 = j.level
    · have hpm : j.parentIndex = m := by
        rw [he]
        have hj1 : j.level - m.level = 1 := by omega
        ext x
        · simp only [Index.parentIndex, Index.up]
          rw [← h1, decr_succ (by omega)]; omega
        · simp only [Index.parentIndex, Index.up, hj1, Nat.pow_one]
      refine ⟨b, toIntegral (fun x => decide (j.coords x % 2 = 1)), hpm ▸ hm, ?_, by omega⟩
      rw [hpm]
      ext x
      · simp only [Index.child]; omega
      · rw [he]
        have hj1 : j.level - m.level = 1 := by omega
        simp only [Index.child, Index.up, hj1, toIntegral_testBit, Nat.pow_one]
        have := Nat.div_add_mod (j.coords x) 2
        rcases Nat.mod_two_eq_zero_or_one (j.coords x) with h | h <;> simp [h] <;> omega
    · exfalso
      have hd : j.level - m.level ≤ i.level := by omega
      rcases neighbour_up hn hi.valid hv hd with e | e
      · rw [← he] at e
        refine leafAt_not_interior hm (interior_of_leaf_inside hi (e ▸ inside_up hd) ?_)
        rintro rfl; omega
      · rw [← he] at e
        exact hb m b hm ⟨_, e.symm, up_valid hi.valid hd, i, a, hi, inside_up hd, by omega⟩

/-! ## Blocks -/

theorem combineCells_blocks (c : Nat → Arr R α) (m : Ix R) (g : Nat → Ix R → α) (hm : ∀ a, 1 ≤ m a)
    (hb : ∀ b, m b < 2 ^ 62) (hc : ∀ n, Denotes (c n) m (g n)) (hper : ∀ n, g n = g (n % 2 ^ R)) :
    ∃ B, combineCells c = .ok B ∧ Denotes B (fun a => 2 * m a)
      (fun p => g (toIntegral fun a => decide (m a ≤ p a)) fun a => p a % m a) := by
  obtain ⟨B, h2, d2⟩ := combineAxes_inv (fun a A B => concat a B A) c m (fun a => 2 * m a)
    (fun p => g (toIntegral fun a => decide (m a ≤ p a)) fun a => p a % m a) m R (fun n => (hc n).congr rfl fun i hi => by
      have e : ∀ a : Fin R, decide (m a ≤ i a + if n.testBit a then m a else 0) = n.testBit a := by
        intro a
        have := hi a
        by_cases h : n.testBit a = true
        · simp [h]
        · simp [h]; omega
      have e2 : ∀ a : Fin R, (i a + if n.testBit a then m a else 0) % m a = i a := by
        intro a
        have := hi a
        by_cases h : n.testBit a = true
        · simp only [h, if_true, Nat.add_mod_right]; exact Nat.mod_eq_of_lt this
        · simp only [h]; exact Nat.mod_eq_of_lt this
      simp only [e, e2]
      have e3 : (toIntegral fun a : Fin R => n.testBit a) = n % 2 ^ R := by
        have := toIntegral_repr (R := R) ⟨n % 2 ^ R, Nat.mod_lt _ (Nat.two_pow_pos R)⟩
        refine Eq.trans ?_ this
        congr 1; funext a
        simp [Nat.testBit_mod_two_pow, a.2]
      rw [e3, ← hper]) (by
      intro a _ u g A B hu hub hA hB
      have hba := hb a
      obtain ⟨C, h3, d3⟩ := concat_denotes hA hB a (fun _ _ => rfl) (by rw [hu]; omega)
      refine ⟨C, h3, d3.congr (by rw [hu, two_mul]) fun i _ => ?_⟩
      by_cases c : i a < u a
      · rw [if_pos c]
      · rw [if_neg c]
        simp only [Function.update_self, Function.update_idem]
        have : i a - u a + m a = i a := by omega
        rw [this, Function.update_eq_self]) R le_rfl le_rfl 0
  exact ⟨B, h2, d2.congr (mix_full _ _) fun i _ => by simp⟩

theorem combineVerts_blocks (hR : R < 3) (c : Nat → Arr R α) (s : Ix R) (f : Ix R → α) (hs : ∀ a, 1 ≤ s a)
    (hb : ∀ b, s b < 2 ^ 62)
    (hc : ∀ n, Denotes (c n) s (fun i => f fun a => i a + if n.testBit a then s a - 1 else 0)) :
    ∃ B, combineVerts c = .ok B ∧ Denotes B (fun a => 2 * s a - 1) f := by
  obtain ⟨B, h3, d3⟩ := combineAxes_inv (fun a A B => (dropFinal a A).bind fun A => concat a B A) c s
    (fun a => 2 * s a - 1) f (fun a => s a - 1) R hc (by
      intro a _ u g A B hu hub hA hB
      have hba := hb a
      have hsa := hs a
      obtain ⟨D, h4, d4⟩ := dropFinal_denotes hA (fun b => by
        have := hb b
        rcases hub b with h | h <;> rw [h] <;> omega) a 1 (by omega)
      obtain ⟨C, h3, d3⟩ := concat_denotes d4 hB a (fun b hb => by simp [Function.update_of_ne hb])
        (by simp; omega)
      refine ⟨C, by unfold dropFinal; rw [h4, Outcome.bind_ok, h3], d3.congr ?_ fun i _ => ?_⟩
      · simp only [Function.update_self, Function.update_idem]
        congr 1; omega
      · simp only [Function.update_self, Function.update_idem]
        by_cases c : i a < u a - 1
        · rw [if_pos c]
        · rw [if_neg c]
          have : i a - (u a - 1) + (s a - 1) = i a := by omega
          rw [this, Function.update_eq_self]) R le_rfl le_rfl 0
  refine ⟨B, ?_, d3.congr (mix_full _ _) fun i _ => by simp⟩
  unfold combineVerts
  rw [if_pos hR, h3]

/-- Coarsening averages the `2^rank` cells that make up a coarse cell. -/
theorem coarsenCells_mean {A : Arr R K} {m : Ix R} {f : Ix R → K} (hm : ∀ a, 1 ≤ m a) (hb : ∀ b, m b < 2 ^ 62)
    (hA : Denotes A (fun a => 2 * m a) f) :
    ∃ B, coarsenCells k A = .ok B ∧ Denotes B m
      (fun p => ((2 : k)⁻¹) ^ R • ∑ n ∈ Finset.range (2 ^ R), f fun a => 2 * p a + (n.testBit a).toNat) := by
  obtain ⟨B, h1, h3⟩ := forAxes_inv (restrictCells k) (fun d B => Denotes B (mix d (fun a => 2 * m a) m)
      (fun p => ((2 : k)⁻¹) ^ d • ∑ n ∈ Finset.range (2 ^ d),
        f fun a => if (a : Nat) < d then 2 * p a + (n.testBit a).toNat else p a)) (A := A)
    (hA.congr (mix_zero _ _).symm fun i _ => by simp)
    (by
      intro d B hB
      have hmd := hm d
      obtain ⟨C, h1, d1⟩ := restrictCells_denotes (k := k) hB (fun b => by
        have := hb b
        unfold mix; dsimp only; split <;> omega) d (by rw [mix_at]; omega)
      refine ⟨C, h1, d1.congr ?_ fun p _ => ?_⟩
      · rw [mix_at, show 2 * m d / 2 = m d by omega]; exact mix_succ d _ _
      · rw [pow_succ, Nat.pow_succ, Nat.mul_two, Finset.sum_range_add, ← smul_add, smul_smul, mul_comm]
        congr 2
        · refine Finset.sum_congr rfl fun n hn => ?_
          rw [Finset.mem_range] at hn
          congr 1; funext a
          by_cases h : a = d
          · subst h
            have : n.testBit a = false := Nat.testBit_lt_two_pow hn
            simp [this]
          · have hne : (a : Nat) ≠ d := fun e => h (Fin.ext e)
            rw [Function.update_of_ne h]
            by_cases h' : (a : Nat) < d
            · rw [if_pos h', if_pos (by omega)]
            · rw [if_neg h', if_neg (by omega)]
        · refine Finset.sum_congr rfl fun n hn => ?_
          rw [Finset.mem_range] at hn
          congr 1; funext a
          by_cases h : a = d
          · subst h
            have : (2 ^ (a : Nat) + n).testBit a = true := by
              rw [Nat.testBit_two_pow_add_eq, Nat.testBit_lt_two_pow hn]; rfl
            simp [this]
          · have hne : (a : Nat) ≠ d := fun e => h (Fin.ext e)
            rw [Function.update_of_ne h]
            by_cases h' : (a : Nat) < d
            · rw [if_pos h', if_pos (by omega), Nat.testBit_two_pow_add_gt h']
            · rw [if_neg h', if_neg (by omega)])
  exact ⟨B, h1, h3.congr (mix_full _ _) fun p _ => by simp⟩

theorem refineCells_denotes {A : Arr R α} {s : Ix R} {f : Ix R → α} (hA : Denotes A s f)
    (hb : ∀ b, s b < 2 ^ 62) (n : Nat) :
    ∃ C, refineCells n A = .ok C ∧ Denotes C s (fun i => f fun a => (i a + if n.testBit a then s a else 0) / 2) := by
  obtain ⟨P, h1, d1⟩ := prolongCells_all hA (fun b => by have := hb b; omega)
  obtain ⟨C, h2, d2⟩ := bisectCells_all d1 hb n
  refine ⟨C, ?_, d2⟩
  unfold refineCells
  rw [h1, Outcome.bind_ok, h2]

/-! ## Reading blocks -/

variable {sh : Nat → Outcome Nat}

theorem contains_leaf (hs : Shift sh) {t : Tree R α} {j : Index R} {b : α} (h : LeafAt t j b) (hl : j.level ≤ 31) :
    t.contains sh j = .ok true ∧ t.at' sh j = .ok b := by
  obtain ⟨x, h1, h2⟩ := tree_contains_partial hs t j h.valid hl (leafAt_not_interior h)
  rw [h2.2 ⟨b, h⟩] at h1
  exact ⟨h1, ((tree_at hs t j hl).1 b).2 h⟩

theorem not_node_of_parent_leaf {t : Tree R α} {m : Index R} {b : α} (h : LeafAt t m b) (n : Nat)
    {u : Tree R α} : ¬ NodeAt t (m.child n) u := by
  intro hu
  obtain ⟨l, a, hl, hi⟩ := exists_leaf_inside hu
  refine leafAt_not_interior h (interior_of_leaf_inside hl (inside_trans hi (child_inside _ _)) ?_)
  rintro rfl
  have := (inside_eq_up hi).1
  simp only [Index.child] at this
  omega

theorem contains_below_leaf (hs : Shift sh) {t : Tree R α} {m : Index R} {b : α} (h : LeafAt t m b)
    (n : Nat) (hl : m.level + 1 ≤ 31) : t.contains sh (m.child n) = .ok false := by
  obtain ⟨x, h1, h2⟩ := tree_contains_partial hs t (m.child n) (child_valid h.valid n) (by simpa [Index.child] using hl)
    (fun ⟨c, hc⟩ => not_node_of_parent_leaf h n hc)
  have : x = false := by
    by_contra hx
    obtain ⟨a, ha⟩ := h2.1 (by simpa using hx)
    exact not_node_of_parent_leaf h n ha
  rw [h1, this]

theorem orthant_relative (hs : Shift sh) (j : Index R) :
    j.relativeToParent.orthant sh = .ok fun a => decide (j.coords a % 2 = 1) := by
  unfold Index.relativeToParent
  rw [orthant_eq hs (l := 0) (by omega)]
  congr 1; funext a
  have := Nat.mod_lt (j.coords a) (show 0 < 2 by omega)
  simp only [Nat.pow_zero]
  congr 1
  exact propext ⟨fun h => by omega, fun h => by omega⟩

theorem contains_interior (hs : TotalShift sh) {t : Tree R α} {j : Index R} (hi : InteriorAt t j) (D : Nat)
    (hD : DepthLe t D) (h30 : D ≤ 30) :
    t.contains sh j = .ok false ∧ t.contains sh j.parentIndex = .ok false := by
  have hlev : j.level ≤ 30 := by
    obtain ⟨c, hc⟩ := hi
    obtain ⟨l, a, hl, hin⟩ := exists_leaf_inside hc
    have := (inside_eq_up hin).1
    have := hD l a hl
    omega
  have key : ∀ m : Index R, m.level ≤ 30 → InteriorAt t m → t.contains sh m = .ok false := by
    intro m hm him
    have hv : m.Valid := by obtain ⟨c, hc⟩ := him; exact hc.valid
    obtain ⟨x, h1, h2⟩ := tree_contains_hardware_partial hs t m hv (by omega) D hD (by omega)
    have : x = false := by
      by_contra hx
      obtain ⟨a, ha⟩ := h2.1 (by simpa using hx)
      exact leafAt_not_interior ha him
    rw [h1, this]
  refine ⟨key j hlev hi, ?_⟩
  have hv : j.Valid := by obtain ⟨c, hc⟩ := hi; exact hc.valid
  by_cases h0 : j.level = 0
  · have := level_zero_valid h0 hv
    subst this
    have e : (Index.root : Index R).parentIndex = ⟨2 ^ 64 - 1, fun _ => 0⟩ := by
      ext a
      · simp only [Index.parentIndex, Index.root]; decide
      · simp [Index.parentIndex, Index.root]
    rw [e]
    exact contains_zero_deep hs t _ D hD (by omega) (by omega)
  · have e : j.parentIndex = j.up 1 := by
      ext a
      · simp only [Index.parentIndex, Index.up]
        obtain ⟨l, hl⟩ : ∃ l, j.level = l + 1 := ⟨j.level - 1, by omega⟩
        rw [hl, decr_succ (by omega)]; omega
      · simp [Index.parentIndex, Index.up]
    rw [e]
    refine key _ (by simp only [Index.up]; omega) ?_
    obtain ⟨c, hc⟩ := hi
    obtain ⟨l, a, hl, hin⟩ := exists_leaf_inside hc
    refine interior_of_leaf_inside hl (inside_trans hin (inside_up (by omega))) ?_
    rintro rfl
    have := (inside_eq_up hin).1
    simp only [Index.up] at this
    omega

theorem childBlocks_ok {get : Index R → Outcome (Arr R K)} {j : Index R} {c : Fin (2 ^ R) → Arr R K} (hv : j.Valid)
    (hl : j.level ≤ 30) (h : ∀ n : Fin (2 ^ R), get (j.child n) = .ok (c n)) :
    childBlocks get j = .ok fun n => c ⟨n % 2 ^ R, Nat.mod_lt _ (Nat.two_pow_pos R)⟩ := by
  unfold childBlocks
  have : (fun n => get (j.childIndexes n)) = fun n => .ok (c n) := by
    funext n
    rw [childIndexes_eq hv (by omega), h n]
  rw [this, sequence_ok.2 fun _ => rfl]
  rfl

end Verif.Tree
