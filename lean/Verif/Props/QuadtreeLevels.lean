import Verif.Props.Quadtree
import Verif.Lemmas.QuadtreeLookup
import Mathlib.Tactic.IntervalCases

/-!
# C79: the mesh that a predicate asks for
-/

namespace Verif.Tree
open Verif Verif.Seq Verif.Nd

variable {sh : Nat → Outcome Nat}

theorem up_child (i : Index 2) (k d : Nat) : (i.child k).up (d + 1) = i.up d := by
  ext a
  · simp only [Index.up, Index.child]
    omega
  · simp only [Index.up, Index.child]
    rw [pow_succ, Nat.mul_comm (2 ^ d) 2, ← Nat.div_div_eq_div_mul]
    congr 1
    have := Bool.toNat_le (k.testBit a)
    omega

/-- A cell around a child, other than the child, is around its parent. -/
theorem inside_of_child {i j : Index 2} {k : Nat} (h : (i.child k).Inside j) (hl : j.level ≤ i.level) : i.Inside j := by
  obtain ⟨_, he⟩ := inside_eq_up h
  have h1 : (i.child k).level - j.level = (i.level - j.level) + 1 := by simp only [Index.child]; omega
  rw [h1, up_child] at he
  rw [he]
  exact inside_up (by omega)

/-- **C79**, what holds: with a predicate that, where it holds at some level, holds at lower levels too, a block is divided if and only if the
predicate holds for its own level and radius and for those of all blocks around it: there is a tree `t` of the cells that are so
divided, down to the requested depth, and the mesh is the coarsest balanced mesh that subdivides it. -/
theorem create_quadtree_level_partial (hs : Shift sh) (predicate : Nat → ℝ → Bool) (nx ny depth : Nat) (hx : 1 ≤ nx)
    (hy : 1 ≤ ny) (hc : (nx + 1) * (ny + 1) < 2 ^ 31) (h30 : depth ≤ 30)
    (hanti : ∀ l ρ, predicate (l + 1) ρ = true → predicate l ρ = true) :
    ∃ (N : Nat) (r t : Tree 2 (Arr 2 (ℝ × ℝ))), (∀ fuel, N ≤ fuel → createVertexQuadtree sh predicate nx ny depth fuel = .ok r) ∧
      (∀ i b, LeafAt t i b → i.level ≤ depth ∧ (i.level = depth ∨ predicate i.level (cellRadius i) = false) ∧
        ∀ j, i.Inside j → j.level < i.level → predicate j.level (cellRadius j) = true) ∧
      Balanced r ∧ Refines r t ∧ ∀ (β : Type) (u : Tree 2 β), Balanced u → Refines u t → Refines u r := by
  obtain ⟨b, h1, h2⟩ := rootBlock_grid hx hy hc
  have hdown : ∀ m l ρ, predicate (l + m) ρ = true → predicate l ρ = true := by
    intro m
    induction m with
    | zero => exact fun l ρ h => h
    | succ m ih => exact fun l ρ h => ih l ρ (hanti _ _ h)
  obtain ⟨t, h3, h4, h5, h9⟩ := refineLoop_code predicate hx hy hc (.leaf b) (fun i a h => by
    rw [(leafAt_leaf.1 h).1]; exact le_rfl) (fun i a h => by
    obtain ⟨rfl, rfl⟩ := leafAt_leaf.1 h; exact h2)
    (fun n i => (i.level = n ∨ predicate i.level (cellRadius i) = false) ∧
      ∀ j, i.Inside j → j.level < i.level → predicate j.level (cellRadius j) = true)
    (fun i a h => by
      obtain ⟨rfl, rfl⟩ := leafAt_leaf.1 h
      exact ⟨.inl rfl, fun j _ hj => absurd hj (by simp [Index.root])⟩)
    (fun n i _ hq hp => by
      refine ⟨.inr ?_, hq.2⟩
      rcases hq.1 with h | h
      · rw [h]; exact hp
      · exact h)
    (fun n i k hl hq hp => by
      have hown : predicate i.level (cellRadius i) = true := hdown (n - i.level) _ _ (by
        rw [show i.level + (n - i.level) = n by omega]; exact hp)
      have hn : i.level = n := by
        rcases hq.1 with h | h
        · exact h
        · rw [hown] at h; cases h
      refine ⟨.inl (by simp only [Index.child]; omega), fun j hj hlt => ?_⟩
      have hlt' : j.level ≤ i.level := by simp only [Index.child] at hlt; omega
      have hin := inside_of_child hj hlt'
      by_cases he : j.level = i.level
      · have : j = i := by
          rw [(inside_eq_up hin).2, he, Nat.sub_self]
          ext a
          · simp [Index.up]
          · simp [Index.up]
        rw [this]
        exact hown
      · exact hq.2 j hin (by omega)) depth
  have hsh : ∀ a, 1 ≤ (![nx + 1, ny + 1] : Ix 2) a := by
    intro a; match a with
    | 0 => simp
    | 1 => simp
  have hcount : count (![nx + 1, ny + 1] : Ix 2) < 2 ^ 31 := by unfold count; simpa using hc
  obtain ⟨N, r, g1, g2, g3, g4, g5, _, g6⟩ := ensureValid_code hs (refineVertsShared ℝ) depth h30
    (fun i b => IsGrid nx ny i b)
    (fun i b _ _ hb => by
      obtain ⟨P, p, h4, h5, h6⟩ := refine_grid hx hy hc hb
      obtain ⟨c, h7, h8⟩ := refineVertsShared_denotes h4 h5 hsh hcount
      exact ⟨c, h7, fun m => h6 m _ (h8 m)⟩)
    ((2 ^ 2) ^ depth + 1) t (by omega) h4 h5
  refine ⟨N, r, t, fun fuel hf => ?_, fun i a hi => ⟨h4 i a hi, h9 i a hi⟩, g2, g5, g6⟩
  rw [createVertexQuadtree_eq]
  rw [h1, Outcome.bind_ok, h3, Outcome.bind_ok, g1 fuel hf]

/-- The predicate of the binary program, for a focus factor and index of one: the mesh is divided once around the origin, and the four
blocks there at distance `√2 / 2` below one, and so on. -/
example : ∃ (N : Nat) (r t : Tree 2 (Arr 2 (ℝ × ℝ))),
    (∀ fuel, N ≤ fuel → createVertexQuadtree shl1 (fun l ρ => decide (l = 0 ∨ ρ < 1 / (l : ℝ))) 4 8 5 fuel = .ok r) ∧
    (∀ i b, LeafAt t i b → 2 ≤ i.level) ∧ Balanced r ∧ Refines r t := by
  obtain ⟨N, r, t, h1, h2, h3, h4, _⟩ := create_quadtree_level_partial shl1_shift (fun l ρ => decide (l = 0 ∨ ρ < 1 / (l : ℝ))) 4 8 5 (by norm_num)
    (by norm_num) (by norm_num) (by norm_num) (fun l ρ h => by
      simp only [decide_eq_true_eq] at h ⊢
      rcases Nat.eq_zero_or_pos l with h0 | h0
      · exact .inl h0
      · refine .inr ?_
        rcases h with h | h
        · omega
        · refine lt_of_lt_of_le h (one_div_le_one_div_of_le (by exact_mod_cast h0) (by push_cast; linarith)))
  refine ⟨N, r, t, h1, fun i b hi => ?_, h3, h4⟩
  obtain ⟨_, h, hanc⟩ := h2 i b hi
  have hv := NodeAt.valid hi
  by_contra hcon
  have hcases : i.level = 0 ∨ i.level = 1 := by omega
  rcases hcases with h0 | h0
  · rcases h with h | h
    · omega
    · simp [h0] at h
  · rcases h with h | h
    · omega
    · rw [h0] at h
      simp only [Nat.cast_one, div_one, decide_eq_false_iff_not, not_or, not_lt] at h
      have h5 := h.2
      have hc0 : i.coords 0 < 2 := by have := hv 0; rwa [h0] at this
      have hc1 : i.coords 1 < 2 := by have := hv 1; rwa [h0] at this
      unfold cellRadius at h5
      rw [h0] at h5
      have : Real.sqrt ((-1 + 2 * ((i.coords 0 : ℝ) + 1 / 2) / 2 ^ 1) ^ 2 + (-1 + 2 * ((i.coords 1 : ℝ) + 1 / 2) / 2 ^ 1) ^ 2) < 1 := by
        rw [Real.sqrt_lt' one_pos]
        interval_cases i.coords 0 <;> interval_cases i.coords 1 <;> norm_num
      linarith

end Verif.Tree
