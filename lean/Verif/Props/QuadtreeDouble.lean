import Verif.Lemmas.QuadtreeDouble

/-!
# C121: the mesh has no gaps and no cells without extent, in double precision
-/

namespace Verif.Tree
open Verif Verif.Seq Verif.Nd Verif.Double

variable {R : Rounding} {sh : Nat → Outcome Nat}

theorem place_eq {n : Nat} (h1 : 1 ≤ n) (c l p : Nat) : place n c l p = -1 + 2 * ((c * n + p : Nat) : ℝ) / (n * 2 ^ l) := by
  have : (n : ℝ) ≠ 0 := by positivity
  unfold place
  push_cast
  field_simp

theorem place_le {n : Nat} (h1 : 1 ≤ n) {c l p c' l' p' : Nat} :
    place n c l p ≤ place n c' l' p' ↔ (c * n + p) * 2 ^ l' ≤ (c' * n + p') * 2 ^ l := by
  have hp : (0 : ℝ) < n := by exact_mod_cast h1
  rw [place_eq h1, place_eq h1, add_le_add_iff_left, div_le_div_iff₀ (by positivity) (by positivity)]
  generalize c * n + p = k
  generalize c' * n + p' = k'
  rw [show 2 * (k : ℝ) * (n * 2 ^ l') = 2 * n * (k * 2 ^ l') by ring, show 2 * (k' : ℝ) * (n * 2 ^ l) = 2 * n * (k' * 2 ^ l) by ring,
    mul_le_mul_iff_right₀ (by positivity)]
  exact_mod_cast Iff.rfl

theorem lineD_le {n l k l' k' : Nat} (hn : n < 2 ^ 31) (h : k * 2 ^ l' ≤ k' * 2 ^ l) (hk : k ≤ n * 2 ^ l) (hk' : k' ≤ n * 2 ^ l') :
    (lineD n l k : Dbl R) ≤ lineD n l' k' := by
  rcases Nat.le_total l l' with hl | hl
  · obtain ⟨m, rfl⟩ := Nat.exists_eq_add_of_le hl
    rw [lineD, ← line_up midD_self (rootD n) l k m]
    refine lineD_mono hn ?_ hk'
    rw [pow_add] at h
    exact Nat.le_of_mul_le_mul_right (by rw [Nat.mul_assoc, Nat.mul_comm (2 ^ m)]; exact h) (Nat.two_pow_pos l)
  · obtain ⟨m, rfl⟩ := Nat.exists_eq_add_of_le hl
    rw [show lineD n l' k' = (line midD (rootD n) l' k' : Dbl R) from rfl, ← line_up midD_self (rootD n) l' k' m]
    refine lineD_mono hn ?_ ?_
    · rw [pow_add] at h
      exact Nat.le_of_mul_le_mul_right (by rw [Nat.mul_assoc k', Nat.mul_comm (2 ^ m)]; exact h) (Nat.two_pow_pos l')
    · rw [pow_add, ← Nat.mul_assoc]
      exact Nat.mul_le_mul_right _ hk'

theorem lineD_lt {n l k l' k' D : Nat} (h1 : 1 ≤ n) (hn : n < 2 ^ 31) (hD : D ≤ 30) (h46 : n * 2 ^ D ≤ 2 ^ 46) (hl : l ≤ D) (hl' : l' ≤ D)
    (h : k * 2 ^ l' < k' * 2 ^ l) (hk : k ≤ n * 2 ^ l) (hk' : k' ≤ n * 2 ^ l') :
    (lineD n l k : Dbl R) < lineD n l' k' := by
  have hpow : ∀ l, l ≤ D → n * 2 ^ l ≤ 2 ^ 46 := fun l h =>
    (Nat.mul_le_mul_left n (Nat.pow_le_pow_right (by norm_num) h)).trans h46
  rcases Nat.le_total l l' with hl0 | hl0
  · obtain ⟨m, rfl⟩ := Nat.exists_eq_add_of_le hl0
    rw [lineD, ← line_up midD_self (rootD n) l k m]
    refine lineD_strict h1 hn (by omega) (hpow _ hl') ?_ hk'
    rw [pow_add] at h
    exact Nat.lt_of_mul_lt_mul_right (a := 2 ^ l) (by rw [Nat.mul_assoc, Nat.mul_comm (2 ^ m)]; exact h)
  · obtain ⟨m, rfl⟩ := Nat.exists_eq_add_of_le hl0
    rw [show lineD n l' k' = (line midD (rootD n) l' k' : Dbl R) from rfl, ← line_up midD_self (rootD n) l' k' m]
    refine lineD_strict h1 hn (by omega) (hpow _ hl) ?_ ?_
    · rw [pow_add] at h
      exact Nat.lt_of_mul_lt_mul_right (a := 2 ^ l') (by rw [Nat.mul_assoc k', Nat.mul_comm (2 ^ m)]; exact h)
    · rw [pow_add, ← Nat.mul_assoc]
      exact Nat.mul_le_mul_right _ hk'

theorem index_le {n c l p : Nat} (hc : c < 2 ^ l) (hp : p ≤ n) : c * n + p ≤ n * 2 ^ l :=
  calc c * n + p ≤ (c + 1) * n := by rw [Nat.add_mul, Nat.one_mul]; exact Nat.add_le_add_left hp _
    _ ≤ 2 ^ l * n := Nat.mul_le_mul_right _ hc
    _ = _ := Nat.mul_comm _ _

theorem placed_lines {n D : Nat} (h1 : 1 ≤ n) (hn : n < 2 ^ 31) (hD : D ≤ 30) (V : Index 2 → Prop) (a : Fin 2)
    (hV : ∀ i, V i → i.Valid ∧ i.level ≤ D) :
    Placed 1 2 n D V a fun i p => (lineD n i.level (i.coords a * n + p) : Dbl R) := by
  have hle : ∀ i, V i → ∀ p : Nat, p ≤ n → i.coords a * n + p ≤ n * 2 ^ i.level := fun i hi p hp => index_le ((hV i hi).1 a) hp
  have hord : ∀ i j (p q : Nat), V i → V j → p ≤ n → q ≤ n →
      place n (i.coords a) i.level (p) ≤ place n (j.coords a) j.level (q) →
      (lineD n i.level (i.coords a * n + p) : Dbl R) ≤ lineD n j.level (j.coords a * n + q) := fun i j p q hi hj hp hq h =>
    lineD_le hn ((place_le h1).1 h) (hle i hi _ hp) (hle j hj _ hq)
  refine ⟨fun i p hi hp => ?_, fun i p hi hp => lineD_abs h1 hn (hle i hi _ hp), fun i p hi hp h => ?_, fun i p hi hp h => ?_, fun i j p q hi hj hp hq h => ?_, hord, fun h46 i j p q hi hj hp hq => ⟨fun h => ?_, fun h => ?_⟩⟩
  · rw [place_eq h1, one_mul, one_mul]
    exact lineD_error h1 hn (hle i hi _ hp)
  · have hz : i.coords a * n + p = 0 := by
      have : place n (i.coords a) i.level (p) ≤ place n 0 0 0 := by rw [h]; simp [place]
      have := (place_le h1).1 this
      simp only [pow_zero, Nat.mul_one, Nat.zero_mul, Nat.add_zero, Nat.zero_add] at this
      omega
    rw [hz]
    exact lineD_first hn _
  · have hz : i.coords a * n + p = n * 2 ^ i.level := by
      have : place n 0 0 n ≤ place n (i.coords a) i.level (p) := by
        have : (n : ℝ) ≠ 0 := by positivity
        rw [h]; simp [place, this]; norm_num
      have := (place_le h1).1 this
      simp only [pow_zero, Nat.mul_one, Nat.zero_mul, Nat.zero_add] at this
      have := hle i hi _ hp
      omega
    rw [hz]
    exact lineD_last h1 hn _
  · exact le_antisymm (hord i j p q hi hj hp hq h.le) (hord j i q p hj hi hq hp h.ge)
  · by_contra hcon
    exact absurd (hord j i q p hj hi hq hp (not_lt.1 hcon)) (not_le.2 h)
  · refine lineD_lt h1 hn hD h46 (hV i hi).2 (hV j hj).2 ?_ (hle i hi _ hp) (hle j hj _ hq)
    by_contra hcon
    exact absurd ((place_le h1).2 (not_lt.1 hcon)) (not_le.2 h)

/-- **C121** -/
theorem double_mesh (hs : Shift sh) (sqrt : Dbl R → Dbl R) (predicate : Nat → Dbl R → Bool) (nx ny depth : Nat) (hx : 1 ≤ nx)
    (hy : 1 ≤ ny) (hc : (nx + 1) * (ny + 1) < 2 ^ 31) (h30 : depth ≤ 30) :
    ∃ (N : Nat) (r : Tree 2 (Arr 2 (Dbl R × Dbl R))) (x y : Index 2 → Nat → Dbl R),
      (∀ fuel, N ≤ fuel → createVertexQuadtreeDouble sh sqrt predicate nx ny depth fuel = .ok r) ∧
      Balanced r ∧ DepthLe r depth ∧
      (∀ i b, LeafAt r i b → Denotes b ![nx + 1, ny + 1] fun p => (x i (p 0), y i (p 1))) ∧
      Placed 1 2 nx depth (fun i => ∃ b, LeafAt r i b) 0 x ∧ Placed 1 2 ny depth (fun i => ∃ b, LeafAt r i b) 1 y := by
  obtain ⟨b, h1, h2⟩ := rootBlock_lines R hc
  have hlt := lt_of_count (shape_pos nx ny) (shape_count hc)
  have hx' : nx + 1 < 2 ^ 31 := hlt 0
  have hy' : ny + 1 < 2 ^ 31 := hlt 1
  obtain ⟨N, r, g1, g2, g3, g4⟩ := create_lines hs (midD_self (R := R)) hc (centroidRadiusDouble sqrt nx ny) (fun i b hb => by
    unfold centroidRadiusDouble
    rw [hb.2 ![0, 0] (fun a => by match a with
      | 0 => simp
      | 1 => simp), hb.2 ![nx, ny] (fun a => by match a with
      | 0 => simp
      | 1 => simp)]
    exact ⟨_, rfl⟩) predicate h1 h2 depth h30
  refine ⟨N, r, fun i p => lineD nx i.level (i.coords 0 * nx + p), fun i p => lineD ny i.level (i.coords 1 * ny + p),
    g1, g2, g3, g4, ?_, ?_⟩
  · exact placed_lines hx (by omega) h30 _ 0 fun i ⟨b, hb⟩ => ⟨hb.valid, g3 i b hb⟩
  · exact placed_lines hy (by omega) h30 _ 1 fun i ⟨b, hb⟩ => ⟨hb.valid, g3 i b hb⟩

theorem place_step {n : Nat} (h1 : 1 ≤ n) (c l p : Nat) : place n c l p < place n c l (p + 1) := by
  refine not_le.1 fun h => ?_
  have := Nat.le_of_mul_le_mul_right ((place_le h1).1 h) (Nat.two_pow_pos l)
  omega

/-- Blocks of 24 times 40 zones at five levels; roots are not taken at all. All zones have an extent, and a block and the next have their common
line, exactly. -/
example : ∃ (N : Nat) (r : Tree 2 (Arr 2 (Dbl Rounding.up × Dbl Rounding.up))) (x y : Index 2 → Nat → Dbl Rounding.up),
    (∀ fuel, N ≤ fuel → createVertexQuadtreeDouble shl1 id (fun _ ρ => decide (ρ < Dbl.one)) 24 40 5 fuel = .ok r) ∧
    (∀ i b, LeafAt r i b → Denotes b ![25, 41] fun p => (x i (p 0), y i (p 1))) ∧
    (∀ i b p, LeafAt r i b → p < 24 → x i p < x i (p + 1)) ∧
    ∀ i j b c, LeafAt r i b → LeafAt r j c → j.level = i.level → j.coords 0 = i.coords 0 + 1 → x i 24 = x j 0 := by
  obtain ⟨N, r, x, y, h1, _, _, h4, h5, _⟩ := double_mesh (R := Rounding.up) shl1_shift id (fun _ ρ => decide (ρ < Dbl.one)) 24 40 5
    (by norm_num) (by norm_num) (by norm_num) (by norm_num)
  refine ⟨N, r, x, y, h1, h4, fun i b p hi hp => ?_, fun i j b c hi hj hl hc => ?_⟩
  · exact (h5.distinct (by norm_num) i i p (p + 1) ⟨b, hi⟩ ⟨b, hi⟩ (by omega) (by omega)).2 (place_step (by norm_num) _ _ _)
  · refine h5.same i j 24 0 ⟨b, hi⟩ ⟨c, hj⟩ le_rfl (by norm_num) ?_
    unfold place
    rw [hl, hc]
    push_cast
    ring

end Verif.Tree
