import Verif.Lemmas.Prolong
import Mathlib.Data.Rat.Defs
import Mathlib.Algebra.Field.Rat

/-!
# C32, C33: prolongation, restriction, refinement and combination of blocks
-/

namespace Verif.Nd
open Verif

variable {R : Nat} {α K : Type} {k : Type} [Field k] [AddCommGroup K] [Module k K]

/-! ## C32 -/

/-- Restricting after prolonging on the same axis gives the block: cells and vertices. -/
theorem restrict_prolong_axis (h2 : (2 : k) ≠ 0) (A : Arr R K) (s : Ix R) (f : Ix R → K) (hA : Denotes A s f)
    (hs : ∀ a, 1 ≤ s a) (hb : ∀ b, s b < 2 ^ 62) (a : Fin R) :
    (∃ P B, prolongCells a A = .ok P ∧ restrictCells k a P = .ok B ∧ Denotes B s f) ∧
    (∃ P B, prolongVerts k a A = .ok P ∧ restrictVerts a P = .ok B ∧ Denotes B s f) := by
  have ha := hs a
  have hba := hb a
  have hup : ∀ m, m < 2 ^ 63 → ∀ b, Function.update s a m b < 2 ^ 63 := by
    intro m hm b
    by_cases h : b = a
    · subst h; simpa using hm
    · rw [Function.update_of_ne h]; have := hb b; omega
  constructor
  · obtain ⟨P, h1, d1⟩ := prolongCells_denotes hA a (by omega)
    obtain ⟨B, h3, d3⟩ := restrictCells_denotes (k := k) d1 (hup _ (by omega)) a (by simp; omega)
    refine ⟨P, B, h1, h3, d3.congr ?_ fun i _ => ?_⟩
    · simp
    · have e1 : 2 * i a / 2 = i a := by omega
      have e2 : (2 * i a + 1) / 2 = i a := by omega
      simp only [Function.update_self, Function.update_idem]
      rw [e1, e2, Function.update_eq_self, ← two_smul k, smul_smul, inv_mul_cancel₀ h2, one_smul]
  · obtain ⟨P, h1, d1⟩ := prolongVerts_denotes (k := k) hA a ha (by omega)
    obtain ⟨B, h3, d3⟩ := restrictVerts_denotes d1 (hup _ (by omega)) a (by simp; omega)
    refine ⟨P, B, h1, h3, d3.congr ?_ fun i _ => ?_⟩
    · simp only [Function.update_self, Function.update_idem]
      have e : (2 * s a - 1 + 1) / 2 = s a := by omega
      rw [e, Function.update_eq_self]
    · have e1 : 2 * i a / 2 = i a := by omega
      have e2 : 2 * i a % 2 = 0 := by omega
      simp only [Function.update_self, Function.update_idem]
      rw [e1, e2, Nat.add_zero, Function.update_eq_self, ← two_smul k, smul_smul, inv_mul_cancel₀ h2, one_smul]

example : ∃ P B, prolongVerts Rat 1 (⟨![3, 4], fun i => .ok (i 0 : Rat)⟩ : Arr 2 Rat) = .ok P ∧
    restrictVerts 1 P = .ok B ∧ Denotes B ![3, 4] fun i => (i 0 : Rat) :=
  (restrict_prolong_axis (k := Rat) (by norm_num) (⟨![3, 4], fun i => .ok (i 0 : Rat)⟩ : Arr 2 Rat) ![3, 4]
    (fun i => (i 0 : Rat)) ⟨rfl, fun _ _ => rfl⟩ (by decide) (by decide) (1 : Fin 2)).2

/-- The same on all axes together. -/
theorem coarsen_prolong_all (h2 : (2 : k) ≠ 0) (A : Arr R K) (s : Ix R) (f : Ix R → K) (hA : Denotes A s f)
    (hs : ∀ a, 1 ≤ s a) (hb : ∀ b, s b < 2 ^ 62) :
    (∃ P B, forAxes prolongCells R A = .ok P ∧ coarsenCells k P = .ok B ∧ Denotes B s f) ∧
    (∃ P B, forAxes (prolongVerts k) R A = .ok P ∧ coarsenVerts P = .ok B ∧ Denotes B s f) := by
  constructor
  · obtain ⟨P, h1, d1⟩ := prolongCells_all hA (fun b => by have := hb b; omega)
    obtain ⟨B, h3, d3⟩ := coarsen_prolonged h2 hs hb d1
    exact ⟨P, B, h1, h3, d3⟩
  · obtain ⟨P, p, h1, d1, hp⟩ := prolongVerts_all h2 hA hs (fun b => by have := hb b; omega)
    obtain ⟨B, h3, d3⟩ := restrictVerts_all d1 (fun b => by have := hb b; omega) (fun a => by have := hs a; omega)
    refine ⟨P, B, h1, h3, d3.congr ?_ fun i _ => hp i⟩
    funext a
    have := hs a
    omega

/-- A block of three by four cells over the rational numbers. -/
example : ∃ P B, forAxes prolongCells 2 (⟨![3, 4], fun i => .ok (i 0 : Rat)⟩ : Arr 2 Rat) = .ok P ∧
    coarsenCells Rat P = .ok B ∧ Denotes B ![3, 4] fun i => (i 0 : Rat) :=
  (coarsen_prolong_all (k := Rat) (by norm_num) (⟨![3, 4], fun i => .ok (i 0 : Rat)⟩ : Arr 2 Rat) ![3, 4]
    (fun i => (i 0 : Rat)) ⟨rfl, fun _ _ => rfl⟩ (by decide) (by decide)).1

/-- Restricting on one axis of even extent halves the sum (so the integral over cells of twice the size is the same),
and the restriction of extensive quantities keeps the sum. -/
theorem restrict_sum (A : Arr (R + 1) K) (s : Ix (R + 1)) (f : Ix (R + 1) → K) (hA : Denotes A s f)
    (hs : ∀ a, 1 ≤ s a) (hb : ∀ b, s b < 2 ^ 63) (a : Fin (R + 1)) (he : s a % 2 = 0) :
    ∃ B C x, restrictCells k a A = .ok B ∧ restrictExtrinsic a A = .ok C ∧ sum A = .ok x ∧
      sum B = .ok ((2 : k)⁻¹ • x) ∧ sum C = .ok x := by
  have ha := hs a
  obtain ⟨B, h1, d1⟩ := restrictCells_denotes (k := k) hA hb a (by omega)
  obtain ⟨C, h3, d3⟩ := restrictExtrinsic_denotes hA hb a (by omega)
  have hpos : ∀ b, 0 < Function.update s a (s a / 2) b := by
    intro b
    by_cases h : b = a
    · subst h; simp; omega
    · rw [Function.update_of_ne h]; exact hs b
  have hbb : ∀ b, Function.update s a (s a / 2) b < 2 ^ 64 := by
    intro b
    by_cases h : b = a
    · subst h; have := hb b; simp; omega
    · rw [Function.update_of_ne h]; have := hb b; omega
  have ht := total_double s a (s a / 2) f
  have e : 2 * (s a / 2) = s a := by omega
  rw [e, Function.update_eq_self] at ht
  refine ⟨B, C, total s f, h1, h3, sum_denotes hA (Or.inl hs) (fun b => by have := hb b; omega), ?_, ?_⟩
  · rw [sum_denotes d1 (Or.inl hpos) hbb, total_smul, ← ht]
  · rw [sum_denotes d3 (Or.inl hpos) hbb, ← ht]

example : ∃ B C x, restrictCells Rat 1 (⟨![3, 4], fun i => .ok (i 0 : Rat)⟩ : Arr 2 Rat) = .ok B ∧
    restrictExtrinsic 1 (⟨![3, 4], fun i => .ok (i 0 : Rat)⟩ : Arr 2 Rat) = .ok C ∧
    sum (⟨![3, 4], fun i => .ok (i 0 : Rat)⟩ : Arr 2 Rat) = .ok x ∧ sum B = .ok ((2 : Rat)⁻¹ • x) ∧ sum C = .ok x :=
  restrict_sum _ ![3, 4] (fun i => (i 0 : Rat)) ⟨rfl, fun _ _ => rfl⟩ (by decide) (by decide) (1 : Fin 2) (by decide)

/-- Coarsening on all axes divides the sum by `2^rank`. -/
theorem coarsen_sum (h2 : (2 : k) ≠ 0) (A : Arr (R + 1) K) (m : Ix (R + 1)) (f : Ix (R + 1) → K)
    (hA : Denotes A (fun a => 2 * m a) f) (hs : ∀ a, 1 ≤ m a) (hb : ∀ b, m b < 2 ^ 62) :
    ∃ B x y, coarsenCells k A = .ok B ∧ B.shape = m ∧ sum A = .ok x ∧ sum B = .ok y ∧ x = (2 ^ (R + 1) : k) • y := by
  obtain ⟨B, h1, g, d1, ht⟩ := forAxes_inv (restrictCells k) (fun n B => ∃ g, Denotes B (mix n (fun a => 2 * m a) m) g ∧
      total (fun a => 2 * m a) f = (2 ^ n : k) • total (mix n (fun a => 2 * m a) m) g) (A := A)
    ⟨f, hA.congr (mix_zero _ _).symm fun _ _ => rfl, by rw [mix_zero]; simp⟩ (by
      rintro n B ⟨g, hB, ht⟩
      have hat := mix_at n (fun a => 2 * m a) m
      obtain ⟨C, g1, g2⟩ := restrictCells_denotes (k := k) hB (fun b => by
        have := hb b; unfold mix; beta_reduce; split <;> omega) n (by rw [hat]; have := hs n; omega)
      have e : mix n (fun a => 2 * m a) m n / 2 = m n := by rw [hat]; omega
      rw [e] at g2
      refine ⟨C, g1, _, g2.congr (mix_succ n _ m) fun _ _ => rfl, ?_⟩
      have hd := total_double (mix n (fun a => 2 * m a) m) n (m n) g
      rw [mix_succ] at hd
      have e2 : Function.update (mix n (fun a => 2 * m a) m) n (2 * m n) = mix n (fun a => 2 * m a) m := by
        rw [← show mix n (fun a => 2 * m a) m n = 2 * m n from hat, Function.update_eq_self]
      rw [e2] at hd
      rw [ht, total_smul, hd, smul_smul, pow_succ, mul_assoc, mul_inv_cancel₀ h2, mul_one])
  rw [mix_full] at d1 ht
  exact ⟨B, _, _, h1, d1.1, sum_denotes hA (Or.inl fun a => by have := hs a; omega) (fun b => by have := hb b; omega),
    sum_denotes d1 (Or.inl hs) (fun b => by have := hb b; omega), ht⟩

example : ∃ B x y, coarsenCells Rat (⟨fun a => 2 * (![3, 4] : Ix 2) a, fun i => .ok (i 0 : Rat)⟩ : Arr 2 Rat) = .ok B ∧
    B.shape = ![3, 4] ∧ sum (⟨fun a => 2 * (![3, 4] : Ix 2) a, fun i => .ok (i 0 : Rat)⟩ : Arr 2 Rat) = .ok x ∧
    sum B = .ok y ∧ x = (2 ^ 2 : Rat) • y :=
  coarsen_sum (by norm_num) _ ![3, 4] (fun i => (i 0 : Rat)) ⟨rfl, fun _ _ => rfl⟩ (by decide) (by decide)

/-- Prolonging cells doubles the sum and the number of cells, so it keeps the mean. -/
theorem prolong_sum (A : Arr (R + 1) K) (s : Ix (R + 1)) (f : Ix (R + 1) → K) (hA : Denotes A s f)
    (hs : ∀ a, 1 ≤ s a) (hb : ∀ b, s b < 2 ^ 63) (a : Fin (R + 1)) :
    ∃ P x, prolongCells a A = .ok P ∧ count P.shape = 2 * count s ∧ sum A = .ok x ∧ sum P = .ok (2 • x) := by
  have ha := hs a
  have hba := hb a
  obtain ⟨P, h1, d1⟩ := prolongCells_denotes hA a (by omega)
  refine ⟨P, total s f, h1, ?_, sum_denotes hA (Or.inl hs) (fun b => by have := hb b; omega), ?_⟩
  · rw [d1.1]
    unfold count
    rw [Finset.prod_update_of_mem (Finset.mem_univ a), mul_assoc, Finset.sdiff_singleton_eq_erase,
      Finset.mul_prod_erase Finset.univ s (Finset.mem_univ a)]
  · rw [sum_denotes d1 (Or.inl fun b => by
      by_cases h : b = a
      · subst h; simp; omega
      · rw [Function.update_of_ne h]; exact hs b) (fun b => by
      by_cases h : b = a
      · subst h; simp; omega
      · rw [Function.update_of_ne h]; have := hb b; omega)]
    congr 1
    rw [total_double, Function.update_eq_self]
    unfold total
    rw [Finset.smul_sum]
    apply Finset.sum_congr rfl
    intro i _
    have e1 : 2 * i a / 2 = i a := by omega
    have e2 : (2 * i a + 1) / 2 = i a := by omega
    simp only [Function.update_self, Function.update_idem]
    rw [e1, e2, Function.update_eq_self, two_smul]

example : ∃ P x, prolongCells 1 (⟨![3, 4], fun i => .ok (i 0 : Rat)⟩ : Arr 2 Rat) = .ok P ∧
    count P.shape = 2 * count ![3, 4] ∧ sum (⟨![3, 4], fun i => .ok (i 0 : Rat)⟩ : Arr 2 Rat) = .ok x ∧
    sum P = .ok (2 • x) :=
  prolong_sum _ ![3, 4] (fun i => (i 0 : Rat)) ⟨rfl, fun _ _ => rfl⟩ (by decide) (by decide) (1 : Fin 2)

/-! ## C33 -/

/-- Bisecting cells and joining the halves is the identity; bisecting throws exactly for odd extents. -/
theorem bisect_cells (A : Arr R α) (s : Ix R) (f : Ix R → α) (hA : Denotes A s f) (hb : ∀ b, s b < 2 ^ 63)
    (a : Fin R) :
    (s a % 2 = 0 → ∃ L U C, bisectCells a A = .ok (L, U) ∧ L.shape a = s a / 2 ∧ U.shape = L.shape ∧
      concat a U L = .ok C ∧ Denotes C s f) ∧
    (s a % 2 = 1 → bisectCells a A = .throws .invalidArgument) := by
  constructor
  · intro he
    have hba := hb a
    obtain ⟨L, U, h1, d1, d2⟩ := bisectCells_denotes hA hb a he
    obtain ⟨C, h3, d3⟩ := concat_denotes d1 d2 a (fun b hb => rfl) (by simp; omega)
    refine ⟨L, U, C, h1, by rw [d1.1]; simp, by rw [d1.1, d2.1], h3, d3.congr ?_ fun i hi => ?_⟩
    · simp only [Function.update_self, Function.update_idem]
      have : s a / 2 + s a / 2 = s a := by omega
      rw [this, Function.update_eq_self]
    · simp only [Function.update_self, Function.update_idem]
      by_cases c : i a < s a / 2
      · rw [if_pos c]
      · have : i a - s a / 2 + s a / 2 = i a := by omega
        rw [if_neg c, this, Function.update_eq_self]
  · intro ho
    unfold bisectCells
    rw [dif_pos a.2, if_pos]
    simp only [Fin.eta]
    rw [hA.1]; omega

example : (∃ L U C, bisectCells 1 (indexArray (![3, 4] : Ix 2)) = .ok (L, U) ∧ L.shape 1 = 2 ∧ U.shape = L.shape ∧
      concat 1 U L = .ok C ∧ Denotes C ![3, 4] id) ∧
    bisectCells 0 (indexArray (![3, 4] : Ix 2)) = .throws .invalidArgument :=
  ⟨(bisect_cells _ ![3, 4] id ⟨rfl, fun _ _ => rfl⟩ (by decide) (1 : Fin 2)).1 (by decide),
    (bisect_cells _ ![3, 4] id ⟨rfl, fun _ _ => rfl⟩ (by decide) (0 : Fin 2)).2 (by decide)⟩

/-- Bisecting vertices and joining the halves, without the shared vertex, is the identity; bisecting throws exactly
for even extents. -/
theorem bisect_verts (A : Arr R α) (s : Ix R) (f : Ix R → α) (hA : Denotes A s f) (hb : ∀ b, s b < 2 ^ 63)
    (a : Fin R) :
    (s a % 2 = 1 → ∃ L U D C, bisectVerts a A = .ok (L, U) ∧ L.shape a = s a / 2 + 1 ∧ U.shape = L.shape ∧
      dropFinal a L = .ok D ∧ concat a U D = .ok C ∧ Denotes C s f) ∧
    (s a % 2 = 0 → bisectVerts a A = .throws .invalidArgument) := by
  constructor
  · intro he
    have hba := hb a
    obtain ⟨L, U, h1, d1, d2⟩ := bisectVerts_denotes hA hb a he
    obtain ⟨D, h4, d4⟩ := dropFinal_denotes d1 (fun b => by
      by_cases h : b = a
      · subst h; simp; omega
      · rw [Function.update_of_ne h]; have := hb b; omega) a 1 (by simp)
    obtain ⟨C, h3, d3⟩ := concat_denotes d4 d2 a (fun b hb => by simp [Function.update_of_ne hb]) (by simp; omega)
    refine ⟨L, U, D, C, h1, by rw [d1.1]; simp, by rw [d1.1, d2.1], h4, h3, d3.congr ?_ fun i hi => ?_⟩
    · simp only [Function.update_self, Function.update_idem]
      have : s a / 2 + 1 - 1 + (s a / 2 + 1) = s a := by omega
      rw [this, Function.update_eq_self]
    · simp only [Function.update_self, Function.update_idem]
      by_cases c : i a < s a / 2 + 1 - 1
      · rw [if_pos c]
      · have : i a - (s a / 2 + 1 - 1) + s a / 2 = i a := by omega
        rw [if_neg c, this, Function.update_eq_self]
  · intro ho
    unfold bisectVerts
    rw [dif_pos a.2, if_pos]
    simp only [Fin.eta]
    rw [hA.1]; omega

example : (∃ L U D C, bisectVerts 0 (indexArray (![3, 4] : Ix 2)) = .ok (L, U) ∧ L.shape 0 = 2 ∧ U.shape = L.shape ∧
      dropFinal 0 L = .ok D ∧ concat 0 U D = .ok C ∧ Denotes C ![3, 4] id) ∧
    bisectVerts 1 (indexArray (![3, 4] : Ix 2)) = .throws .invalidArgument :=
  ⟨(bisect_verts _ ![3, 4] id ⟨rfl, fun _ _ => rfl⟩ (by decide) (0 : Fin 2)).1 (by decide),
    (bisect_verts _ ![3, 4] id ⟨rfl, fun _ _ => rfl⟩ (by decide) (1 : Fin 2)).2 (by decide)⟩

/-- Joining the children pairwise: the block number `j` after the axes below `n`. -/
theorem combineAxes_inv (join : Nat → Arr R α → Arr R α → Outcome (Arr R α)) (c : Nat → Arr R α) (m t : Ix R)
    (f : Ix R → α) (off : Ix R) (N : Nat)
    (hc : ∀ j, Denotes (c j) m (fun i => f fun a => i a + if j.testBit a then off a else 0))
    (hjoin : ∀ (a : Fin R), (a : Nat) < N → ∀ (u : Ix R) (g : Ix R → α) (A B : Arr R α), u a = m a →
      (∀ b, u b = m b ∨ u b = t b) → Denotes A u g →
      Denotes B u (fun i => g (Function.update i a (i a + off a))) →
      ∃ C, join a A B = .ok C ∧ Denotes C (Function.update u a (t a)) g) :
    ∀ n, n ≤ N → n ≤ R → ∀ j, ∃ B, combineAxes join c n j = .ok B ∧ Denotes B (mix n m t)
      (fun i => f fun a => i a + if n ≤ (a : Nat) ∧ j.testBit (a - n) then off a else 0) := by
  intro n
  induction n with
  | zero =>
    intro _ _ j
    exact ⟨c j, rfl, (hc j).congr (mix_zero m t).symm fun i _ => by simp⟩
  | succ n ih =>
    intro hN hR j
    obtain ⟨A, h1, d1⟩ := ih (by omega) (by omega) (2 * j)
    obtain ⟨B, h2, d2⟩ := ih (by omega) (by omega) (2 * j + 1)
    set x : Fin R := ⟨n, hR⟩ with hx
    have hxv : (x : Nat) = n := rfl
    have t0 : (2 * j).testBit 0 = false := by simp [Nat.testBit_zero]
    have t1 : (2 * j + 1).testBit 0 = true := by simp [Nat.testBit_zero]
    have ts0 : ∀ i, (2 * j).testBit (i + 1) = j.testBit i := fun i => by
      rw [Nat.testBit_succ]; congr 1; omega
    have ts1 : ∀ i, (2 * j + 1).testBit (i + 1) = j.testBit i := fun i => by
      rw [Nat.testBit_succ]; congr 1; omega
    have e0 : ∀ i : Ix R, (fun a : Fin R => i a + if n ≤ (a : Nat) ∧ (2 * j).testBit (a - n) then off a else 0) =
        fun a : Fin R => i a + if n + 1 ≤ (a : Nat) ∧ j.testBit (a - (n + 1)) then off a else 0 := by
      intro i
      funext a
      by_cases h : (a : Nat) = n
      · rw [h, Nat.sub_self, t0, if_neg (by simp), if_neg (by omega)]
      · by_cases h' : (a : Nat) < n
        · rw [if_neg (by omega), if_neg (by omega)]
        · have e : (a : Nat) - n = (a - (n + 1)) + 1 := by omega
          rw [e, ts0]
          have : (n ≤ (a : Nat)) ↔ n + 1 ≤ (a : Nat) := by omega
          simp only [this]
    have e1 : ∀ i : Ix R, (fun a : Fin R => i a + if n ≤ (a : Nat) ∧ (2 * j + 1).testBit (a - n) then off a else 0) =
        fun a : Fin R => Function.update i x (i x + off x) a +
          if n + 1 ≤ (a : Nat) ∧ j.testBit (a - (n + 1)) then off a else 0 := by
      intro i
      funext a
      by_cases h : a = x
      · subst h
        rw [hxv, Nat.sub_self, t1, if_pos ⟨le_rfl, rfl⟩, if_neg (by omega), Function.update_self, Nat.add_zero]
      · rw [Function.update_of_ne h]
        have hne : (a : Nat) ≠ n := fun e => h (Fin.ext e)
        by_cases h' : (a : Nat) < n
        · rw [if_neg (by omega), if_neg (by omega)]
        · have e : (a : Nat) - n = (a - (n + 1)) + 1 := by omega
          rw [e, ts1]
          have : (n ≤ (a : Nat)) ↔ n + 1 ≤ (a : Nat) := by omega
          simp only [this]
    obtain ⟨C, h3, d3⟩ := hjoin x (by omega) _ _ A B (mix_at x m t)
      (fun b => by unfold mix; split <;> simp)
      (d1.congr rfl fun i _ => by rw [e0]) (d2.congr rfl fun i _ => by rw [e1])
    refine ⟨C, ?_, d3.congr (mix_succ x m t) fun i _ => rfl⟩
    rw [combineAxes, h1, Outcome.bind_ok, h2, Outcome.bind_ok]
    exact h3

/-- Refining a block of cells into its `2^rank` children and combining these gives the prolonged block. -/
theorem combine_refine_cells (A : Arr R α) (s : Ix R) (f : Ix R → α) (hA : Denotes A s f)
    (hb : ∀ b, s b < 2 ^ 62) :
    ∃ c P B, (∀ j, refineCells j A = .ok (c j) ∧ (c j).shape = s) ∧ forAxes prolongCells R A = .ok P ∧
      combineCells c = .ok B ∧
      Denotes B (fun a => 2 * s a) (fun i => f fun a => i a / 2) ∧
      Denotes P (fun a => 2 * s a) (fun i => f fun a => i a / 2) := by
  obtain ⟨P, h1, d1⟩ := prolongCells_all hA (fun b => by have := hb b; omega)
  choose c hc using fun j => bisectCells_all d1 hb j
  obtain ⟨B, h2, d2⟩ := combineAxes_inv (fun a A B => concat a B A) c s (fun a => 2 * s a)
    (fun i => f fun a => i a / 2) s R (fun j => (hc j).2) (by
      intro a _ u g A B hu hub hA hB
      have hba := hb a
      obtain ⟨C, h3, d3⟩ := concat_denotes hA hB a (fun _ _ => rfl) (by rw [hu]; omega)
      refine ⟨C, h3, d3.congr (by rw [hu, two_mul]) fun i _ => ?_⟩
      by_cases c : i a < u a
      · rw [if_pos c]
      · rw [if_neg c]
        simp only [Function.update_self, Function.update_idem]
        have : i a - u a + s a = i a := by omega
        rw [this, Function.update_eq_self]) R le_rfl le_rfl 0
  refine ⟨c, P, B, fun j => ⟨?_, (hc j).2.1⟩, h1, h2, d2.congr (mix_full _ _) fun i _ => by simp, d1⟩
  unfold refineCells
  rw [h1, Outcome.bind_ok, (hc j).1]

example : ∃ c P B, (∀ j, refineCells j (indexArray (![3, 4] : Ix 2)) = .ok (c j) ∧ (c j).shape = ![3, 4]) ∧
    forAxes prolongCells 2 (indexArray (![3, 4] : Ix 2)) = .ok P ∧ combineCells c = .ok B ∧
    Denotes B (fun a => 2 * ![3, 4] a) (fun i => id fun a => i a / 2) ∧
    Denotes P (fun a => 2 * ![3, 4] a) (fun i => id fun a => i a / 2) :=
  combine_refine_cells _ ![3, 4] id ⟨rfl, fun _ _ => rfl⟩ (by decide)

/-- Refining a block of vertices and combining the children gives the prolonged block, in one and two dimensions. -/
theorem combine_refine_verts_partial (hR : R < 3) (h2 : (2 : k) ≠ 0) (A : Arr R K) (s : Ix R) (f : Ix R → K)
    (hA : Denotes A s f) (hs : ∀ a, 1 ≤ s a) (hb : ∀ b, s b < 2 ^ 62) :
    ∃ c P B p, (∀ j, refineVerts k j A = .ok (c j) ∧ (c j).shape = s) ∧ forAxes (prolongVerts k) R A = .ok P ∧
      combineVerts c = .ok B ∧ Denotes P (fun a => 2 * s a - 1) p ∧ Denotes B (fun a => 2 * s a - 1) p := by
  obtain ⟨P, p, h1, d1, _⟩ := prolongVerts_all h2 hA hs (fun b => by have := hb b; omega)
  have d1' := d1.congr (t := fun a => 2 * (s a - 1) + 1) (by funext a; have := hs a; omega) (fun i _ => rfl)
  choose c hc using fun j => bisectVerts_all (m := fun a => s a - 1) d1' (fun b => by have := hb b; omega) j
  have hs' : (fun a => s a - 1 + 1) = s := by funext a; have := hs a; omega
  have hc' : ∀ j, Denotes (c j) s (fun i => p fun a => i a + if j.testBit a then s a - 1 else 0) := fun j =>
    (hc j).2.congr hs' fun _ _ => rfl
  obtain ⟨B, h3, d3⟩ := combineAxes_inv (fun a A B => (dropFinal a A).bind fun A => concat a B A) c s
    (fun a => 2 * s a - 1) p (fun a => s a - 1) R hc' (by
      intro a _ u g A B hu hub hA hB
      have hba := hb a
      have hsa := hs a
      obtain ⟨D, h4, d4⟩ := dropFinal_denotes hA (fun b => by
        have := hb b
        rcases hub b with h | h <;> rw [h] <;> omega) a 1 (by omega)
      obtain ⟨C, h3, d3⟩ := concat_denotes d4 hB a (fun b hb => by simp [Function.update_of_ne hb])
        (by simp; omega)
      refine ⟨C, by unfold dropFinal; rw [h4, Outcome.bind_ok, h3], d3.congr ?_ fun i _ => ?_⟩
      · simp only [Function.update_self, Function.update_idem]
        congr 1; omega
      · simp only [Function.update_self, Function.update_idem]
        by_cases c : i a < u a - 1
        · rw [if_pos c]
        · rw [if_neg c]
          have : i a - (u a - 1) + (s a - 1) = i a := by omega
          rw [this, Function.update_eq_self]) R le_rfl le_rfl 0
  refine ⟨c, P, B, p, fun j => ⟨?_, (hc' j).1⟩, h1, ?_, d1, d3.congr (mix_full _ _) fun i _ => by simp⟩
  · show (forAxes (prolongVerts k) R A).bind _ = _
    rw [h1, Outcome.bind_ok, (hc j).1]
  · unfold combineVerts
    rw [if_pos hR, h3]

example : ∃ c P B p, (∀ j, refineVerts Rat j (⟨![3, 4], fun i => .ok (i 0 : Rat)⟩ : Arr 2 Rat) = .ok (c j) ∧
      (c j).shape = ![3, 4]) ∧
    forAxes (prolongVerts Rat) 2 (⟨![3, 4], fun i => .ok (i 0 : Rat)⟩ : Arr 2 Rat) = .ok P ∧
    combineVerts c = .ok B ∧ Denotes P (fun a => 2 * ![3, 4] a - 1) p ∧ Denotes B (fun a => 2 * ![3, 4] a - 1) p :=
  combine_refine_verts_partial (by decide) (by norm_num) _ ![3, 4] (fun i => (i 0 : Rat)) ⟨rfl, fun _ _ => rfl⟩
    (by decide) (by decide)

/-- VIOLATION: in three dimensions combining blocks of vertices throws. -/
theorem combine_verts_three_violated (c : Nat → Arr 3 α) : combineVerts c = .throws .logicError := rfl

/-- VIOLATION: restricting cells on an axis with one cell gives `2^63` cells. -/
theorem restrict_single_violated (A : Arr R K) (a : Fin R) (h : A.shape a = 1) :
    ∃ B, restrictCells k a A = .ok B ∧ B.shape a = 2 ^ 63 := by
  have e0 : w (wsub (wsub (wsub 1 1) 0) 1 / 2 + 1) = 2 ^ 63 := by decide
  have e1 : w (wsub (wsub (wsub 1 0) 1) 1 / 2 + 1) = 2 ^ 63 := by decide
  have e : ∃ C, restrictExtrinsic a A = .ok C ∧ C.shape a = 2 ^ 63 := by
    unfold restrictExtrinsic selectAxis
    simp only [dif_pos a.2, Fin.eta, if_true, Outcome.bind_ok, if_neg (show ¬ (2 = 0) by decide)]
    unfold binaryOp
    rw [if_neg]
    · refine ⟨_, rfl, ?_⟩
      simp only [AccessPattern.shape, makeAccessPattern, h, Function.update_self]
      exact e0
    · rw [not_not]
      funext b
      by_cases hba : b = a
      · subst hba
        simp only [AccessPattern.shape, makeAccessPattern, h, Function.update_self]
        rw [e0, e1]
      · simp only [AccessPattern.shape, makeAccessPattern, Function.update_of_ne hba]
  obtain ⟨C, h1, h2⟩ := e
  refine ⟨C.map ((2 : k)⁻¹ • ·), ?_, h2⟩
  unfold restrictCells restrictCellsBy
  rw [h1, Outcome.map_ok]

/-- Blocks that meet the hypotheses, over the rational numbers. -/
example : (2 : Rat) ≠ 0 ∧ Denotes (⟨![4, 3], fun i => .ok (i 0 : Rat)⟩ : Arr 2 Rat) ![4, 3] (fun i => (i 0 : Rat)) ∧
    (∀ a, 1 ≤ (![4, 3] : Ix 2) a) ∧ (∀ a, (![4, 3] : Ix 2) a < 2 ^ 62) ∧ (![4, 3] : Ix 2) 0 % 2 = 0 ∧
    (![4, 3] : Ix 2) 1 % 2 = 1 :=
  ⟨by norm_num, ⟨rfl, fun _ _ => rfl⟩, by decide, by decide, by decide, by decide⟩

end Verif.Nd
