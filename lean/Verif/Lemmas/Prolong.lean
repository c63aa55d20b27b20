import Verif.Model.Prolong
import Verif.Lemmas.NdOps
import Verif.Props.NdArray
import Verif.Props.NdOps
import Mathlib.Tactic.Module

/-!
# What prolongation and restriction denote
-/

namespace Verif.Nd
open Verif

variable {R : Nat} {α K : Type} {k : Type} [Field k] [AddCommGroup K] [Module k K]

theorem restrictVerts_denotes {A : Arr R α} {s : Ix R} {f : Ix R → α} (hA : Denotes A s f) (hb : ∀ b, s b < 2 ^ 63)
    (a : Fin R) (hs : 1 ≤ s a) : ∃ B, restrictVerts a A = .ok B ∧
      Denotes B (Function.update s a ((s a + 1) / 2)) (fun i => f (Function.update i a (2 * i a))) := by
  have h0 := hb a
  obtain ⟨B, h1, h2⟩ := selectAxis_denotes hA (fun b => by have := hb b; omega) a 0 0 (s a) 2 true
    (by simp only [if_true]; rw [wsub_eq (by omega) (by omega)]; rfl) le_rfl (by omega) (by omega)
  refine ⟨B, h1, h2.congr ?_ fun i _ => by simp⟩
  unfold steps
  congr 2

theorem restrictExtrinsic_denotes {K : Type} [Add K] {A : Arr R K} {s : Ix R} {f : Ix R → K} (hA : Denotes A s f)
    (hb : ∀ b, s b < 2 ^ 63) (a : Fin R) (hs : 2 ≤ s a) : ∃ B, restrictExtrinsic a A = .ok B ∧
      Denotes B (Function.update s a (s a / 2))
        (fun i => f (Function.update i a (2 * i a)) + f (Function.update i a (2 * i a + 1))) := by
  have h0 := hb a
  have hb' : ∀ b, s b < 2 ^ 64 := fun b => by have := hb b; omega
  obtain ⟨B0, g1, g2⟩ := selectAxis_denotes hA hb' a 0 1 (s a - 1) 2 true
    (by simp only [if_true]; rw [wsub_eq (by omega) (by omega)]) (by omega) (by omega) (by omega)
  obtain ⟨B1, g3, g4⟩ := selectAxis_denotes hA hb' a 1 0 (s a) 2 true
    (by simp only [if_true]; rw [wsub_eq (by omega) (by omega)]; rfl) le_rfl (by omega) (by omega)
  have e0 : steps 0 (s a - 1) 2 = s a / 2 := by unfold steps; congr 1; omega
  have e1 : steps 1 (s a) 2 = s a / 2 := by unfold steps; congr 1; omega
  rw [e0] at g2
  rw [e1] at g4
  obtain ⟨C, g5, g6⟩ := binaryOp_denotes g2 g4 (· + ·)
  refine ⟨C, ?_, g6.congr rfl fun i _ => ?_⟩
  · unfold restrictExtrinsic
    rw [g1, Outcome.bind_ok, g3, Outcome.bind_ok, g5]
  · simp [Nat.add_comm 1]

theorem restrictCells_denotes {A : Arr R K} {s : Ix R} {f : Ix R → K} (hA : Denotes A s f)
    (hb : ∀ b, s b < 2 ^ 63) (a : Fin R) (hs : 2 ≤ s a) : ∃ B, restrictCells k a A = .ok B ∧
      Denotes B (Function.update s a (s a / 2))
        (fun i => (2 : k)⁻¹ • (f (Function.update i a (2 * i a)) + f (Function.update i a (2 * i a + 1)))) := by
  obtain ⟨B, h1, h2⟩ := restrictExtrinsic_denotes hA hb a hs
  refine ⟨_, ?_, h2.map ((2 : k)⁻¹ • ·)⟩
  unfold restrictCells restrictCellsBy
  rw [h1, Outcome.map_ok]

theorem prolongCells_denotes {A : Arr R α} {s : Ix R} {f : Ix R → α} (hA : Denotes A s f) (a : Fin R)
    (hs : s a < 2 ^ 63) : ∃ B, prolongCells a A = .ok B ∧
      Denotes B (Function.update s a (2 * s a)) (fun i => f (Function.update i a (i a / 2))) := by
  obtain ⟨rfl, hf⟩ := hA
  unfold prolongCells
  rw [dif_pos a.2]
  refine ⟨_, rfl, ?_, fun i hi => ?_⟩
  · simp only [Fin.eta]; rw [w_eq (by omega), mul_comm]
  · obtain ⟨h1, h2⟩ := inShape_update.1 hi
    have hin : InShape A.shape (Function.update i a (i a / 2)) := inShape_update_index.2 ⟨by omega, h2⟩
    simp only [Fin.eta]
    rw [(bounds_check A _).2.1 hin, hf _ hin]

theorem prolongVertsBy_denotes (mid : α → α → α) {A : Arr R α} {s : Ix R} {f : Ix R → α} (hA : Denotes A s f) (a : Fin R)
    (h0 : 1 ≤ s a) (hs : s a < 2 ^ 63) : ∃ B, prolongVertsBy mid a A = .ok B ∧
      Denotes B (Function.update s a (2 * s a - 1)) (fun i => mid
        (f (Function.update i a (i a / 2))) (f (Function.update i a (i a / 2 + i a % 2)))) := by
  obtain ⟨rfl, hf⟩ := hA
  unfold prolongVertsBy
  rw [dif_pos a.2]
  refine ⟨_, rfl, ?_, fun i hi => ?_⟩
  · simp only [Fin.eta]; rw [w_eq (by omega), wsub_eq (by omega) (by omega), mul_comm]
  · obtain ⟨h1, h2⟩ := inShape_update.1 hi
    have e : (if i a % 2 = 0 then 0 else 1) = i a % 2 := by split <;> omega
    simp only [Fin.eta]
    rw [e, hf _ (inShape_update_index.2 ⟨by omega, h2⟩), Outcome.bind_ok,
      hf _ (inShape_update_index.2 ⟨by omega, h2⟩), Outcome.bind_ok]

theorem prolongVerts_denotes {A : Arr R K} {s : Ix R} {f : Ix R → K} (hA : Denotes A s f) (a : Fin R)
    (h0 : 1 ≤ s a) (hs : s a < 2 ^ 63) : ∃ B, prolongVerts k a A = .ok B ∧
      Denotes B (Function.update s a (2 * s a - 1)) (fun i => (2 : k)⁻¹ •
        (f (Function.update i a (i a / 2)) + f (Function.update i a (i a / 2 + i a % 2)))) :=
  prolongVertsBy_denotes _ hA a h0 hs

theorem bisectCells_denotes {A : Arr R α} {s : Ix R} {f : Ix R → α} (hA : Denotes A s f) (hb : ∀ b, s b < 2 ^ 63)
    (a : Fin R) (he : s a % 2 = 0) : ∃ L U, bisectCells a A = .ok (L, U) ∧
      Denotes L (Function.update s a (s a / 2)) f ∧
      Denotes U (Function.update s a (s a / 2)) (fun i => f (Function.update i a (i a + s a / 2))) := by
  have h0 := hb a
  have hb' : ∀ b, s b < 2 ^ 64 := fun b => by have := hb b; omega
  obtain ⟨B0, g1, g2⟩ := selectAxis_denotes hA hb' a 0 (s a / 2) (s a / 2) 1 false rfl (by omega) (by omega) (by omega)
  obtain ⟨B1, g3, g4⟩ := selectAxis_denotes hA hb' a (s a / 2) 0 (s a) 1 true
    (by simp only [if_true]; rw [wsub_eq (by omega) (by omega)]; rfl) le_rfl (by omega) (by omega)
  rw [steps_one] at g2 g4
  refine ⟨B0, B1, ?_, g2.congr (by simp) fun i _ => by simp, g4.congr (by congr 1; omega) fun i _ => ?_⟩
  · unfold bisectCells
    rw [dif_pos a.2]
    simp only [Fin.eta]
    rw [hA.1, if_neg (by omega), g1, Outcome.bind_ok, g3, Outcome.bind_ok]
  · congr 2; omega

theorem bisectVerts_denotes {A : Arr R α} {s : Ix R} {f : Ix R → α} (hA : Denotes A s f) (hb : ∀ b, s b < 2 ^ 63)
    (a : Fin R) (he : s a % 2 = 1) : ∃ L U, bisectVerts a A = .ok (L, U) ∧
      Denotes L (Function.update s a (s a / 2 + 1)) f ∧
      Denotes U (Function.update s a (s a / 2 + 1)) (fun i => f (Function.update i a (i a + s a / 2))) := by
  have h0 := hb a
  have hb' : ∀ b, s b < 2 ^ 64 := fun b => by have := hb b; omega
  obtain ⟨B0, g1, g2⟩ := selectAxis_denotes hA hb' a 0 (s a / 2 + 1) (s a / 2 + 1) 1 false rfl (by omega) (by omega)
    (by omega)
  obtain ⟨B1, g3, g4⟩ := selectAxis_denotes hA hb' a (s a / 2) 0 (s a) 1 true
    (by simp only [if_true]; rw [wsub_eq (by omega) (by omega)]; rfl) le_rfl (by omega) (by omega)
  rw [steps_one] at g2 g4
  refine ⟨B0, B1, ?_, g2.congr (by simp) fun i _ => by simp, g4.congr (by congr 1; omega) fun i _ => ?_⟩
  · unfold bisectVerts
    rw [dif_pos a.2]
    simp only [Fin.eta]
    rw [hA.1, if_neg (by omega), g1, Outcome.bind_ok, g3, Outcome.bind_ok]
  · congr 2; omega

/-! ### all axes -/

/-- The shape after the axes below `n` have been processed. -/
def mix (n : Nat) (s t : Ix R) : Ix R := fun a => if (a : Nat) < n then t a else s a

theorem mix_zero (s t : Ix R) : mix 0 s t = s := by funext a; simp [mix]

theorem mix_full (s t : Ix R) : mix R s t = t := by funext a; simp [mix]

theorem mix_at (n : Fin R) (s t : Ix R) : mix n s t n = s n := by simp [mix]

theorem mix_succ (n : Fin R) (s t : Ix R) : Function.update (mix n s t) n (t n) = mix (n + 1) s t := by
  funext a
  by_cases h : a = n
  · subst h; simp [mix]
  · rw [Function.update_of_ne h]
    have : (a : Nat) ≠ n := fun e => h (Fin.ext e)
    unfold mix
    by_cases h2 : (a : Nat) < n
    · rw [if_pos h2, if_pos (by omega)]
    · rw [if_neg h2, if_neg (by omega)]

theorem forAxes_inv (op : Nat → Arr R α → Outcome (Arr R α)) (P : Nat → Arr R α → Prop) {A : Arr R α} (h0 : P 0 A)
    (hop : ∀ (n : Fin R) B, P n B → ∃ C, op n B = .ok C ∧ P (n + 1) C) : ∃ B, forAxes op R A = .ok B ∧ P R B := by
  have : ∀ n, n ≤ R → ∃ B, forAxes op n A = .ok B ∧ P n B := by
    intro n hn
    induction n with
    | zero => exact ⟨A, rfl, h0⟩
    | succ n ih =>
      obtain ⟨B, h1, h2⟩ := ih (by omega)
      obtain ⟨C, h3, h4⟩ := hop ⟨n, hn⟩ B h2
      exact ⟨C, by rw [forAxes, h1, Outcome.bind_ok, h3], h4⟩
  exact this R le_rfl

/-- An operator that changes the index on one axis, applied on every axis. -/
theorem forAxes_reindex (op : Nat → Arr R α → Outcome (Arr R α)) (s t : Ix R) (ψ : Fin R → Nat → Nat)
    (hop : ∀ (a : Fin R) (u : Ix R) (g : Ix R → α) A, u a = s a → (∀ b, u b = s b ∨ u b = t b) → Denotes A u g →
      ∃ B, op a A = .ok B ∧ Denotes B (Function.update u a (t a)) (fun i => g (Function.update i a (ψ a (i a)))))
    {A : Arr R α} {f : Ix R → α} (hA : Denotes A s f) :
    ∃ B, forAxes op R A = .ok B ∧ Denotes B t (fun i => f fun a => ψ a (i a)) := by
  obtain ⟨B, h1, h2⟩ := forAxes_inv op (fun n B => Denotes B (mix n s t)
      (fun i => f (fun a => if (a : Nat) < n then ψ a (i a) else i a))) (A := A)
    (hA.congr (mix_zero s t).symm (fun i _ => by simp)) (by
      intro n B hB
      obtain ⟨C, h1, h2⟩ := hop n _ _ B (mix_at n s t) (fun b => by unfold mix; split <;> simp) hB
      refine ⟨C, h1, h2.congr (mix_succ n s t) fun i _ => ?_⟩
      congr 1
      funext a
      by_cases h : a = n
      · subst h; simp
      · rw [Function.update_of_ne h]
        have : (a : Nat) ≠ n := fun e => h (Fin.ext e)
        by_cases h2 : (a : Nat) < n
        · rw [if_pos h2, if_pos (by omega)]
        · rw [if_neg h2, if_neg (by omega)])
  refine ⟨B, h1, h2.congr (mix_full s t) fun i _ => ?_⟩
  congr 1
  funext a
  rw [if_pos a.2]

/-- Prolonging cells on every axis. -/
theorem prolongCells_all {A : Arr R α} {s : Ix R} {f : Ix R → α} (hA : Denotes A s f) (hb : ∀ b, s b < 2 ^ 63) :
    ∃ B, forAxes prolongCells R A = .ok B ∧ Denotes B (fun a => 2 * s a) (fun i => f fun a => i a / 2) :=
  forAxes_reindex prolongCells s (fun a => 2 * s a) (fun _ n => n / 2)
    (fun a u g A hu _ hA => by
      obtain ⟨B, h1, h2⟩ := prolongCells_denotes hA a (by rw [hu]; exact hb a)
      exact ⟨B, h1, by rwa [hu] at h2⟩) hA

/-- One child after bisection on every axis. -/
theorem bisectCells_all {A : Arr R α} {m : Ix R} {f : Ix R → α} (hA : Denotes A (fun a => 2 * m a) f)
    (hb : ∀ b, m b < 2 ^ 62) (n : Nat) :
    ∃ B, forAxes (fun a => bisectHalf bisectCells (n.testBit a) a) R A = .ok B ∧
      Denotes B m (fun i => f fun a => i a + if n.testBit a then m a else 0) :=
  forAxes_reindex _ (fun a => 2 * m a) m (fun a j => j + if n.testBit a then m a else 0)
    (fun a u g A hu hub hA => by
      obtain ⟨L, U, h1, h2, h3⟩ := bisectCells_denotes hA (fun b => by
        have := hb b
        rcases hub b with h | h <;> rw [h] <;> omega) a (by rw [hu]; omega)
      have e : u a / 2 = m a := by rw [hu]; omega
      rw [e] at h2 h3
      unfold bisectHalf
      rw [h1, Outcome.map_ok]
      cases h : n.testBit a
      · exact ⟨L, rfl, h2.congr rfl fun i _ => by simp⟩
      · exact ⟨U, rfl, h3⟩) hA

theorem bisectVerts_all {A : Arr R α} {m : Ix R} {f : Ix R → α} (hA : Denotes A (fun a => 2 * m a + 1) f)
    (hb : ∀ b, m b < 2 ^ 62) (n : Nat) :
    ∃ B, forAxes (fun a => bisectHalf bisectVerts (n.testBit a) a) R A = .ok B ∧
      Denotes B (fun a => m a + 1) (fun i => f fun a => i a + if n.testBit a then m a else 0) :=
  forAxes_reindex _ (fun a => 2 * m a + 1) (fun a => m a + 1) (fun a j => j + if n.testBit a then m a else 0)
    (fun a u g A hu hub hA => by
      obtain ⟨L, U, h1, h2, h3⟩ := bisectVerts_denotes hA (fun b => by
        have := hb b
        rcases hub b with h | h <;> rw [h] <;> omega) a (by rw [hu]; omega)
      have e : u a / 2 = m a := by rw [hu]; omega
      rw [e] at h2 h3
      unfold bisectHalf
      rw [h1, Outcome.map_ok]
      cases h : n.testBit a
      · exact ⟨L, rfl, h2.congr rfl fun i _ => by simp⟩
      · exact ⟨U, rfl, h3⟩) hA

theorem restrictVerts_all {A : Arr R α} {s : Ix R} {f : Ix R → α} (hA : Denotes A s f) (hb : ∀ b, s b < 2 ^ 63)
    (hs : ∀ a, 1 ≤ s a) : ∃ B, coarsenVerts A = .ok B ∧
      Denotes B (fun a => (s a + 1) / 2) (fun i => f fun a => 2 * i a) :=
  forAxes_reindex restrictVerts s (fun a => (s a + 1) / 2) (fun _ n => 2 * n)
    (fun a u g A hu hub hA => by
      obtain ⟨B, h1, h2⟩ := restrictVerts_denotes hA (fun b => by
        have := hb b
        rcases hub b with h | h <;> rw [h] <;> omega) a (by rw [hu]; exact hs a)
      exact ⟨B, h1, by rwa [hu] at h2⟩) hA

/-- Prolonging vertices on every axis: the shape, and the values at even indexes. -/
theorem prolongVerts_all (h2 : (2 : k) ≠ 0) {A : Arr R K} {s : Ix R} {f : Ix R → K} (hA : Denotes A s f)
    (hs : ∀ a, 1 ≤ s a) (hb : ∀ b, s b < 2 ^ 63) :
    ∃ B p, forAxes (prolongVerts k) R A = .ok B ∧ Denotes B (fun a => 2 * s a - 1) p ∧
      ∀ i, p (fun a => 2 * i a) = f i := by
  obtain ⟨B, h1, p, h3, h4⟩ := forAxes_inv (prolongVerts k) (fun n B => ∃ p, Denotes B (mix n s fun a => 2 * s a - 1) p ∧
      ∀ i, p (fun a => if (a : Nat) < n then 2 * i a else i a) = f i) (A := A)
    ⟨f, hA.congr (mix_zero _ _).symm (fun _ _ => rfl), fun i => by simp⟩ (by
      rintro n B ⟨p, hp, hpe⟩
      have hat := mix_at n s fun a => 2 * s a - 1
      obtain ⟨C, g1, g2⟩ := prolongVerts_denotes (k := k) hp n (by rw [hat]; exact hs n) (by rw [hat]; exact hb n)
      rw [hat] at g2
      refine ⟨C, g1, _, g2.congr (mix_succ n s fun a => 2 * s a - 1) (fun _ _ => rfl), fun i => ?_⟩
      have e : (fun a : Fin R => if (a : Nat) < n then 2 * i a else i a) =
          Function.update (fun a : Fin R => if (a : Nat) < n + 1 then 2 * i a else i a) n (2 * i n / 2) := by
        funext a
        by_cases h : a = n
        · subst h; simp
        · rw [Function.update_of_ne h]
          have : (a : Nat) ≠ n := fun e => h (Fin.ext e)
          by_cases h2 : (a : Nat) < n
          · rw [if_pos h2, if_pos (by omega)]
          · rw [if_neg h2, if_neg (by omega)]
      simp only [Nat.lt_succ_self, if_true, Nat.mul_mod_right, Nat.add_zero]
      rw [← e, hpe, ← two_smul k, smul_smul, inv_mul_cancel₀ h2, one_smul])
  refine ⟨B, p, h1, h3.congr (mix_full _ _) fun _ _ => rfl, fun i => ?_⟩
  rw [← h4 i]
  congr 1
  funext a
  rw [if_pos a.2]

/-- Restricting prolonged cells on every axis. -/
theorem coarsen_prolonged (h2 : (2 : k) ≠ 0) {A : Arr R K} {s : Ix R} {f : Ix R → K} (hs : ∀ a, 1 ≤ s a)
    (hb : ∀ b, s b < 2 ^ 62) (hA : Denotes A (fun a => 2 * s a) (fun i => f fun a => i a / 2)) :
    ∃ B, coarsenCells k A = .ok B ∧ Denotes B s f := by
  obtain ⟨B, h1, h3⟩ := forAxes_inv (restrictCells k) (fun n B => Denotes B (mix n (fun a => 2 * s a) s)
      (fun i => f fun a => if (a : Nat) < n then i a else i a / 2)) (A := A)
    (hA.congr (mix_zero _ _).symm (fun _ _ => by simp)) (by
      intro n B hB
      have hat := mix_at n (fun a => 2 * s a) s
      obtain ⟨C, g1, g2⟩ := restrictCells_denotes (k := k) hB (fun b => by
        have := hb b; unfold mix; beta_reduce; split <;> omega) n (by rw [hat]; have := hs n; omega)
      rw [hat, Nat.mul_div_cancel_left _ (by norm_num : 0 < 2)] at g2
      refine ⟨C, g1, g2.congr (mix_succ n _ s) fun i _ => ?_⟩
      have e : ∀ r, r < 2 → (fun a : Fin R => if (a : Nat) < n then Function.update i n (2 * i n + r) a
          else Function.update i n (2 * i n + r) a / 2) = fun a : Fin R => if (a : Nat) < n + 1 then i a else i a / 2 := by
        intro r hr
        funext a
        by_cases h : a = n
        · subst h; simp; omega
        · rw [Function.update_of_ne h]
          have : (a : Nat) ≠ n := fun e => h (Fin.ext e)
          by_cases h2 : (a : Nat) < n
          · rw [if_pos h2, if_pos (by omega)]
          · rw [if_neg h2, if_neg (by omega)]
      have e0 := e 0 (by omega)
      rw [Nat.add_zero] at e0
      rw [e0, e 1 (by omega), ← two_smul k, smul_smul, inv_mul_cancel₀ h2, one_smul])
  refine ⟨B, h1, h3.congr (mix_full _ _) fun i _ => ?_⟩
  congr 1
  funext a
  rw [if_pos a.2]

/-! ### sums -/

theorem total_double [AddCommMonoid α] (s : Ix R) (a : Fin R) (n : Nat) (f : Ix R → α) :
    total (Function.update s a (2 * n)) f =
      total (Function.update s a n) (fun i => f (Function.update i a (2 * i a)) + f (Function.update i a (2 * i a + 1))) := by
  unfold total
  have h1 : ∀ i : Ix R, f (Function.update i a (2 * i a)) + f (Function.update i a (2 * i a + 1)) =
      ∑ r ∈ Finset.range 2, f (Function.update i a (2 * i a + r)) := by
    intro i; rw [Finset.sum_range_succ, Finset.sum_range_one]; simp
  simp only [h1]
  rw [← Finset.sum_product']
  symm
  have mem : ∀ (m : Nat) (i : Ix R), i ∈ Fintype.piFinset (fun b => Finset.range (Function.update s a m b)) ↔
      InShape (Function.update s a m) i := by
    intro m i; simp [InShape]
  refine Finset.sum_nbij' (fun x => Function.update x.1 a (2 * x.1 a + x.2))
    (fun j => (Function.update j a (j a / 2), j a % 2)) ?_ ?_ ?_ ?_ ?_
  · rintro ⟨i, r⟩ h
    rw [Finset.mem_product, mem, inShape_update, Finset.mem_range] at h
    simp only at h
    rw [mem, inShape_update]
    refine ⟨by simp; omega, fun b hb => by rw [Function.update_of_ne hb]; exact h.1.2 b hb⟩
  · intro j h
    rw [mem, inShape_update] at h
    rw [Finset.mem_product, mem, inShape_update, Finset.mem_range]
    refine ⟨⟨by simp; omega, fun b hb => by simp only; rw [Function.update_of_ne hb]; exact h.2 b hb⟩,
      by simp only; omega⟩
  · rintro ⟨i, r⟩ h
    rw [Finset.mem_product, mem, inShape_update, Finset.mem_range] at h
    simp only at h
    simp only [Function.update_self, Function.update_idem]
    have e1 : (2 * i a + r) / 2 = i a := by omega
    have e2 : (2 * i a + r) % 2 = r := by omega
    rw [e1, e2, Function.update_eq_self]
  · intro j _
    simp only [Function.update_self, Function.update_idem]
    rw [Nat.div_add_mod, Function.update_eq_self]
  · rintro ⟨i, r⟩ _; rfl

theorem total_smul (s : Ix R) (c : k) (f : Ix R → K) : total s (fun i => c • f i) = c • total s f := by
  unfold total; rw [Finset.smul_sum]

end Verif.Nd
