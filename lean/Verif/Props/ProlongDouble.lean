import Verif.Lemmas.Prolong
import Verif.Props.QuadtreeDouble

/-!
# C32 in double precision: restriction undoes prolongation bit for bit
-/

namespace Verif.Nd
open Verif Verif.Double Verif.Tree

variable {R : Nat} {K : Type}

theorem restrictCellsBy_denotes [Add K] (half : K → K) {A : Arr R K} {s : Ix R} {f : Ix R → K} (hA : Denotes A s f)
    (hb : ∀ b, s b < 2 ^ 63) (a : Fin R) (hs : 2 ≤ s a) : ∃ B, restrictCellsBy half a A = .ok B ∧
      Denotes B (Function.update s a (s a / 2))
        (fun i => half (f (Function.update i a (2 * i a)) + f (Function.update i a (2 * i a + 1)))) := by
  obtain ⟨B, h1, h2⟩ := restrictExtrinsic_denotes hA hb a hs
  refine ⟨_, ?_, h2.map half⟩
  unfold restrictCellsBy
  rw [h1, Outcome.map_ok]

/-- Restricting prolonged cells on every axis. -/
theorem coarsenBy_prolonged [Add K] {half : K → K} (hh : ∀ x, half (x + x) = x) {A : Arr R K} {s : Ix R} {f : Ix R → K} (hs : ∀ a, 1 ≤ s a)
    (hb : ∀ b, s b < 2 ^ 62) (hA : Denotes A (fun a => 2 * s a) (fun i => f fun a => i a / 2)) :
    ∃ B, coarsenCellsBy half A = .ok B ∧ Denotes B s f := by
  obtain ⟨B, h1, h3⟩ := forAxes_inv (restrictCellsBy half) (fun n B => Denotes B (mix n (fun a => 2 * s a) s)
      (fun i => f fun a => if (a : Nat) < n then i a else i a / 2)) (A := A)
    (hA.congr (mix_zero _ _).symm (fun _ _ => by simp)) (by
      intro n B hB
      have hat := mix_at n (fun a => 2 * s a) s
      obtain ⟨C, g1, g2⟩ := restrictCellsBy_denotes half hB (fun b => by
        have := hb b; unfold mix; beta_reduce; split <;> omega) n (by rw [hat]; have := hs n; omega)
      rw [hat, Nat.mul_div_cancel_left _ (by norm_num : 0 < 2)] at g2
      refine ⟨C, g1, g2.congr (mix_succ n _ s) fun i _ => ?_⟩
      have e : ∀ r, r < 2 → (fun a : Fin R => if (a : Nat) < n then Function.update i n (2 * i n + r) a
          else Function.update i n (2 * i n + r) a / 2) = fun a : Fin R => if (a : Nat) < n + 1 then i a else i a / 2 := by
        intro r hr
        funext a
        by_cases h : a = n
        · subst h; simp; omega
        · rw [Function.update_of_ne h]
          have : (a : Nat) ≠ n := fun e => h (Fin.ext e)
          by_cases h2 : (a : Nat) < n
          · rw [if_pos h2, if_pos (by omega)]
          · rw [if_neg h2, if_neg (by omega)]
      have e0 := e 0 (by omega)
      rw [Nat.add_zero] at e0
      rw [e0, e 1 (by omega), hh])
  refine ⟨B, h1, h3.congr (mix_full _ _) fun i _ => ?_⟩
  congr 1
  funext a
  rw [if_pos a.2]

theorem prolongVertsBy_all {mid : K → K → K} (hm : ∀ x, mid x x = x) {A : Arr R K} {s : Ix R} {f : Ix R → K} (hA : Denotes A s f)
    (hs : ∀ a, 1 ≤ s a) (hb : ∀ b, s b < 2 ^ 63) :
    ∃ B p, forAxes (prolongVertsBy mid) R A = .ok B ∧ Denotes B (fun a => 2 * s a - 1) p ∧
      ∀ i, p (fun a => 2 * i a) = f i := by
  obtain ⟨B, h1, p, h3, h4⟩ := forAxes_inv (prolongVertsBy mid) (fun n B => ∃ p, Denotes B (mix n s fun a => 2 * s a - 1) p ∧
      ∀ i, p (fun a => if (a : Nat) < n then 2 * i a else i a) = f i) (A := A)
    ⟨f, hA.congr (mix_zero _ _).symm (fun _ _ => rfl), fun i => by simp⟩ (by
      rintro n B ⟨p, hp, hpe⟩
      have hat := mix_at n s fun a => 2 * s a - 1
      obtain ⟨C, g1, g2⟩ := prolongVertsBy_denotes mid hp n (by rw [hat]; exact hs n) (by rw [hat]; exact hb n)
      rw [hat] at g2
      refine ⟨C, g1, _, g2.congr (mix_succ n s fun a => 2 * s a - 1) (fun _ _ => rfl), fun i => ?_⟩
      have e : (fun a : Fin R => if (a : Nat) < n then 2 * i a else i a) =
          Function.update (fun a : Fin R => if (a : Nat) < n + 1 then 2 * i a else i a) n (2 * i n / 2) := by
        funext a
        by_cases h : a = n
        · subst h; simp
        · rw [Function.update_of_ne h]
          have : (a : Nat) ≠ n := fun e => h (Fin.ext e)
          by_cases h2 : (a : Nat) < n
          · rw [if_pos h2, if_pos (by omega)]
          · rw [if_neg h2, if_neg (by omega)]
      simp only [Nat.lt_succ_self, if_true, Nat.mul_mod_right, Nat.add_zero]
      rw [← e, hpe, hm])
  refine ⟨B, p, h1, h3.congr (mix_full _ _) fun _ _ => rfl, fun i => ?_⟩
  rw [← h4 i]
  congr 1
  funext a
  rw [if_pos a.2]

/-- **C32** in any arithmetic in which half of twice a number is that number: refining a block and coarsening it again gives the block. -/
theorem coarsen_prolong_by [Add K] {half : K → K} (hh : ∀ x, half (x + x) = x) (A : Arr R K) (s : Ix R) (f : Ix R → K) (hA : Denotes A s f)
    (hs : ∀ a, 1 ≤ s a) (hb : ∀ b, s b < 2 ^ 62) :
    (∃ P B, forAxes prolongCells R A = .ok P ∧ coarsenCellsBy half P = .ok B ∧ Denotes B s f) ∧
    (∃ P B, forAxes (prolongVertsBy fun l u => half (l + u)) R A = .ok P ∧ coarsenVerts P = .ok B ∧ Denotes B s f) := by
  constructor
  · obtain ⟨P, h1, d1⟩ := prolongCells_all hA (fun b => by have := hb b; omega)
    obtain ⟨B, h3, d3⟩ := coarsenBy_prolonged hh hs hb d1
    exact ⟨P, B, h1, h3, d3⟩
  · obtain ⟨P, p, h1, d1, hp⟩ := prolongVertsBy_all (mid := fun l u => half (l + u)) hh hA hs (fun b => by have := hb b; omega)
    obtain ⟨B, h3, d3⟩ := restrictVerts_all d1 (fun b => by have := hb b; omega) (fun a => by have := hs a; omega)
    refine ⟨P, B, h1, h3, d3.congr ?_ fun i _ => hp i⟩
    funext a
    have := hs a
    omega

/-- **C32** in double precision, for blocks of any rank with tuples of `n` numbers (as the conserved quantities), whatever the rule of rounding: no bit of any value
changes when a block is refined and coarsened again. -/
theorem coarsen_prolong_double {Ro : Rounding} {n : Nat} (A : Arr R (Fin n → Dbl Ro)) (s : Ix R) (f : Ix R → Fin n → Dbl Ro) (hA : Denotes A s f)
    (hs : ∀ a, 1 ≤ s a) (hb : ∀ b, s b < 2 ^ 62) :
    (∃ P B, forAxes prolongCells R A = .ok P ∧ coarsenCellsBy (fun x j => x j * Dbl.half) P = .ok B ∧ Denotes B s f) ∧
    (∃ P B, forAxes (prolongVertsBy fun l u j => (l j + u j) * Dbl.half) R A = .ok P ∧ coarsenVerts P = .ok B ∧ Denotes B s f) :=
  coarsen_prolong_by (half := fun x j => x j * Dbl.half) (fun x => funext fun j => midD_self (x j)) A s f hA hs hb

/-- A block of three by four cells, with the numbers one third and of the first index. -/
example : ∃ P B, forAxes prolongCells 2 (⟨![3, 4], fun i => .ok ![Dbl.one / ((3 : Nat) : Dbl Rounding.up), ((i 0 : Nat) : Dbl Rounding.up)]⟩ :
      Arr 2 (Fin 2 → Dbl Rounding.up)) = .ok P ∧ coarsenCellsBy (fun x j => x j * Dbl.half) P = .ok B ∧
    Denotes B ![3, 4] fun i => ![Dbl.one / ((3 : Nat) : Dbl Rounding.up), ((i 0 : Nat) : Dbl Rounding.up)] :=
  (coarsen_prolong_double _ ![3, 4] _ ⟨rfl, fun _ _ => rfl⟩ (by decide) (by decide)).1

end Verif.Nd
