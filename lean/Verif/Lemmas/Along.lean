import Verif.Lemmas.Mesh
import Verif.Lemmas.Grids
import Verif.Lemmas.Prolong
import Verif.Model.FluxCorrection

/-!
# The operators on arrays seen along one axis
-/

namespace Verif.Nd

open Verif Verif.Binary

variable {α : Type}

theorem along_denotes {a : Fin 2} {A : Arr 2 α} {m n : Nat} {f : Nat → Nat → α} :
    Along a A m n f ↔ Denotes A (fun b => if b = a then m else n) (fun i => f (i a) (i (other a))) := by
  have e0 : (fun b => if b = 0 then m else n : Ix 2) = ![m, n] := by funext b; fin_cases b <;> rfl
  have e1 : (fun b => if b = 1 then m else n : Ix 2) = ![n, m] := by funext b; fin_cases b <;> rfl
  fin_cases a
  · exact grid_iff.trans (by rw [← e0]; rfl)
  · exact (grid_iff (f := fun y x => f x y)).trans (by rw [← e1]; rfl)

theorem other_ne (a : Fin 2) : other a ≠ a := by fin_cases a <;> decide

theorem other_of_ne {a b : Fin 2} (h : b ≠ a) : b = other a := by
  fin_cases a <;> fin_cases b <;> first | rfl | exact absurd rfl h

theorem along_shape_lt {a : Fin 2} {m n : Nat} {N : Nat} (hm : m < N) (hn : n < N) : ∀ b : Fin 2, (fun b => if b = a then m else n : Ix 2) b < N := by
  intro b
  dsimp only
  split
  · exact hm
  · exact hn

theorem Along.congr {a : Fin 2} {A : Arr 2 α} {m n m' n' : Nat} {f g : Nat → Nat → α} (h : Along a A m n f) (hm : m = m') (hn : n = n')
    (hf : ∀ x, x < m' → ∀ y, y < n' → f x y = g x y) : Along a A m' n' g := by
  fin_cases a
  · exact Grid.congr h hm hn hf
  · exact Grid.congr (f := fun y x => f x y) h hn hm fun y hy x hx => hf x hx y hy

theorem Along.of_denotes {a : Fin 2} {A : Arr 2 α} {s : Ix 2} {f : Ix 2 → α} (h : Denotes A s f) {m n : Nat} {g : Nat → Nat → α}
    (hm : s a = m) (hn : s (other a) = n) (hg : ∀ i : Ix 2, i a < m → i (other a) < n → f i = g (i a) (i (other a))) : Along a A m n g := by
  refine along_denotes.mpr (h.congr ?_ ?_)
  · funext b
    by_cases hb : b = a
    · rw [hb, if_pos rfl, hm]
    · rw [if_neg hb, other_of_ne hb, hn]
  · intro i hi
    refine hg i ?_ ?_
    · exact lt_of_lt_of_eq (hi a) (if_pos rfl)
    · exact lt_of_lt_of_eq (hi (other a)) (if_neg (other_ne a))

theorem update_other {a : Fin 2} (i : Ix 2) (v : Nat) : Function.update i a v (other a) = i (other a) :=
  Function.update_of_ne (other_ne a) _ _

theorem update_other' {a : Fin 2} (i : Ix 2) (v : Nat) : Function.update i (other a) v a = i a :=
  Function.update_of_ne (other_ne a).symm _ _

theorem Along.dropFirst {a : Fin 2} {A : Arr 2 α} {m n : Nat} {f : Nat → Nat → α} (h : Along a A (m + 1) n f) (hm : m + 1 < 2 ^ 64)
    (hn : n < 2 ^ 64) : ∃ D, Nd.dropFirst a A = .ok D ∧ Along a D m n (fun x y => f (x + 1) y) := by
  fin_cases a
  · exact Grid.dropFirst0 h hm hn
  · exact Grid.dropFirst1 (f := fun y x => f x y) h hn hm

theorem Along.dropFinal {a : Fin 2} {A : Arr 2 α} {m n : Nat} {f : Nat → Nat → α} (h : Along a A (m + 1) n f) (hm : m + 1 < 2 ^ 64)
    (hn : n < 2 ^ 64) : ∃ D, Nd.dropFinal a A = .ok D ∧ Along a D m n f := by
  fin_cases a
  · exact Grid.dropFinal0 h hm hn
  · exact Grid.dropFinal1 (f := fun y x => f x y) h hn hm

theorem Along.selectFirst {a : Fin 2} {A : Arr 2 α} {m n l : Nat} {f : Nat → Nat → α} (h : Along a A m n f) (hl : l ≤ m)
    (hm : m < 2 ^ 64) (hn : n < 2 ^ 64) : ∃ D, Nd.selectFirst l a A = .ok D ∧ Along a D l n f := by
  obtain ⟨D, e, h2⟩ := selectFirst_denotes (along_denotes.mp h) (along_shape_lt hm hn) a l (by rw [if_pos rfl]; exact hl)
  exact ⟨D, e, Along.of_denotes h2 (by rw [Function.update_self]) (by rw [update_other, if_neg (other_ne a)]) fun i _ _ => rfl⟩

theorem Along.selectFinal {a : Fin 2} {A : Arr 2 α} {m n l : Nat} {f : Nat → Nat → α} (h : Along a A m n f) (hl : l ≤ m)
    (hm : m < 2 ^ 64) (hn : n < 2 ^ 64) : ∃ D, Nd.selectFinal l a A = .ok D ∧ Along a D l n (fun x y => f (m - l + x) y) := by
  obtain ⟨D, e, h2⟩ := selectFinal_denotes (along_denotes.mp h) (along_shape_lt hm hn) a l (by rw [if_pos rfl]; exact hl)
  refine ⟨D, e, Along.of_denotes h2 (by rw [Function.update_self]) (by rw [update_other, if_neg (other_ne a)]) fun i _ _ => ?_⟩
  rw [Function.update_self, update_other, if_pos rfl]

/-- The arrays are joined along the axis. -/
theorem Along.concat {a : Fin 2} {A B : Arr 2 α} {m l n : Nat} {f g : Nat → Nat → α} (hA : Along a A m n f) (hB : Along a B l n g)
    (hm : m + l < 2 ^ 64) : ∃ D, Nd.concat a B A = .ok D ∧ Along a D (m + l) n (fun x y => if x < m then f x y else g (x - m) y) := by
  obtain ⟨D, e, h2⟩ := concat_denotes (along_denotes.mp hA) (along_denotes.mp hB) a
    (fun b hb => by rw [if_neg hb, if_neg hb]) (by rw [if_pos rfl, if_pos rfl]; exact hm)
  refine ⟨D, e, Along.of_denotes h2 (by rw [Function.update_self, if_pos rfl, if_pos rfl]) (by rw [update_other, if_neg (other_ne a)])
    fun i _ _ => ?_⟩
  rw [Function.update_self, update_other, if_pos rfl]

/-- The arrays are joined along the other axis. -/
theorem Along.concatOther {a : Fin 2} {A B : Arr 2 α} {m n l : Nat} {f g : Nat → Nat → α} (hA : Along a A m n f) (hB : Along a B m l g)
    (hn : n + l < 2 ^ 64) : ∃ D, Nd.concat (other a) B A = .ok D
      ∧ Along a D m (n + l) (fun x y => if y < n then f x y else g x (y - n)) := by
  obtain ⟨D, e, h2⟩ := concat_denotes (along_denotes.mp hA) (along_denotes.mp hB) (other a)
    (fun b hb => by
      obtain rfl : b = a := by
        by_contra hne
        exact hb (other_of_ne hne)
      rw [if_pos rfl, if_pos rfl]) (by rw [if_neg (other_ne a), if_neg (other_ne a)]; exact hn)
  refine ⟨D, e, Along.of_denotes h2 (by rw [update_other', if_pos rfl])
    (by rw [Function.update_self, if_neg (other_ne a), if_neg (other_ne a)]) fun i _ _ => ?_⟩
  rw [Function.update_self, update_other', if_neg (other_ne a)]

theorem Along.restrictOther {K : Type} [AddCommGroup K] {a : Fin 2} {A : Arr 2 K} {m n : Nat} {f : Nat → Nat → K}
    (h : Along a A m (2 * n) f) (h1 : 1 ≤ n) (hm : m < 2 ^ 63) (hn : 2 * n < 2 ^ 63) :
    ∃ D, restrictExtrinsic (other a) A = .ok D ∧ Along a D m n (fun x y => f x (2 * y) + f x (2 * y + 1)) := by
  obtain ⟨D, e, h2⟩ := restrictExtrinsic_denotes (along_denotes.mp h) (along_shape_lt hm hn) (other a)
    (by rw [if_neg (other_ne a)]; omega)
  refine ⟨D, e, Along.of_denotes h2 (by rw [update_other', if_pos rfl])
    (by rw [Function.update_self, if_neg (other_ne a)]; omega) fun i _ _ => ?_⟩
  rw [Function.update_self, update_other', Function.update_self, update_other']

theorem Along.evaluate [Inhabited α] {a : Fin 2} {A : Arr 2 α} {m n : Nat} {f : Nat → Nat → α} (h : Along a A m n f) (hm : 1 ≤ m)
    (hn : 1 ≤ n) (hmn : m * n < 2 ^ 31) : ∃ D, Nd.evaluate A = .ok D ∧ Along a D m n f := by
  fin_cases a
  · exact Grid.evaluate h hm hn hmn
  · exact Grid.evaluate (f := fun y x => f x y) h hn hm (by rw [mul_comm]; exact hmn)

theorem Along.difference {K : Type} [AddCommGroup K] {a : Fin 2} {A : Arr 2 K} {m n : Nat} {f : Nat → Nat → K} (h : Along a A (m + 1) n f)
    (hm : m + 1 < 2 ^ 64) (hn : n < 2 ^ 64) : ∃ D, Nd.difference a A = .ok D ∧ Along a D m n (fun x y => f (x + 1) y - f x y) := by
  fin_cases a
  · exact Grid.difference0 h hm hn
  · exact Grid.difference1 (f := fun y x => f x y) h hn hm

theorem Along.binaryOp {β γ : Type} {a : Fin 2} {A : Arr 2 α} {B : Arr 2 β} {m n : Nat} {f : Nat → Nat → α} {g : Nat → Nat → β}
    (hA : Along a A m n f) (hB : Along a B m n g) (u : α → β → γ) :
    ∃ C, Nd.binaryOp u A B = .ok C ∧ Along a C m n (fun x y => u (f x y) (g x y)) := by
  fin_cases a
  · exact Grid.binaryOp hA hB u
  · exact Grid.binaryOp (f := fun y x => f x y) (g := fun y x => g x y) hA hB u

theorem Along.binaryOpO {β γ : Type} {a : Fin 2} {A : Arr 2 α} {B : Arr 2 β} {m n : Nat} {f : Nat → Nat → α} {g : Nat → Nat → β}
    (hA : Along a A m n f) (hB : Along a B m n g) {u : α → β → Outcome γ} {z : Nat → Nat → γ}
    (hu : ∀ x, x < m → ∀ y, y < n → u (f x y) (g x y) = .ok (z x y)) :
    ∃ C, Nd.binaryOpO u A B = .ok C ∧ Along a C m n z := by
  fin_cases a
  · exact Grid.binaryOpO hA hB hu
  · exact Grid.binaryOpO (f := fun y x => f x y) (g := fun y x => g x y) (x := fun y x => z x y) hA hB fun y hy x hx => hu x hx y hy

theorem Along.mapO {β : Type} {a : Fin 2} {A : Arr 2 α} {m n : Nat} {f : Nat → Nat → α} (h : Along a A m n f)
    {u : α → Outcome β} {z : Nat → Nat → β} (hu : ∀ x, x < m → ∀ y, y < n → u (f x y) = .ok (z x y)) : Along a (A.mapO u) m n z := by
  fin_cases a
  · exact Grid.mapO h hu
  · exact Grid.mapO (f := fun y x => f x y) (g := fun y x => z x y) h fun y hy x hx => hu x hx y hy

theorem Along.map {β : Type} {a : Fin 2} {A : Arr 2 α} {m n : Nat} {f : Nat → Nat → α} (h : Along a A m n f) (u : α → β) :
    Along a (A.map u) m n (fun x y => u (f x y)) := by
  fin_cases a
  · exact Grid.map h u
  · exact Grid.map (f := fun y x => f x y) h u

theorem Along.zip2 {a : Fin 2} {A : Arr 2 α} {m n : Nat} {f : Nat → Nat → α} (h : Along a A (m + 1) n f) (hm : m + 1 < 2 ^ 64)
    (hn : n < 2 ^ 64) : ∃ D, zipAdjacent2 a A = .ok D ∧ Along a D m n (fun x y => (f x y, f (x + 1) y)) := by
  fin_cases a
  · exact Grid.zip2_0 h hm hn
  · exact Grid.zip2_1 (f := fun y x => f x y) h hn hm

theorem Along.zip3 {a : Fin 2} {A : Arr 2 α} {m n : Nat} {f : Nat → Nat → α} (h : Along a A (m + 2) n f) (hm : m + 2 < 2 ^ 64)
    (hn : n < 2 ^ 64) : ∃ D, zipAdjacent3 a A = .ok D ∧ Along a D m n (fun x y => (f x y, f (x + 1) y, f (x + 2) y)) := by
  fin_cases a
  · exact Grid.zip3_0 h hm hn
  · exact Grid.zip3_1 (f := fun y x => f x y) h hn hm

/-- Averages along the other axis. -/
theorem Along.midpointOther {K : Type} [Field K] {a : Fin 2} {A : Arr 2 K} {m n : Nat} {f : Nat → Nat → K} (h : Along a A m (n + 1) f)
    (hm : m < 2 ^ 64) (hn : n + 1 < 2 ^ 64) :
    ∃ D, Nd.midpoint (1 / 2) (other a) A = .ok D ∧ Along a D m n (fun x y => (f x y + f x (y + 1)) / 2) := by
  fin_cases a
  · exact Grid.midpoint1 h hm hn
  · exact Grid.midpoint0 (f := fun y x => f x y) h hn hm

/-- Reading along one axis is reading along the other with the arguments exchanged. -/
theorem Along.swap {a : Fin 2} {A : Arr 2 α} {m n : Nat} {f : Nat → Nat → α} (h : Along a A m n f) :
    Along (other a) A n m (fun x y => f y x) := by
  fin_cases a
  · exact h
  · exact h

theorem Along.grid {A : Arr 2 α} {m n : Nat} {f : Nat → Nat → α} (a : Fin 2) (h : Grid A m n f) :
    Along a A (if a = 0 then m else n) (if a = 0 then n else m) (fun x y => if a = 0 then f x y else f y x) := by
  fin_cases a
  · exact h
  · exact h

theorem Along.sum {K : Type} [AddCommMonoid K] {a : Fin 2} {A : Arr 2 K} {m n : Nat} {f : Nat → Nat → K} (h : Along a A m n f)
    (hm : 1 ≤ m) (hn : 1 ≤ n) (hm2 : m < 2 ^ 64) (hn2 : n < 2 ^ 64) :
    Nd.sum A = .ok (∑ x ∈ Finset.range m, ∑ y ∈ Finset.range n, f x y) := by
  fin_cases a
  · exact Grid.sum h hm hn hm2 hn2
  · rw [Grid.sum (f := fun y x => f x y) h hn hm hn2 hm2, Finset.sum_comm]

end Verif.Nd
