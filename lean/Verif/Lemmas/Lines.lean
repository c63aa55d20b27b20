import Verif.Spec.Lines
import Verif.Model.Sedov
import Verif.Props.NdOps
import Verif.Props.NdArray

/-!
# The operators on one-dimensional arrays
-/

namespace Verif.Nd

open Verif

variable {α β γ : Type}

theorem line_iff {A : Arr 1 α} {n : Nat} {y : Nat → α} : Line A n y ↔ Denotes A (fun _ => n) (fun i => y (i 0)) := by
  have hix : ∀ i : Ix 1, i = fun _ => i 0 := by
    intro i
    funext a
    rw [Fin.fin_one_eq_zero a]
  constructor
  · rintro ⟨h1, h2⟩
    refine ⟨?_, fun i hi => ?_⟩
    · funext a
      rw [Fin.fin_one_eq_zero a, h1]
    · rw [hix i]
      exact h2 _ (hi 0)
  · rintro ⟨h1, h2⟩
    exact ⟨by rw [h1], fun k hk => h2 (fun _ => k) fun _ => hk⟩

/-- The same line, described differently. -/
theorem Line.congr {A : Arr 1 α} {n n' : Nat} {y z : Nat → α} (h : Line A n y) (hn : n = n') (hy : ∀ k, k < n' → y k = z k) : Line A n' z := by
  subst hn
  exact ⟨h.1, fun k hk => by rw [h.2 k hk, hy k hk]⟩

theorem update_one {n k : Nat} : Function.update (fun _ : Fin 1 => n) 0 k = fun _ => k := by
  funext a
  rw [Fin.fin_one_eq_zero a]
  simp

/-- From a shape with one axis. -/
theorem Line.of_denotes {A : Arr 1 α} {s : Ix 1} {f : Ix 1 → α} (h : Denotes A s f) : Line A (s 0) (fun k => f fun _ => k) := by
  refine ⟨by rw [h.1], fun k hk => h.2 _ fun a => ?_⟩
  rw [Fin.fin_one_eq_zero a]
  exact hk

theorem Line.map {A : Arr 1 α} {n : Nat} {y : Nat → α} (h : Line A n y) (f : α → β) : Line (A.map f) n (fun k => f (y k)) :=
  line_iff.mpr ((line_iff.mp h).map f)

theorem Line.mapO {A : Arr 1 α} {n : Nat} {y : Nat → α} (h : Line A n y) {f : α → Outcome β} {z : Nat → β}
    (hf : ∀ k, k < n → f (y k) = .ok (z k)) : Line (A.mapO f) n z := by
  refine ⟨h.1, fun k hk => ?_⟩
  unfold Arr.mapO
  dsimp only
  rw [h.2 k hk, Outcome.bind_ok, hf k hk]

theorem Line.binaryOp {A : Arr 1 α} {B : Arr 1 β} {n : Nat} {y : Nat → α} {z : Nat → β} (hA : Line A n y) (hB : Line B n z)
    (f : α → β → γ) : ∃ C, Nd.binaryOp f A B = .ok C ∧ Line C n (fun k => f (y k) (z k)) := by
  obtain ⟨C, h1, h2⟩ := binaryOp_denotes (line_iff.mp hA) (line_iff.mp hB) f
  exact ⟨C, h1, line_iff.mpr h2⟩

theorem Line.binaryOpO {A : Arr 1 α} {B : Arr 1 β} {n : Nat} {y : Nat → α} {z : Nat → β} (hA : Line A n y) (hB : Line B n z)
    {f : α → β → Outcome γ} {x : Nat → γ} (hf : ∀ k, k < n → f (y k) (z k) = .ok (x k)) :
    ∃ C, Nd.binaryOpO f A B = .ok C ∧ Line C n x := by
  obtain ⟨C, h1, h2⟩ := hA.binaryOp hB Prod.mk
  refine ⟨_, ?_, h2.mapO (f := fun x => f x.1 x.2) hf⟩
  unfold Nd.binaryOpO
  rw [h1, Outcome.map_ok]

theorem Line.midpoint {K : Type} [Field K] {A : Arr 1 K} {n : Nat} {y : Nat → K} (h : Line A (n + 1) y) (hn : n + 1 < 2 ^ 64) :
    ∃ D, Nd.midpoint (1 / 2) 0 A = .ok D ∧ Line D n (fun k => (y k + y (k + 1)) / 2) := by
  obtain ⟨D, h1, h2⟩ := midpoint_partial A _ _ (line_iff.mp h) (fun _ => hn) 0 (by omega)
  refine ⟨D, h1, (Line.of_denotes h2).congr (by simp) fun k _ => ?_⟩
  simp

theorem Line.zipAdjacent2 {A : Arr 1 α} {n : Nat} {y : Nat → α} (h : Line A (n + 1) y) (hn : n + 1 < 2 ^ 64) :
    ∃ D, Nd.zipAdjacent2 0 A = .ok D ∧ Line D n (fun k => (y k, y (k + 1))) := by
  obtain ⟨D, h1, h2⟩ := (zip_adjacent_partial A _ _ (line_iff.mp h) (fun _ => hn) 0).1 (by omega)
  refine ⟨D, h1, (Line.of_denotes h2).congr (by simp) fun k _ => ?_⟩
  simp

theorem Line.dropFinal {A : Arr 1 α} {n : Nat} {y : Nat → α} (h : Line A (n + 1) y) (hn : n + 1 < 2 ^ 64) :
    ∃ D, selectAxis 0 0 1 1 true A = .ok D ∧ Line D n y := by
  obtain ⟨D, h1, h2⟩ := dropFinal_denotes (line_iff.mp h) (fun _ => hn) 0 1 (by omega)
  exact ⟨D, h1, (Line.of_denotes h2).congr (by simp) fun k _ => rfl⟩

theorem Line.dropFirst {A : Arr 1 α} {n : Nat} {y : Nat → α} (h : Line A (n + 1) y) (hn : n + 1 < 2 ^ 64) :
    ∃ D, selectAxis 0 1 0 1 true A = .ok D ∧ Line D n (fun k => y (k + 1)) := by
  obtain ⟨D, h1, h2⟩ := dropFirst_denotes (line_iff.mp h) (fun _ => hn) 0 1 0 (by omega)
  refine ⟨D, h1, (Line.of_denotes h2).congr (by simp) fun k _ => ?_⟩
  simp

theorem Line.difference {K : Type} [Sub K] {A : Arr 1 K} {n : Nat} {y : Nat → K} (h : Line A (n + 1) y) (hn : n + 1 < 2 ^ 64) :
    ∃ D, Nd.difference 0 A = .ok D ∧ Line D n (fun k => y (k + 1) - y k) := by
  obtain ⟨U, e1, h1⟩ := h.dropFirst hn
  obtain ⟨L, e2, h2⟩ := h.dropFinal hn
  obtain ⟨D, e3, h3⟩ := h1.binaryOp h2 (· - ·)
  refine ⟨D, ?_, h3⟩
  unfold Nd.difference
  rw [e1, Outcome.bind_ok, e2, Outcome.bind_ok, e3]

theorem Line.midpointBy {K : Type} [Add K] [Mul K] {A : Arr 1 K} {n : Nat} {y : Nat → K} (h : Line A (n + 1) y) (hn : n + 1 < 2 ^ 64) (half : K) :
    ∃ D, Nd.midpoint half 0 A = .ok D ∧ Line D n (fun k => (y k + y (k + 1)) * half) := by
  obtain ⟨U, e1, h1⟩ := h.dropFirst hn
  obtain ⟨L, e2, h2⟩ := h.dropFinal hn
  obtain ⟨D, e3, h3⟩ := h2.binaryOp h1 (· + ·)
  refine ⟨_, ?_, h3.map (· * half)⟩
  unfold Nd.midpoint
  rw [e2, Outcome.bind_ok, e1, Outcome.bind_ok, e3, Outcome.map_ok]

theorem Line.selectFirst {A : Arr 1 α} {n : Nat} {y : Nat → α} (h : Line A n y) (hn : n < 2 ^ 64) (h1 : 1 ≤ n) :
    ∃ D, Nd.selectFirst 1 0 A = .ok D ∧ Line D 1 y := by
  obtain ⟨D, e, h2⟩ := selectFirst_denotes (line_iff.mp h) (fun _ => hn) 0 1 h1
  exact ⟨D, e, (Line.of_denotes h2).congr (by simp) fun k _ => rfl⟩

theorem Line.selectFinal {A : Arr 1 α} {n : Nat} {y : Nat → α} (h : Line A n y) (hn : n < 2 ^ 64) (h1 : 1 ≤ n) :
    ∃ D, Nd.selectFinal 1 0 A = .ok D ∧ Line D 1 (fun _ => y (n - 1)) := by
  obtain ⟨D, e, h2⟩ := selectFinal_denotes (line_iff.mp h) (fun _ => hn) 0 1 h1
  refine ⟨D, e, (Line.of_denotes h2).congr (by simp) fun k hk => ?_⟩
  obtain rfl : k = 0 := by omega
  simp

theorem Line.concat {A B : Arr 1 α} {n l : Nat} {y z : Nat → α} (hA : Line A n y) (hB : Line B l z) (hn : n + l < 2 ^ 64) :
    ∃ D, Nd.concat 0 B A = .ok D ∧ Line D (n + l) (fun k => if k < n then y k else z (k - n)) := by
  obtain ⟨D, e, h2⟩ := concat_denotes (line_iff.mp hA) (line_iff.mp hB) 0 (fun b hb => absurd (Fin.fin_one_eq_zero b) hb) hn
  refine ⟨D, e, (Line.of_denotes h2).congr (by simp) fun k hk => ?_⟩
  simp

theorem Line.extendPeriodic {A : Arr 1 α} {n : Nat} {y : Nat → α} (h : Line A n y) (hn : n + 2 < 2 ^ 64) (h1 : 1 ≤ n) :
    ∃ D, Nd.extendPeriodic 0 1 A = .ok D ∧ Line D (n + 2) (fun k => y ((k + n - 1) % n)) := by
  obtain ⟨D, e, h2⟩ := (extend_periodic A _ _ (line_iff.mp h) (fun _ => by omega) 0 1).1 h1 (by omega)
  refine ⟨D, e, (Line.of_denotes h2).congr (by simp) fun k hk => ?_⟩
  simp only [Function.update_self]
  congr 1
  have e2 : ((k : Int) - (1 : Nat)) % (n : Int) = ((k + n - 1 : Nat) : Int) % (n : Int) := by
    rw [show ((k + n - 1 : Nat) : Int) = (k : Int) - (1 : Nat) + n by omega, Int.add_emod_right]
  rw [e2, ← Int.natCast_mod, Int.toNat_natCast]

theorem Line.evaluate [Inhabited α] {A : Arr 1 α} {n : Nat} {y : Nat → α} (h : Line A n y) (hn : n < 2 ^ 31) :
    ∃ D, Nd.evaluate A = .ok D ∧ Line D n y := by
  obtain ⟨D, e, h2⟩ := evaluate_partial A _ _ (line_iff.mp h) (Or.inr rfl) (by simpa [count] using hn)
  exact ⟨D, e, line_iff.mpr h2⟩

theorem Line.sum {K : Type} [AddCommMonoid K] {A : Arr 1 K} {n : Nat} {y : Nat → K} (h : Line A n y) (hn : n < 2 ^ 64) :
    Nd.sum A = .ok (∑ k ∈ Finset.range n, y k) := by
  unfold Nd.sum
  rw [elements_rank_one (line_iff.mp h) hn, Outcome.map_ok, foldl_add_eq_sum]
  congr 1

end Verif.Nd
