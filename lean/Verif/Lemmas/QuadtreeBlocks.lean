import Verif.Lemmas.Quadtree
import Verif.Props.Prolong
import Verif.Props.NdArray
import Mathlib.Tactic.FieldSimp
import Mathlib.Tactic.LinearCombination
import Mathlib.Tactic.Positivity

/-! Lemmas on the blocks of quadtrees. -/

namespace Verif.Tree
open Verif Verif.Seq Verif.Nd

variable {R : Nat} {α K : Type} {k : Type} [Field k] [AddCommGroup K] [Module k K]

theorem lt_of_count {s : Ix R} (hs : ∀ a, 1 ≤ s a) (hc : count s < 2 ^ 31) (a : Fin R) : s a < 2 ^ 31 := by
  have : s a ≤ count s := by
    unfold count
    exact Nat.le_of_dvd (Finset.prod_pos fun b _ => hs b) (Finset.dvd_prod_of_mem s (Finset.mem_univ a))
  omega

/-- A child block in terms of the prolonged block. -/
theorem refineVertsBy_denotes (mid : α → α → α) {A P : Arr R α} {s : Ix R} {p : Ix R → α} (h1 : forAxes (prolongVertsBy mid) R A = .ok P)
    (d1 : Denotes P (fun a => 2 * s a - 1) p) (hs : ∀ a, 1 ≤ s a) (hb : ∀ b, s b < 2 ^ 62) (n : Nat) :
    ∃ C, refineVertsBy mid n A = .ok C ∧
      Denotes C s (fun i => p fun a => i a + if n.testBit a then s a - 1 else 0) := by
  have d1' := d1.congr (t := fun a => 2 * (s a - 1) + 1) (by funext a; have := hs a; omega) (fun i _ => rfl)
  obtain ⟨C, h3, d3⟩ := bisectVerts_all (m := fun a => s a - 1) d1' (fun b => by have := hb b; omega) n
  refine ⟨C, ?_, d3.congr (by funext a; have := hs a; omega) fun _ _ => rfl⟩
  unfold refineVertsBy
  rw [h1, Outcome.bind_ok, h3]

theorem refineVerts_denotes {A P : Arr R K} {s : Ix R} {p : Ix R → K} (h1 : forAxes (prolongVerts k) R A = .ok P)
    (d1 : Denotes P (fun a => 2 * s a - 1) p) (hs : ∀ a, 1 ≤ s a) (hb : ∀ b, s b < 2 ^ 62) (n : Nat) :
    ∃ C, refineVerts k n A = .ok C ∧
      Denotes C s (fun i => p fun a => i a + if n.testBit a then s a - 1 else 0) :=
  refineVertsBy_denotes _ h1 d1 hs hb n

/-- The same with evaluation. -/
theorem refineVertsSharedBy_denotes [Inhabited α] (mid : α → α → α) {A P : Arr 2 α} {s : Ix 2} {p : Ix 2 → α}
    (h1 : forAxes (prolongVertsBy mid) 2 A = .ok P)
    (d1 : Denotes P (fun a => 2 * s a - 1) p) (hs : ∀ a, 1 ≤ s a) (hc : count s < 2 ^ 31) :
    ∃ c, refineVertsSharedBy mid A = .ok c ∧ ∀ n,
      Denotes (c n) s (fun i => p fun a => i a + if (n : Nat).testBit a then s a - 1 else 0) := by
  have hlt := lt_of_count hs hc
  have : ∀ n : Fin (2 ^ 2), ∃ C, (refineVertsBy mid n A).bind evaluate = .ok C ∧
      Denotes C s (fun i => p fun a => i a + if (n : Nat).testBit a then s a - 1 else 0) := by
    intro n
    obtain ⟨C, h2, d2⟩ := refineVertsBy_denotes mid h1 d1 hs (fun b => by have := hlt b; omega) n
    obtain ⟨E, h3, d3⟩ := evaluate_partial C s _ d2 (.inl fun a => hs a) hc
    exact ⟨E, by rw [h2, Outcome.bind_ok, h3], d3⟩
  choose c hc1 hc2 using this
  exact ⟨c, sequence_ok.2 hc1, hc2⟩

theorem refineVertsShared_denotes [Inhabited K] {A P : Arr 2 K} {s : Ix 2} {p : Ix 2 → K}
    (h1 : forAxes (prolongVerts k) 2 A = .ok P)
    (d1 : Denotes P (fun a => 2 * s a - 1) p) (hs : ∀ a, 1 ≤ s a) (hc : count s < 2 ^ 31) :
    ∃ c, refineVertsShared k A = .ok c ∧ ∀ n,
      Denotes (c n) s (fun i => p fun a => i a + if (n : Nat).testBit a then s a - 1 else 0) :=
  refineVertsSharedBy_denotes _ h1 d1 hs hc

theorem refineLoop_succ (predicate : Nat → ℝ → Bool) (nx ny n : Nat) (t : Tree 2 (Arr 2 (ℝ × ℝ))) :
    refineLoop predicate nx ny (n + 1) t = (refineLoop predicate nx ny n t).bind fun t =>
      t.bifurcateIfMM (fun b => (centroidRadius nx ny b).map (predicate n)) (refineVertsShared ℝ) := rfl

theorem createVertexQuadtree_eq (sh : Nat → Outcome Nat) (predicate : Nat → ℝ → Bool) (nx ny depth fuel : Nat) :
    createVertexQuadtree sh predicate nx ny depth fuel = (rootBlock nx ny).bind fun b =>
      (refineLoop predicate nx ny depth (.leaf b)).bind fun t => ensureValidQuadtree sh (refineVertsShared ℝ) fuel t := rfl

/-- The division of a block keeps the shape. -/
theorem refineVertsShared_shape [Inhabited K] (h2 : (2 : k) ≠ 0) {b : Arr 2 K} {s : Ix 2} {f : Ix 2 → K}
    (hb : Denotes b s f) (hs : ∀ a, 1 ≤ s a) (hc : count s < 2 ^ 31) :
    ∃ c, refineVertsShared k b = .ok c ∧ ∀ n, ∃ g, Denotes (c n) s g := by
  have hlt := lt_of_count hs hc
  obtain ⟨P, p, h1, d1, _⟩ := prolongVerts_all h2 hb hs (fun a => by have := hlt a; omega)
  obtain ⟨c, h3, h4⟩ := refineVertsShared_denotes h1 d1 hs hc
  exact ⟨c, h3, fun n => ⟨_, h4 n⟩⟩

/-- Prolonging a block whose components depend on one axis each, linearly. -/
theorem prolong_grid {A : Arr 2 (ℝ × ℝ)} {s : Ix 2} (a0 b0 a1 b1 : ℝ)
    (hA : Denotes A s fun p => (a0 + b0 * p 0, a1 + b1 * p 1)) (hs : ∀ a, 1 ≤ s a) (hb : ∀ b, s b < 2 ^ 62) :
    ∃ P, forAxes (prolongVerts ℝ) 2 A = .ok P ∧
      Denotes P (fun a => 2 * s a - 1) fun p => (a0 + b0 * (p 0 / 2), a1 + b1 * (p 1 / 2)) := by
  have hh : ∀ (n : Nat), ((n / 2 : Nat) : ℝ) + ((n / 2 + n % 2 : Nat) : ℝ) = n := by
    intro n
    rw [← Nat.cast_add]
    congr 1
    omega
  obtain ⟨P0, h0, d0⟩ := prolongVerts_denotes (k := ℝ) hA 0 (hs 0) (by have := hb 0; omega)
  obtain ⟨P1, h1, d1⟩ := prolongVerts_denotes (k := ℝ) d0 1 (by simp; exact hs 1) (by simp; have := hb 1; omega)
  refine ⟨P1, ?_, d1.congr ?_ fun p _ => ?_⟩
  · show ((forAxes (prolongVerts ℝ) 1 A).bind (prolongVerts ℝ 1)) = _
    have : forAxes (prolongVerts ℝ) 1 A = .ok P0 := by
      show ((Outcome.ok A).bind (prolongVerts ℝ 0)) = _
      rw [Outcome.bind_ok]; exact h0
    rw [this, Outcome.bind_ok]; exact h1
  · funext a
    match a with
    | 0 => simp
    | 1 => simp
  · have e0 := hh (p 0)
    have e1 := hh (p 1)
    ext
    · simp only [Prod.smul_mk, Prod.mk_add_mk, smul_eq_mul]
      simp
      push_cast at e0
      linear_combination (1 / 2 * b0) * e0
    · simp only [Prod.smul_mk, Prod.mk_add_mk, smul_eq_mul]
      simp
      push_cast at e1
      linear_combination (1 / 2 * b1) * e1

theorem grid_affine (nx : Nat) (c l : Nat) (p : ℝ) :
    -1 + 2 * ((c : ℝ) + p / nx) / 2 ^ l = (-1 + 2 * (c : ℝ) / 2 ^ l) + (2 / (nx * 2 ^ l)) * p := by
  by_cases h : (nx : ℝ) = 0
  · simp [h]
  · field_simp
    ring

/-- Dividing a grid gives the grids of the children. -/
theorem refine_grid {nx ny : Nat} (hx : 1 ≤ nx) (hy : 1 ≤ ny) (hc : (nx + 1) * (ny + 1) < 2 ^ 31) {i : Index 2}
    {b : Arr 2 (ℝ × ℝ)} (hb : IsGrid nx ny i b) :
    ∃ P p, forAxes (prolongVerts ℝ) 2 b = .ok P ∧ Denotes P (fun a => 2 * (![nx + 1, ny + 1] : Ix 2) a - 1) p ∧
      ∀ (n : Nat) (C : Arr 2 (ℝ × ℝ)), Denotes C ![nx + 1, ny + 1]
        (fun q => p fun a => q a + if n.testBit a then (![nx + 1, ny + 1] : Ix 2) a - 1 else 0) →
        IsGrid nx ny (i.child n) C := by
  have hs : ∀ a, 1 ≤ (![nx + 1, ny + 1] : Ix 2) a := by
    intro a; match a with
    | 0 => simp
    | 1 => simp
  have hcount : count (![nx + 1, ny + 1] : Ix 2) < 2 ^ 31 := by unfold count; simpa using hc
  have hlt := lt_of_count hs hcount
  have hb' : Denotes b ![nx + 1, ny + 1] fun p =>
      ((-1 + 2 * (i.coords 0 : ℝ) / 2 ^ i.level) + (2 / (nx * 2 ^ i.level)) * p 0,
       (-1 + 2 * (i.coords 1 : ℝ) / 2 ^ i.level) + (2 / (ny * 2 ^ i.level)) * p 1) :=
    hb.congr rfl fun p _ => by rw [grid_affine, grid_affine]
  obtain ⟨P, h1, d1⟩ := prolong_grid _ _ _ _ hb' hs (fun a => by have := hlt a; omega)
  refine ⟨P, _, h1, d1, fun n C hC => hC.congr rfl fun q _ => ?_⟩
  have hx0 : (nx : ℝ) ≠ 0 := by positivity
  have hy0 : (ny : ℝ) ≠ 0 := by positivity
  ext
  · show _ = -1 + 2 * (((2 * i.coords 0 + (n.testBit 0).toNat : Nat) : ℝ) + q 0 / nx) / 2 ^ (i.level + 1)
    simp only [Fin.val_zero]
    by_cases h : n.testBit 0 = true <;> simp [h] <;> field_simp <;> ring
  · show _ = -1 + 2 * (((2 * i.coords 1 + (n.testBit 1).toNat : Nat) : ℝ) + q 1 / ny) / 2 ^ (i.level + 1)
    simp only [Fin.val_one]
    by_cases h : n.testBit 1 = true <;> simp [h] <;> field_simp <;> ring

end Verif.Tree
