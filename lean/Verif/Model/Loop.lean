import Verif.Model.Outcome
import Mathlib.Data.Nat.Find
import Mathlib.Tactic.ByContra

/-!
# `while` loops

A loop without a bound on the number of its passes.  `run` makes at most a given number of passes; `whileLoop` is what the
loop does when it is left alone: it never exits if no number of passes is enough.
-/

namespace Verif.Loop

variable {σ : Type u} {ρ : Type v}

/-- At most `n` passes of a loop.  `step` either goes on with a new state (`inl`) or leaves the loop (`inr`). -/
def run (step : σ → Outcome (σ ⊕ ρ)) : ℕ → σ → Outcome ρ
  | 0, _ => .diverges
  | n + 1, s =>
    match step s with
    | .ok (.inl s') => run step n s'
    | .ok (.inr r) => .ok r
    | .throws e => .throws e
    | .ub => .ub
    | .diverges => .diverges

open Classical in
/-- The loop itself. -/
noncomputable def whileLoop (step : σ → Outcome (σ ⊕ ρ)) (s : σ) : Outcome ρ :=
  if h : ∃ n, run step n s ≠ .diverges then run step (Nat.find h) s else .diverges

/-- `while (go(s)) { s = body(s); }`, with a count of the passes. -/
noncomputable def counted (go : σ → Outcome Bool) (body : σ → Outcome σ) (s : σ) : Outcome (ℕ × σ) :=
  whileLoop (fun p : ℕ × σ => (go p.2).bind fun c => if c then (body p.2).map fun s' => .inl (p.1 + 1, s') else .ok (.inr p)) (0, s)

theorem run_mono (step : σ → Outcome (σ ⊕ ρ)) {n : ℕ} {s : σ} (h : run step n s ≠ .diverges) (m : ℕ) (hm : n ≤ m) :
    run step m s = run step n s := by
  induction n generalizing s m with
  | zero => exact absurd rfl h
  | succ n ih =>
    cases m with
    | zero => omega
    | succ m =>
      simp only [run] at h ⊢
      split <;> simp_all

theorem whileLoop_eq_run (step : σ → Outcome (σ ⊕ ρ)) {n : ℕ} {s : σ} (h : run step n s ≠ .diverges) :
    whileLoop step s = run step n s := by
  have hex : ∃ n, run step n s ≠ .diverges := ⟨n, h⟩
  rw [whileLoop, dif_pos hex]
  classical
  exact (run_mono step (Nat.find_spec hex) n (Nat.find_min' hex h)).symm

theorem whileLoop_diverges_iff (step : σ → Outcome (σ ⊕ ρ)) (s : σ) :
    whileLoop step s = .diverges ↔ ∀ n, run step n s = .diverges := by
  constructor
  · intro h n
    by_contra hn
    rw [whileLoop_eq_run step hn] at h
    exact hn h
  · intro h
    rw [whileLoop, dif_neg (by rintro ⟨n, hn⟩; exact hn (h n))]

theorem whileLoop_eq_ok_iff (step : σ → Outcome (σ ⊕ ρ)) (s : σ) (r : ρ) :
    whileLoop step s = .ok r ↔ ∃ n, run step n s = .ok r := by
  constructor
  · intro h
    by_contra hn
    by_cases hd : ∃ n, run step n s ≠ .diverges
    · obtain ⟨n, hd⟩ := hd
      rw [whileLoop_eq_run step hd] at h
      exact hn ⟨n, h⟩
    · rw [whileLoop, dif_neg hd] at h
      cases h
  · rintro ⟨n, hn⟩
    rw [whileLoop_eq_run step (n := n) (by rw [hn]; simp), hn]

/-- One pass, then the rest of the loop. -/
theorem whileLoop_unfold (step : σ → Outcome (σ ⊕ ρ)) (s : σ) :
    whileLoop step s = match step s with
      | .ok (.inl s') => whileLoop step s'
      | .ok (.inr r) => .ok r
      | .throws e => .throws e
      | .ub => .ub
      | .diverges => .diverges := by
  by_cases h : ∃ n, run step n s ≠ .diverges
  · obtain ⟨n, hn⟩ := h
    rw [whileLoop_eq_run step hn]
    cases n with
    | zero => exact absurd rfl hn
    | succ n =>
      simp only [run] at hn ⊢
      split <;> simp_all
      rw [whileLoop_eq_run step hn]
  · have h' : ∀ n, run step n s = .diverges := fun n => by
      by_contra hn
      exact h ⟨n, hn⟩
    rw [(whileLoop_diverges_iff step s).mpr h']
    have h1 := fun n => h' (n + 1)
    simp only [run] at h1
    split
    · rename_i s' hs
      simp only [hs] at h1
      exact ((whileLoop_diverges_iff step s').mpr h1).symm
    · rename_i r hs
      simp only [hs] at h1
      exact absurd (h1 0) (by simp)
    · rename_i e hs
      simp only [hs] at h1
      exact absurd (h1 0) (by simp)
    · rename_i hs
      simp only [hs] at h1
      exact absurd (h1 0) (by simp)
    · rfl

/-- What holds before the loop and is kept by every pass holds for the state in which the loop is left. -/
theorem whileLoop_invariant (step : σ → Outcome (σ ⊕ ρ)) (P : σ → Prop) (hstep : ∀ s s', P s → step s = .ok (.inl s') → P s')
    {s : σ} (hs : P s) {r : ρ} (h : whileLoop step s = .ok r) : ∃ s', P s' ∧ step s' = .ok (.inr r) := by
  have hex : ∃ n, run step n s ≠ .diverges := by
    by_contra hn
    have : ∀ n, run step n s = .diverges := fun n => by
      by_contra h'
      exact hn ⟨n, h'⟩
    rw [(whileLoop_diverges_iff step s).mpr this] at h
    cases h
  obtain ⟨n, hn⟩ := hex
  rw [whileLoop_eq_run step hn] at h
  clear hn
  induction n generalizing s with
  | zero => cases h
  | succ n ih =>
    simp only [run] at h
    split at h
    · rename_i s' hs'
      exact ih (hstep s s' hs hs') h
    · rename_i r' hr
      cases h
      exact ⟨s, hs, hr⟩
    all_goals cases h

/-- A loop in whose every pass a natural number falls is left after finitely many passes. -/
theorem whileLoop_terminates (step : σ → Outcome (σ ⊕ ρ)) (P : σ → Prop) (bound : σ → ℕ)
    (hstep : ∀ s, P s → (∃ r, step s = .ok (.inr r)) ∨ ∃ s', step s = .ok (.inl s') ∧ P s' ∧ bound s' < bound s)
    {s : σ} (hs : P s) : ∃ r, whileLoop step s = .ok r := by
  induction hb : bound s using Nat.strong_induction_on generalizing s with
  | _ n ih =>
    rw [whileLoop_unfold]
    rcases hstep s hs with ⟨r, hr⟩ | ⟨s', h1, h2, h3⟩
    · exact ⟨r, by rw [hr]⟩
    · rw [h1]
      exact ih (bound s') (hb ▸ h3) h2 rfl

/-- A loop that can be kept going forever is never left. -/
theorem whileLoop_forever (step : σ → Outcome (σ ⊕ ρ)) (P : σ → Prop)
    (hstep : ∀ s, P s → ∃ s', step s = .ok (.inl s') ∧ P s') {s : σ} (hs : P s) : whileLoop step s = .diverges := by
  rw [whileLoop_diverges_iff]
  intro n
  induction n generalizing s with
  | zero => rfl
  | succ n ih =>
    obtain ⟨s', h1, h2⟩ := hstep s hs
    simp only [run, h1]
    exact ih h2

end Verif.Loop
