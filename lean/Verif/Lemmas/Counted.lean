import Verif.Model.Loop
import Mathlib.Logic.Function.Iterate
import Mathlib.Algebra.Order.Floor.Semiring
import Mathlib.Tactic.Linarith
import Mathlib.Tactic.Ring

/-!
# Loops with a clock

A loop that goes on while a clock is below a bound, when every pass that succeeds advances the clock by a known function.
-/

namespace Verif.Loop

variable {σ : Type u} {τ : Type v}

/-- One pass of `counted`. -/
def cstep (go : σ → Outcome Bool) (body : σ → Outcome σ) (p : ℕ × σ) : Outcome ((ℕ × σ) ⊕ (ℕ × σ)) :=
  (go p.2).bind fun c => if c then (body p.2).map fun s' => .inl (p.1 + 1, s') else .ok (.inr p)

theorem counted_eq (go : σ → Outcome Bool) (body : σ → Outcome σ) (s : σ) : counted go body s = whileLoop (cstep go body) (0, s) := rfl

/-- A loop with a clock makes exactly as many passes as it takes the clock to get to the bound, or fails with the body in one of them. -/
theorem counted_cases [LinearOrder τ] {go : σ → Outcome Bool} {body : σ → Outcome σ} (P : σ → Prop) (T : σ → τ) (clock : τ → τ) (tf : τ)
    (hgo : ∀ s, P s → go s = .ok (decide (T s < tf)))
    (hbody : ∀ s s', P s → body s = .ok s' → P s' ∧ T s' = clock (T s)) {s : σ} (hs : P s) {N : ℕ}
    (hN : ∀ i < N, clock^[i] (T s) < tf) (hN' : tf ≤ clock^[N] (T s)) :
    ∃ (v : ℕ → σ) (j : ℕ), v 0 = s ∧ (∀ i < j, body (v i) = .ok (v (i + 1))) ∧ (∀ i ≤ j, P (v i) ∧ T (v i) = clock^[i] (T s)) ∧
      (j = N ∧ counted go body s = .ok (N, v N) ∨
        j < N ∧ (∀ s', body (v j) ≠ .ok s') ∧ counted go body s = (body (v j)).map fun s' => (0, s')) := by
  rw [counted_eq]
  suffices h : ∀ (m n : ℕ) (s : σ), P s → (∀ i < m, clock^[i] (T s) < tf) → tf ≤ clock^[m] (T s) →
      ∃ (v : ℕ → σ) (j : ℕ), v 0 = s ∧ (∀ i < j, body (v i) = .ok (v (i + 1))) ∧ (∀ i ≤ j, P (v i) ∧ T (v i) = clock^[i] (T s)) ∧
      (j = m ∧ whileLoop (cstep go body) (n, s) = .ok (n + m, v m) ∨
        j < m ∧ (∀ s', body (v j) ≠ .ok s') ∧ whileLoop (cstep go body) (n, s) = (body (v j)).map fun s' => (0, s')) by
    have := h N 0 s hs hN hN'
    simpa only [Nat.zero_add] using this
  intro m
  induction m with
  | zero =>
    intro n s hs _ h
    refine ⟨fun _ => s, 0, rfl, fun i hi => absurd hi (by omega), fun i hi => ?_, Or.inl ⟨rfl, ?_⟩⟩
    · obtain rfl : i = 0 := by omega
      exact ⟨hs, rfl⟩
    · have h' : ¬ T s < tf := not_lt.2 h
      rw [whileLoop_unfold]
      simp [cstep, hgo s hs, h']
  | succ m ih =>
    intro n s hs h1 h2
    have h0 : T s < tf := h1 0 (by omega)
    have hst : cstep go body (n, s) = (body s).map fun s' => .inl (n + 1, s') := by
      simp [cstep, hgo s hs, h0]
    by_cases hok : ∃ s', body s = .ok s'
    · obtain ⟨s', hs'⟩ := hok
      obtain ⟨hP, hT⟩ := hbody s s' hs hs'
      have it : ∀ i, clock^[i] (T s') = clock^[i + 1] (T s) := fun i => by rw [hT, Function.iterate_succ_apply]
      obtain ⟨v, j, v0, vb, vp, hv⟩ := ih (n + 1) s' hP (fun i hi => by rw [it]; exact h1 _ (by omega)) (by rw [it]; exact h2)
      refine ⟨fun i => Nat.casesOn i s fun i => v i, j + 1, rfl, fun i hi => ?_, fun i hi => ?_, ?_⟩
      · cases i with
        | zero =>
          show body s = .ok (v 0)
          rw [hs', v0]
        | succ i => exact vb i (by omega)
      · cases i with
        | zero => exact ⟨hs, rfl⟩
        | succ i =>
          obtain ⟨a, b⟩ := vp i (by omega)
          exact ⟨a, by rw [← it]; exact b⟩
      · rw [whileLoop_unfold, hst, hs', Outcome.map_ok]
        rcases hv with ⟨rfl, e⟩ | ⟨hj, e1, e2⟩
        · left
          refine ⟨rfl, ?_⟩
          show whileLoop (cstep go body) (n + 1, s') = _
          rw [e]
          congr 2
          omega
        · exact Or.inr ⟨by omega, e1, e2⟩
    · refine ⟨fun _ => s, 0, rfl, fun i hi => absurd hi (by omega), fun i hi => ?_, Or.inr ⟨by omega, fun s' h => hok ⟨s', h⟩, ?_⟩⟩
      · obtain rfl : i = 0 := by omega
        exact ⟨hs, rfl⟩
      · rw [whileLoop_unfold, hst]
        cases hb : body s with
        | ok s' => exact absurd ⟨s', hb⟩ hok
        | throws e => rfl
        | ub => rfl
        | diverges => rfl

/-- If the body never fails, it makes all of these passes, and can be run further. -/
theorem counted_ok [LinearOrder τ] {go : σ → Outcome Bool} {body : σ → Outcome σ} (P : σ → Prop) (T : σ → τ) (clock : τ → τ) (tf : τ)
    (hgo : ∀ s, P s → go s = .ok (decide (T s < tf)))
    (hbody : ∀ s, P s → ∃ s', body s = .ok s' ∧ P s' ∧ T s' = clock (T s)) {s : σ} (hs : P s) {N : ℕ}
    (hN : ∀ i < N, clock^[i] (T s) < tf) (hN' : tf ≤ clock^[N] (T s)) :
    ∃ v : ℕ → σ, v 0 = s ∧ (∀ i, body (v i) = .ok (v (i + 1))) ∧ (∀ i, P (v i) ∧ T (v i) = clock^[i] (T s)) ∧
      counted go body s = .ok (N, v N) := by
  obtain ⟨v, j, v0, vb, vp, hv⟩ := counted_cases (body := body) P T clock tf hgo (fun s s' h e => by
    obtain ⟨s'', e', h'⟩ := hbody s h
    rw [e] at e'
    cases e'
    exact h') hs hN hN'
  have hj : j = N ∧ counted go body s = .ok (N, v N) := by
    rcases hv with h | ⟨_, h, _⟩
    · exact h
    · obtain ⟨s', e, _⟩ := hbody _ (vp j le_rfl).1
      exact absurd e (h s')
  obtain ⟨rfl, hc⟩ := hj
  -- the passes after the last
  classical
  let f : σ → σ := fun s => if h : P s then (hbody s h).choose else s
  have hf : ∀ s, P s → body s = .ok (f s) ∧ P (f s) ∧ T (f s) = clock (T s) := fun s h => by
    have : f s = (hbody s h).choose := dif_pos h
    rw [this]
    exact (hbody s h).choose_spec
  have all : ∀ i, P (f^[i] s) ∧ T (f^[i] s) = clock^[i] (T s) := by
    intro i
    induction i with
    | zero => exact ⟨hs, rfl⟩
    | succ i ih =>
      rw [Function.iterate_succ_apply', Function.iterate_succ_apply']
      obtain ⟨_, b, c⟩ := hf _ ih.1
      exact ⟨b, by rw [c, ih.2]⟩
  have same : ∀ i ≤ j, v i = f^[i] s := by
    intro i
    induction i with
    | zero => exact fun _ => v0
    | succ i ih =>
      intro hi
      have h1 := vb i (by omega)
      rw [ih (by omega), (hf _ (all i).1).1] at h1
      rw [Function.iterate_succ_apply']
      exact (Outcome.ok.inj h1).symm
  refine ⟨fun i => f^[i] s, rfl, fun i => ?_, all, by rw [hc, same j le_rfl]⟩
  show body (f^[i] s) = .ok (f^[i + 1] s)
  rw [(hf _ (all i).1).1, Function.iterate_succ_apply']

/-- If the clock never gets to the bound, the loop is never left. -/
theorem counted_forever [LinearOrder τ] {go : σ → Outcome Bool} {body : σ → Outcome σ} (P : σ → Prop) (T : σ → τ) (clock : τ → τ) (tf : τ)
    (hgo : ∀ s, P s → go s = .ok (decide (T s < tf)))
    (hbody : ∀ s, P s → ∃ s', body s = .ok s' ∧ P s' ∧ T s' = clock (T s)) {s : σ} (hs : P s)
    (hN : ∀ i, clock^[i] (T s) < tf) : counted go body s = .diverges := by
  rw [counted_eq]
  refine whileLoop_forever _ (fun p => P p.2 ∧ ∀ i, clock^[i] (T p.2) < tf) (fun p hp => ?_) ⟨hs, hN⟩
  obtain ⟨s', e, hP, hT⟩ := hbody p.2 hp.1
  have h0 : T p.2 < tf := hp.2 0
  refine ⟨(p.1 + 1, s'), by simp [cstep, hgo _ hp.1, h0, e], hP, fun i => ?_⟩
  show clock^[i] (T s') < tf
  rw [hT, ← Function.iterate_succ_apply]
  exact hp.2 (i + 1)

/-- A loop whose clock advances by an amount between two bounds in every pass that succeeds. -/
theorem counted_range [Field τ] [LinearOrder τ] [IsStrictOrderedRing τ] {go : σ → Outcome Bool} {body : σ → Outcome σ} (P : σ → Prop) (T : σ → τ)
    (tf lo hi : τ) (hlo : 0 < lo) (hgo : ∀ s, P s → go s = .ok (decide (T s < tf)))
    (hbody : ∀ s s', P s → body s = .ok s' → P s' ∧ T s + lo ≤ T s' ∧ T s' ≤ T s + hi) {s : σ} (hs : P s) {N : ℕ} {s' : σ}
    (h : counted go body s = .ok (N, s')) :
    P s' ∧ tf ≤ T s' ∧ T s + N * lo ≤ T s' ∧ T s' ≤ T s + N * hi ∧ (N = 0 ∨ T s + (N - 1) * lo < tf ∧ T s' < tf + hi) := by
  rw [counted_eq] at h
  obtain ⟨⟨n, v⟩, ⟨h1, h2, h3, h4⟩, h5⟩ := whileLoop_invariant _
    (fun p : ℕ × σ => P p.2 ∧ T s + p.1 * lo ≤ T p.2 ∧ T p.2 ≤ T s + p.1 * hi ∧ (p.1 = 0 ∨ T s + (p.1 - 1) * lo < tf ∧ T p.2 < tf + hi))
    (fun p q hp hq => by
      obtain ⟨a1, a2, a3, a4⟩ := hp
      rw [cstep, hgo _ a1, Outcome.bind_ok] at hq
      by_cases hlt : T p.2 < tf
      · rw [if_pos (by simpa using hlt)] at hq
        obtain ⟨r, hr, hq⟩ := Outcome.map_eq_ok.1 hq
        cases hq
        obtain ⟨b1, b2, b3⟩ := hbody _ _ a1 hr
        dsimp only
        push_cast
        refine ⟨b1, by linarith, by linarith, .inr ⟨?_, by linarith⟩⟩
        rw [add_sub_cancel_right]
        linarith
      · rw [if_neg (by simpa using hlt)] at hq
        cases hq) ⟨hs, by simp, by simp, .inl rfl⟩ h
  rw [cstep, hgo _ h1, Outcome.bind_ok] at h5
  dsimp only at h1 h2 h3 h4 h5
  by_cases hlt : T v < tf
  · rw [if_pos (by simpa using hlt)] at h5
    obtain ⟨r, _, hq⟩ := Outcome.map_eq_ok.1 h5
    cases hq
  · rw [if_neg (by simpa using hlt)] at h5
    cases h5
    exact ⟨h1, not_lt.1 hlt, h2, h3, h4⟩

/-- Such a loop does not go on for ever, unless its body does. -/
theorem counted_ends [Field τ] [LinearOrder τ] [IsStrictOrderedRing τ] [FloorSemiring τ] {go : σ → Outcome Bool} {body : σ → Outcome σ} (P : σ → Prop)
    (T : σ → τ) (tf lo : τ) (hlo : 0 < lo) (hgo : ∀ s, P s → go s = .ok (decide (T s < tf)))
    (hbody : ∀ s s', P s → body s = .ok s' → P s' ∧ T s + lo ≤ T s') (hne : ∀ s, P s → body s ≠ .diverges) {s : σ} (hs : P s) :
    counted go body s ≠ .diverges := by
  rw [counted_eq]
  suffices key : ∀ (k n : ℕ) (s : σ), P s → tf - T s ≤ k * lo → whileLoop (cstep go body) (n, s) ≠ .diverges by
    refine key ⌈(tf - T s) / lo⌉₊ 0 s hs ?_
    rw [← div_le_iff₀ hlo]
    exact Nat.le_ceil _
  intro k
  induction k with
  | zero =>
    intro n s hs hk
    rw [whileLoop_unfold]
    have h' : ¬ T s < tf := by
      push_cast at hk
      linarith
    simp [cstep, hgo s hs, h']
  | succ k ih =>
    intro n s hs hk
    rw [whileLoop_unfold]
    by_cases hlt : T s < tf
    · have hst : cstep go body (n, s) = (body s).map fun s' => .inl (n + 1, s') := by
        simp [cstep, hgo s hs, hlt]
      rw [hst]
      cases hb : body s with
      | ok s' =>
        obtain ⟨a, b⟩ := hbody _ _ hs hb
        rw [Outcome.map_ok]
        refine ih _ _ a ?_
        push_cast at hk
        linarith
      | throws e => exact nofun
      | ub => exact nofun
      | diverges => exact absurd hb (hne s hs)
    · simp [cstep, hgo s hs, hlt]

end Verif.Loop
