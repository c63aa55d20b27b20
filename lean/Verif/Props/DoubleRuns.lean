import Verif.Lemmas.Double
import Verif.Lemmas.RunsExist
import Verif.Lemmas.Counted
import Verif.Props.Schedule

/-!
# Clock and outputs in double precision

C120.  The clock and the schedule of a run with the rounding of `double`.
-/

namespace Verif.Double
open Verif Verif.Text Verif.Config Verif.Sched Verif.Runs

variable {R : Rounding}

namespace Dbl

theorem add_val (a b : Dbl R) : (a + b).val = R.rnd (a.val + b.val) := rfl
theorem sub_val (a b : Dbl R) : (a - b).val = R.rnd (a.val - b.val) := rfl
theorem zero_val : (0 : Dbl R).val = 0 := rfl
theorem lt_iff (a b : Dbl R) : a < b ↔ a.val < b.val := Iff.rfl
theorem le_iff (a b : Dbl R) : a ≤ b ↔ a.val ≤ b.val := Iff.rfl

theorem zero_add_zero : (0 : Dbl R) + 0 = 0 := by
  apply Dbl.ext
  rw [add_val, zero_val, add_zero]
  exact R.rnd_double isDouble_zero

/-- Sums are rounded by at most one part in 2^53. -/
theorem add_bounds (a b : Dbl R) (h : 0 ≤ a.val + b.val) :
    (a.val + b.val) * (1 - 1 / 2 ^ 53) ≤ (a + b).val ∧ (a + b).val ≤ (a.val + b.val) * (1 + 1 / 2 ^ 53) := by
  have := R.error_add a.isDouble b.isDouble
  rw [abs_of_nonneg h, abs_le] at this
  rw [add_val]
  constructor
  · linarith [this.1]
  · linarith [this.2]

end Dbl

/-- **C120**: a clock that has got to 2^54 steps stands still. -/
theorem clock_stalls (t dt : Dbl R) (h0 : 0 ≤ dt.val) (h : 2 ^ 54 * dt.val ≤ t.val) : t + dt = t := by
  apply Dbl.ext
  rw [Dbl.add_val]
  have hn := R.nearest (t.val + dt.val) t.val t.isDouble
  rw [show t.val - (t.val + dt.val) = -dt.val by ring, abs_neg, abs_of_nonneg h0, abs_le] at hn
  rcases lt_trichotomy (R.rnd (t.val + dt.val)) t.val with hlt | heq | hgt
  · linarith [hn.1]
  · exact heq
  · have := gap t.isDouble (R.isDouble (t.val + dt.val)) hgt
    rw [div_lt_iff₀ (by positivity)] at this
    have h2 := hn.2
    nlinarith

/-- What the clock shows after a number of steps. -/
noncomputable def ticks (t dt : Dbl R) (i : Nat) : Dbl R := (fun t => t + dt)^[i] t

/-- A clock that is asked to go further than 2^55 steps never gets there. -/
theorem ticks_never {t dt tf : Dbl R} (hd : 0 < dt.val) (h0 : 0 ≤ t.val) (ht : t < tf) (h : 2 ^ 55 * dt.val < tf.val) (i : Nat) : ticks t dt i < tf := by
  suffices ∀ i, 0 ≤ (ticks t dt i).val ∧ (ticks t dt i).val < tf.val from (this i).2
  intro i
  induction i with
  | zero => exact ⟨h0, ht⟩
  | succ i ih =>
    obtain ⟨a, b⟩ := ih
    rw [ticks, Function.iterate_succ_apply']
    change 0 ≤ (ticks t dt i + dt).val ∧ (ticks t dt i + dt).val < tf.val
    generalize ticks t dt i = s at a b
    by_cases hs : 2 ^ 54 * dt.val ≤ s.val
    · rw [clock_stalls s dt hd.le hs]
      exact ⟨a, b⟩
    · push Not at hs
      obtain ⟨h1, h2⟩ := Dbl.add_bounds s dt (by linarith)
      constructor
      · exact le_trans (mul_nonneg (by linarith) (by norm_num)) h1
      · refine lt_of_le_of_lt (h2.trans ?_) h
        nlinarith

/-- A clock that is asked to go no further than 2^52 steps gets there. -/
theorem ticks_arrive {t dt tf : Dbl R} (hd : 0 < dt.val) (h0 : 0 ≤ t.val) (h : tf.val ≤ 2 ^ 52 * dt.val) :
    ∃ N, (∀ i < N, ticks t dt i < tf) ∧ tf ≤ ticks t dt N ∧ tf.val - t.val ≤ N * (dt.val + (tf.val + dt.val) / 2 ^ 53) ∧
      (N = 0 ∨ (N - 1) * (dt.val - (tf.val + dt.val) / 2 ^ 53) < tf.val - t.val) := by
  set δ := (tf.val + dt.val) / 2 ^ 53 with hδ
  have hδd : δ < dt.val := by
    rw [hδ, div_lt_iff₀ (by positivity)]
    nlinarith
  have step : ∀ s : Dbl R, 0 ≤ s.val → s < tf → s.val + (dt.val - δ) ≤ (s + dt).val ∧ (s + dt).val ≤ s.val + (dt.val + δ) := by
    intro s hs hlt
    have hlt' : s.val < tf.val := hlt
    obtain ⟨h1, h2⟩ := Dbl.add_bounds s dt (by linarith)
    have : (s.val + dt.val) / 2 ^ 53 ≤ δ := by
      rw [hδ]
      gcongr
    constructor
    · linarith
    · linarith
  have bounds : ∀ i, (∀ j < i, ticks t dt j < tf) → t.val + i * (dt.val - δ) ≤ (ticks t dt i).val ∧ (ticks t dt i).val ≤ t.val + i * (dt.val + δ) ∧
      0 ≤ (ticks t dt i).val := by
    intro i
    induction i with
    | zero => exact fun _ => ⟨by simp [ticks], by simp [ticks], h0⟩
    | succ i ih =>
      intro hi
      obtain ⟨a, b, c⟩ := ih fun j hj => hi j (by omega)
      have e : ticks t dt (i + 1) = ticks t dt i + dt := by rw [ticks, Function.iterate_succ_apply']; rfl
      obtain ⟨f, g⟩ := step _ c (hi i (by omega))
      rw [e]
      push_cast
      refine ⟨by linarith, by linarith, by linarith⟩
  have hex : ∃ N, tf ≤ ticks t dt N := by
    by_contra hno
    push Not at hno
    obtain ⟨n, hn⟩ := exists_nat_gt ((tf.val - t.val) / (dt.val - δ))
    rw [div_lt_iff₀ (by linarith)] at hn
    have h1 := (bounds n fun j _ => hno j).1
    have h2 : (ticks t dt n).val < tf.val := hno n
    linarith
  classical
  refine ⟨Nat.find hex, fun i hi => not_le.1 (Nat.find_min hex hi), Nat.find_spec hex, ?_, ?_⟩
  · have h1 := (bounds (Nat.find hex) fun i hi => not_le.1 (Nat.find_min hex hi)).2.1
    have h2 : tf.val ≤ (ticks t dt (Nat.find hex)).val := Nat.find_spec hex
    linarith
  · rcases Nat.eq_zero_or_pos (Nat.find hex) with h | hp
    · exact Or.inl h
    · right
      have h1 := (bounds (Nat.find hex - 1) fun i hi => not_le.1 (Nat.find_min hex (by omega))).1
      have h2 : (ticks t dt (Nat.find hex - 1)).val < tf.val := not_le.1 (Nat.find_min hex (by omega))
      rw [Nat.cast_sub (by omega), Nat.cast_one] at h1
      linarith

section Clock

variable {σ D : Type} {e : App.Env σ (Dbl R) D} {k : App.Kind} {cfg : Config (Dbl R)} {w : App.World σ (Dbl R) D} {tf dt : Dbl R}

theorem go_eq (h : App.Ready k cfg w.1) (ht : cfg.getDouble kTfinal = .ok tf) :
    App.shouldContinue e w.1 = .ok (decide (e.time w.1.solution < tf)) := by
  rw [App.shouldContinue, h.config, ht, Outcome.map_ok]

theorem body_clock (hint : ∀ p ∈ App.cadences k, ∃ x, cfg.getDouble p.2 = .ok x)
    (hout : k ≠ .boilerplate → ∃ d, cfg.getString kOutdir = .ok d) (Inv : σ → Prop)
    (hstep : ∀ s, Inv s → ∃ s', e.advance cfg s = .ok s' ∧ Inv s' ∧ e.time s' = e.time s + dt) (w : App.World σ (Dbl R) D)
    (h : App.Ready k cfg w.1 ∧ Inv w.1.solution) :
    ∃ w', App.body e k w = .ok w' ∧ (App.Ready k cfg w'.1 ∧ Inv w'.1.solution) ∧ e.time w'.1.solution = e.time w.1.solution + dt := by
  obtain ⟨s', a, b, c⟩ := hstep _ h.2
  obtain ⟨w', hw'⟩ := App.body_exists h.1 hint hout a
  obtain ⟨f, g⟩ := App.body_ready h.1 hw'
  have := Outcome.ok.inj (a.symm.trans g)
  subst this
  exact ⟨w', hw', ⟨f, b⟩, c⟩

/-- **C120**: in double precision a run whose steps succeed comes to its end if the final time is no more than 2^52 steps.  The number of passes of the loop
is that of exact arithmetic, but for a relative error of the time steps of (final time / dt + 1) / 2^53. -/
theorem run_ends (hw : App.Ready k cfg w.1) (ht : cfg.getDouble kTfinal = .ok tf) (hint : ∀ p ∈ App.cadences k, ∃ x, cfg.getDouble p.2 = .ok x)
    (hout : k ≠ .boilerplate → ∃ d, cfg.getString kOutdir = .ok d) (Inv : σ → Prop) (hI : Inv w.1.solution)
    (hstep : ∀ s, Inv s → ∃ s', e.advance cfg s = .ok s' ∧ Inv s' ∧ e.time s' = e.time s + dt)
    (hd : 0 < dt.val) (h0 : 0 ≤ (e.time w.1.solution).val) (h : tf.val ≤ 2 ^ 52 * dt.val) :
    ∃ N w', App.finish e k w = .ok (N, w') ∧ Inv w'.1.solution ∧
      tf.val - (e.time w.1.solution).val ≤ N * (dt.val + (tf.val + dt.val) / 2 ^ 53) ∧
      (N = 0 ∨ (N - 1) * (dt.val - (tf.val + dt.val) / 2 ^ 53) < tf.val - (e.time w.1.solution).val) := by
  obtain ⟨N, n1, n2, n3, n4⟩ := ticks_arrive hd h0 h
  obtain ⟨v, v0, vb, vp, hv⟩ := Loop.counted_ok (body := App.body e k) (fun w : App.World σ (Dbl R) D => App.Ready k cfg w.1 ∧ Inv w.1.solution)
    (fun w => e.time w.1.solution) (fun t => t + dt) tf (fun w h => go_eq (e := e) h.1 ht) (body_clock hint hout Inv hstep) ⟨hw, hI⟩ n1 n2
  refine ⟨N, v (N + 1), ?_, (vp _).1.2, n3, n4⟩
  rw [App.finish, hv, Outcome.bind_ok]
  dsimp only
  rw [vb, Outcome.map_ok]

/-- **C120, violated** for long runs: if the final time is more than 2^55 steps, the clock stands still before it, and the run never comes to its end though
all of its steps succeed. -/
theorem run_ends_violated (hw : App.Ready k cfg w.1) (ht : cfg.getDouble kTfinal = .ok tf) (hint : ∀ p ∈ App.cadences k, ∃ x, cfg.getDouble p.2 = .ok x)
    (hout : k ≠ .boilerplate → ∃ d, cfg.getString kOutdir = .ok d) (Inv : σ → Prop) (hI : Inv w.1.solution)
    (hstep : ∀ s, Inv s → ∃ s', e.advance cfg s = .ok s' ∧ Inv s' ∧ e.time s' = e.time s + dt)
    (hd : 0 < dt.val) (h0 : 0 ≤ (e.time w.1.solution).val) (hlt : e.time w.1.solution < tf) (h : 2 ^ 55 * dt.val < tf.val) :
    App.finish e k w = .diverges := by
  rw [App.finish, Loop.counted_forever (body := App.body e k) (fun w : App.World σ (Dbl R) D => App.Ready k cfg w.1 ∧ Inv w.1.solution)
    (fun w => e.time w.1.solution) (fun t => t + dt) tf (fun w h => go_eq (e := e) h.1 ht) (body_clock hint hout Inv hstep) ⟨hw, hI⟩
    (ticks_never hd h0 hlt h)]
  rfl

end Clock

/-! ### Outputs -/

/-- The nominal time of an output. -/
noncomputable def nominal (d : Dbl R) (c : Nat) : Dbl R := ticks 0 d c

theorem nominal_succ (d : Dbl R) (c : Nat) : nominal d (c + 1) = nominal d c + d := by
  rw [nominal, ticks, Function.iterate_succ_apply']
  rfl

theorem nominal_bounds (d : Dbl R) (hd : 0 < d.val) (c : Nat) :
    c * d.val * (1 - 1 / 2 ^ 53) ^ c ≤ (nominal d c).val ∧ (nominal d c).val ≤ c * d.val * (1 + 1 / 2 ^ 53) ^ c := by
  induction c with
  | zero => simp [nominal, ticks, Dbl.zero_val]
  | succ c ih =>
    obtain ⟨a, b⟩ := ih
    rw [nominal_succ]
    generalize nominal d c = s at a b
    have hc : (0 : ℝ) ≤ c := Nat.cast_nonneg c
    have p1 : (0 : ℝ) ≤ (1 - 1 / 2 ^ 53) ^ c := pow_nonneg (by norm_num) c
    have p1' : (1 - 1 / 2 ^ 53 : ℝ) ^ c ≤ 1 := pow_le_one₀ (by norm_num) (by norm_num)
    have p2 : (1 : ℝ) ≤ (1 + 1 / 2 ^ 53) ^ c := one_le_pow₀ (by norm_num)
    have hs : 0 ≤ s.val := le_trans (mul_nonneg (mul_nonneg hc hd.le) p1) a
    obtain ⟨h1, h2⟩ := Dbl.add_bounds s d (by linarith)
    push_cast
    constructor
    · refine le_trans ?_ h1
      rw [pow_succ, ← mul_assoc]
      refine mul_le_mul_of_nonneg_right ?_ (by norm_num)
      nlinarith
    · refine le_trans h2 ?_
      rw [pow_succ (1 + 1 / 2 ^ 53 : ℝ) c, ← mul_assoc]
      refine mul_le_mul_of_nonneg_right ?_ (by norm_num)
      nlinarith

theorem low_pow (c : Nat) : 1 - (c : ℝ) / 2 ^ 53 ≤ (1 - 1 / 2 ^ 53) ^ c := by
  have := one_add_mul_le_pow (a := (-(1 / 2 ^ 53) : ℝ)) (by norm_num) c
  refine le_trans (le_of_eq ?_) (this.trans (le_of_eq ?_)) <;> ring

theorem high_pow (c : Nat) (h : c ≤ 2 ^ 51) : (1 + 1 / 2 ^ 53 : ℝ) ^ c ≤ 1 + c / 2 ^ 52 := by
  have h1 := low_pow c
  have h2 : (1 + 1 / 2 ^ 53 : ℝ) ^ c * (1 - 1 / 2 ^ 53) ^ c ≤ 1 := by
    rw [← mul_pow]
    exact pow_le_one₀ (by norm_num) (by norm_num)
  have hp : (0 : ℝ) < (1 + 1 / 2 ^ 53) ^ c := by positivity
  have hx : (c : ℝ) / 2 ^ 53 ≤ 1 / 4 := by
    have : (c : ℝ) ≤ 2 ^ 51 := by exact_mod_cast h
    rw [div_le_iff₀ (by positivity)]
    linarith
  have h3 : (1 + 1 / 2 ^ 53 : ℝ) ^ c * (1 - c / 2 ^ 53) ≤ 1 := le_trans (mul_le_mul_of_nonneg_left h1 hp.le) h2
  have hx0 : (0 : ℝ) ≤ c / 2 ^ 53 := by positivity
  rw [show (c : ℝ) / 2 ^ 52 = 2 * (c / 2 ^ 53) by ring]
  generalize (c : ℝ) / 2 ^ 53 = x at *
  generalize (1 + 1 / 2 ^ 53 : ℝ) ^ c = y at *
  have h4 : 1 ≤ (1 + 2 * x) * (1 - x) := by nlinarith
  have h5 : y * (1 - x) ≤ (1 + 2 * x) * (1 - x) := h3.trans h4
  exact le_of_mul_le_mul_right h5 (by linarith)

theorem due_iff {T L d : Dbl R} (hd : 0 < d.val) :
    (T - L ≥ d → 0 ≤ T.val - L.val ∧ d.val ≤ (T.val - L.val) * (1 + 1 / 2 ^ 53)) ∧ (¬ T - L ≥ d → T.val - L.val < d.val) := by
  constructor
  · intro h
    have h : d.val ≤ R.rnd (T.val - L.val) := h
    have he := R.error_sub T.isDouble L.isDouble
    rw [abs_le] at he
    by_cases hx : 0 ≤ T.val - L.val
    · rw [abs_of_nonneg hx] at he
      exact ⟨hx, by linarith [he.2]⟩
    · push Not at hx
      rw [abs_of_neg hx] at he
      have := he.2
      exfalso
      have h3 : (T.val - L.val) * (1 - 1 / 2 ^ 53) < 0 := mul_neg_of_neg_of_pos hx (by norm_num)
      linarith
  · intro h
    by_contra hc
    push Not at hc
    apply h
    have := R.mono hc
    rw [R.rnd_double d.isDouble] at this
    exact this

/-- The record of a task in double precision. -/
theorem rounds_double {d : Dbl R} {T : Nat → Dbl R} {t : Nat → TaskRec (Dbl R)} {n : Nat} (h : Rounds d T t n) (hd : 0 < d.val) (h0 : 0 ≤ (T 0).val)
    (h0' : (T 0).val < d.val) (hT : ∀ i < n, (T i).val ≤ (T (i + 1)).val ∧ (T (i + 1)).val ≤ (T i).val + d.val / 2)
    (hmax : ∀ i < n, (T i).val ≤ 2 ^ 50 * d.val) {i : Nat} (hi : i < n) :
    ∃ c : Nat, (t (i + 1)).num = c + 1 ∧ c ≤ 2 ^ 51 ∧ c * d.val * (1 - c / 2 ^ 53) ≤ (T i).val ∧ (T i).val < (c + 1) * d.val * (1 + c / 2 ^ 52) := by
  have key : ∀ i < n, ∃ c : Nat, (t (i + 1)).due = false ∧ (t (i + 1)).num = c + 1 ∧ (t (i + 1)).last = nominal d c ∧ c ≤ 2 ^ 51 ∧
      c * d.val * (1 - 1 / 2 ^ 53) ^ c ≤ (T i).val ∧ (T i).val - (nominal d c).val < d.val := by
    intro i
    induction i with
    | zero =>
      intro hi
      obtain ⟨a, b, c⟩ := h.first
      have hn : ¬ T 0 - (t 0).last ≥ d := by
        intro hc
        have hc : d.val ≤ R.rnd ((T 0).val - (t 0).last.val) := hc
        rw [c, Dbl.zero_val, sub_zero, R.rnd_double (T 0).isDouble] at hc
        linarith
      rw [h.step 0 hi, if_neg hn, fin_of_not_due a]
      refine ⟨0, a, b, c, by norm_num, by simpa using h0, ?_⟩
      show (T 0).val - (0 : Dbl R).val < d.val
      rw [Dbl.zero_val]
      linarith
    | succ i ih =>
      intro hi
      obtain ⟨c, a1, a2, a3, a4, a5, a6⟩ := ih (by omega)
      obtain ⟨T1, T2⟩ := hT i (by omega)
      obtain ⟨L1, L2⟩ := nominal_bounds d hd c
      have hc0 : (0 : ℝ) ≤ c := Nat.cast_nonneg c
      have p1 : (0 : ℝ) ≤ (1 - 1 / 2 ^ 53) ^ c := pow_nonneg (by norm_num) c
      have L0 : 0 ≤ (nominal d c).val := le_trans (mul_nonneg (mul_nonneg hc0 hd.le) p1) L1
      obtain ⟨d1, d2⟩ := due_iff (T := T (i + 1)) (L := nominal d c) hd
      rw [h.step (i + 1) hi, a3]
      by_cases hdue : T (i + 1) - nominal d c ≥ d
      · obtain ⟨x0, x1⟩ := d1 hdue
        rw [if_pos hdue]
        have hlow : ((c + 1 : Nat) : ℝ) * d.val * (1 - 1 / 2 ^ 53) ^ (c + 1) ≤ (T (i + 1)).val := by
          have hs : d.val * (1 - 1 / 2 ^ 53) ≤ (T (i + 1)).val - (nominal d c).val := by
            have := mul_le_mul_of_nonneg_right x1 (show (0 : ℝ) ≤ 1 - 1 / 2 ^ 53 by norm_num)
            have h2 : ((T (i + 1)).val - (nominal d c).val) * (1 + 1 / 2 ^ 53) * (1 - 1 / 2 ^ 53) ≤ (T (i + 1)).val - (nominal d c).val := by
              nlinarith
            linarith
          have p1' : (1 - 1 / 2 ^ 53 : ℝ) ^ c ≤ 1 := pow_le_one₀ (by norm_num) (by norm_num)
          have e1 : (c : ℝ) * d.val * ((1 - 1 / 2 ^ 53) ^ c * (1 - 1 / 2 ^ 53)) ≤ c * d.val * (1 - 1 / 2 ^ 53) ^ c := by
            refine mul_le_mul_of_nonneg_left ?_ (mul_nonneg hc0 hd.le)
            nlinarith
          have e2 : d.val * ((1 - 1 / 2 ^ 53) ^ c * (1 - 1 / 2 ^ 53)) ≤ d.val * (1 - 1 / 2 ^ 53) := by
            refine mul_le_mul_of_nonneg_left ?_ hd.le
            nlinarith
          rw [pow_succ]
          push_cast
          nlinarith
        refine ⟨c + 1, fin_due _, ?_, ?_, ?_, hlow, ?_⟩
        · rw [fin_num]
          simp [a2]
        · rw [fin_last, nominal_succ]
        · -- the count is small
          have hl := low_pow (c + 1)
          have hm := hmax (i + 1) hi
          have hc51 : (c : ℝ) ≤ 2 ^ 51 := by exact_mod_cast a4
          have hcd : 0 ≤ ((c + 1 : Nat) : ℝ) * d.val := by positivity
          have h1 : ((c + 1 : Nat) : ℝ) * d.val * (1 - ((c + 1 : Nat) : ℝ) / 2 ^ 53) ≤ 2 ^ 50 * d.val :=
            (mul_le_mul_of_nonneg_left hl hcd).trans (hlow.trans hm)
          have h2 : ((c + 1 : Nat) : ℝ) / 2 ^ 53 ≤ 3 / 8 := by
            push_cast
            rw [div_le_iff₀ (by positivity)]
            linarith
          have h3 : ((c + 1 : Nat) : ℝ) * d.val * (5 / 8) ≤ 2 ^ 50 * d.val := by
            refine le_trans (mul_le_mul_of_nonneg_left ?_ hcd) h1
            linarith
          have h4 : ((c + 1 : Nat) : ℝ) * (5 / 8) ≤ 2 ^ 50 := by
            refine le_of_mul_le_mul_right ?_ hd
            linarith
          have h5 : ((c + 1 : Nat) : ℝ) ≤ 2 ^ 51 := by linarith
          exact_mod_cast h5
        · rw [nominal_succ]
          obtain ⟨b1, -⟩ := Dbl.add_bounds (nominal d c) d (by linarith)
          have hm := hmax (i + 1) hi
          have : (nominal d c).val + d.val ≤ 2 ^ 52 * d.val := by
            nlinarith
          linarith
      · rw [if_neg hdue, fin_of_not_due a1]
        exact ⟨c, a1, a2, a3, a4, a5.trans T1, d2 hdue⟩
  obtain ⟨c, -, b, -, hc, b1, b2⟩ := key i hi
  have hc0 : (0 : ℝ) ≤ c := Nat.cast_nonneg c
  refine ⟨c, b, hc, le_trans (mul_le_mul_of_nonneg_left (low_pow c) (mul_nonneg hc0 hd.le)) b1, ?_⟩
  have h1 := (nominal_bounds d hd c).2
  have h2 := mul_le_mul_of_nonneg_left (high_pow c hc) (mul_nonneg hc0 hd.le)
  have h3 : 0 ≤ d.val * (c / 2 ^ 52) := mul_nonneg hd.le (by positivity)
  nlinarith

/-- **C120** for the binary program in double precision, with time steps of at most half an interval and up to 2^50 intervals: the number of outputs at any time
is that of whole intervals, but for an error of the intervals of at most one part in 2^52 for every output so far.  In particular an output is never early by
more than that, and never late by more than that and one step. -/
theorem binary_cadence {σ μ D : Type} {e : Binary.Env σ (Dbl R) μ D} {fresh : Config (Dbl R) → Outcome σ} {fs : Str → Option (Checkpoint σ (Dbl R) μ)}
    {cfg : Config (Dbl R)} {s0 : Binary.State σ (Dbl R) μ} {w : Nat → Binary.World σ (Dbl R) μ D} {n : Nat} (hfresh : cfg.getString kRestart = .ok [])
    (h0 : Binary.createState fresh fs cfg = .ok s0) (h1 : Binary.runTasks e (s0, []) = .ok (w 0)) (hb : ∀ i < n, Binary.body e (w i) = .ok (w (i + 1)))
    {name key : Str} (hk : (name, key) ∈ [(kCheckpoint, kCpi), (kDiagnostics, kDfi), (kRecord, kTsi)]) {x : Dbl R} (hx : cfg.getDouble key = .ok x)
    {d : ℝ} (hd : d = (x * e.twoPi).val) (hpos : 0 < d) {T : Nat → ℝ} (hT : T = fun i => (e.time (w i).1.solution).val) (ht0 : 0 ≤ T 0) (ht0' : T 0 < d)
    (hstep : ∀ i < n, T i ≤ T (i + 1) ∧ T (i + 1) ≤ T i + d / 2) (hmax : ∀ i < n, T i ≤ 2 ^ 50 * d) (i : Nat) (hi : i < n) :
    ∃ c : Nat, performed (w (i + 1)).1.schedule name = c + 1 ∧ c ≤ 2 ^ 51 ∧ c * d * (1 - c / 2 ^ 53) ≤ T i ∧ T i < (c + 1) * d * (1 + c / 2 ^ 52) := by
  subst hd hT
  obtain ⟨t, hr, hp⟩ := binary_rounds Dbl.zero_add_zero hfresh h0 h1 hb hk hx
  rw [hp (i + 1) hi]
  exact rounds_double hr hpos ht0 ht0' hstep hmax hi

/-- **C120** for the boilerplate, sedov and cloud programs. -/
theorem app_cadence {σ D : Type} {e : App.Env σ (Dbl R) D} {k : App.Kind} {fresh : Config (Dbl R) → Outcome σ}
    {fs : Str → Option (Checkpoint σ (Dbl R) Unit)} {cfg : Config (Dbl R)} {s0 : App.State σ (Dbl R)} {w : Nat → App.World σ (Dbl R) D} {n : Nat}
    (hfresh : cfg.getString kRestart = .ok []) (h0 : App.createState k fresh fs cfg = .ok s0) (h1 : App.runTasks e k (s0, []) = .ok (w 0))
    (hb : ∀ i < n, App.body e k (w i) = .ok (w (i + 1))) {name key : Str} (hk : (name, key) ∈ App.cadences k) {x : Dbl R}
    (hx : cfg.getDouble key = .ok x) (hpos : 0 < x.val) {T : Nat → ℝ} (hT : T = fun i => (e.time (w i).1.solution).val) (ht0 : 0 ≤ T 0)
    (ht0' : T 0 < x.val) (hstep : ∀ i < n, T i ≤ T (i + 1) ∧ T (i + 1) ≤ T i + x.val / 2) (hmax : ∀ i < n, T i ≤ 2 ^ 50 * x.val) (i : Nat) (hi : i < n) :
    ∃ c : Nat, performed (w (i + 1)).1.schedule name = c + 1 ∧ c ≤ 2 ^ 51 ∧ c * x.val * (1 - c / 2 ^ 53) ≤ T i ∧ T i < (c + 1) * x.val * (1 + c / 2 ^ 52) := by
  subst hT
  obtain ⟨t, hr, hp⟩ := app_rounds Dbl.zero_add_zero hfresh h0 h1 hb hk hx
  rw [hp (i + 1) hi]
  exact rounds_double hr hpos ht0 ht0' hstep hmax hi

/-! ### Examples -/

/-- A double of a small significand and exponent. -/
noncomputable def dbl (R : Rounding) (m : ℤ) (e : ℤ) (hm : |m| < 2 ^ 53) (he : -1074 ≤ e) : Dbl R := ⟨m * 2 ^ e, m, e, hm, he, rfl⟩

/-- One quarter. -/
noncomputable def quarter : Dbl R := dbl R 1 (-2) (by norm_num) (by norm_num)

/-- One. -/
noncomputable def unit : Dbl R := dbl R 1 0 (by norm_num) (by norm_num)

theorem quarter_val : (quarter : Dbl R).val = 1 / 4 := by norm_num [quarter, dbl]
theorem unit_val : (unit : Dbl R).val = 1 := by norm_num [unit, dbl]

/-- Steps of a quarter are exact for a long time. -/
theorem quarters (i : Nat) (hi : i < 2 ^ 53) : (ticks (0 : Dbl R) quarter i).val = i / 4 := by
  induction i with
  | zero => simp [ticks, Dbl.zero_val]
  | succ i ih =>
    have e : ticks (0 : Dbl R) quarter (i + 1) = ticks 0 quarter i + quarter := by rw [ticks, Function.iterate_succ_apply']; rfl
    rw [e, Dbl.add_val, ih (by omega), quarter_val, show (i : ℝ) / 4 + 1 / 4 = ((i + 1 : Nat) : ℝ) / 4 by push_cast; ring]
    refine R.rnd_double ⟨(i + 1 : Nat), -2, ?_, by norm_num, ?_⟩
    · rw [abs_of_nonneg (by positivity)]
      exact_mod_cast hi
    · norm_num
      ring

/-- `clock_stalls`: 2^54 and one. -/
example : dbl R 1 54 (by norm_num) (by norm_num) + unit = dbl R 1 54 (by norm_num) (by norm_num) :=
  clock_stalls _ _ (by rw [unit_val]; norm_num) (by rw [unit_val]; norm_num [dbl])

/-- A program with steps of a quarter. -/
noncomputable def exSteps : App.Env (Dbl R) (Dbl R) Unit := ⟨fun _ s => .ok (s + quarter), id, fun _ => (), fun _ => ()⟩

/-- Its configuration. -/
noncomputable def exOptions (tf : Dbl R) : Config (Dbl R) :=
  Template.create [(kCpi, .dbl unit), (kDfi, .dbl unit), (kOutdir, .str ".".toList), (kRestart, .str []), (kTfinal, .dbl tf), (kTsi, .dbl unit)]

theorem exOptions_int (tf : Dbl R) (k : App.Kind) : ∀ p ∈ App.cadences k, (exOptions tf).getDouble p.2 = .ok unit := by
  intro p hp
  cases k <;> simp only [App.cadences, List.mem_cons, List.not_mem_nil, or_false] at hp
  · subst hp; rfl
  · rcases hp with rfl | rfl | rfl <;> rfl
  · rcases hp with rfl | rfl | rfl <;> rfl

/-- The run of this program. -/
theorem exSteps_run (tf : Dbl R) (k : App.Kind) : ∃ (s0 : App.State (Dbl R) (Dbl R)) (w : Nat → App.World (Dbl R) (Dbl R) Unit),
    App.createState k (fun _ => .ok 0) (fun _ => none) (exOptions tf) = .ok s0 ∧ App.runTasks exSteps k (s0, []) = .ok (w 0) ∧
    (∀ i, App.body exSteps k (w i) = .ok (w (i + 1))) ∧ ∀ i, App.Ready k (exOptions tf) (w i).1 ∧ (w i).1.solution = ticks 0 quarter i := by
  obtain ⟨s0, a, b, c⟩ := App.createState_ready (k := k) (fresh := fun _ => .ok (0 : Dbl R)) (fs := fun _ => none) (cfg := exOptions tf) rfl rfl
  obtain ⟨w0, hw⟩ := App.runTasks_exists (e := exSteps) (f := []) b fun _ => ⟨".".toList, rfl⟩
  obtain ⟨d, e⟩ := App.runTasks_ready (w := (s0, [])) b hw
  have hstep := body_clock (e := exSteps) (k := k) (cfg := exOptions tf) (dt := quarter) (fun p hp => ⟨_, exOptions_int tf k p hp⟩)
    (fun _ => ⟨".".toList, rfl⟩) (fun _ => True) fun s _ => ⟨_, rfl, trivial, rfl⟩
  have e : w0.1.solution = 0 := e.trans c
  obtain ⟨v, v0, vb, vp, -⟩ := Loop.counted_ok (go := fun w : App.World (Dbl R) (Dbl R) Unit => .ok (decide (w.1.solution < 0)))
    (fun w : App.World (Dbl R) (Dbl R) Unit => App.Ready k (exOptions tf) w.1 ∧ True) (fun w => w.1.solution) (fun t => t + quarter) (0 : Dbl R) (fun _ _ => rfl)
    hstep (s := w0) (N := 0) ⟨d, trivial⟩ (fun i hi => absurd hi (by omega)) (le_of_eq e.symm)
  refine ⟨s0, v, a, by rw [v0]; exact hw, vb, fun i => ⟨(vp i).1.1, ?_⟩⟩
  rw [← e]
  exact (vp i).2

/-- `run_ends`: from 0 to 4 takes 16 or 17 passes, and `run_ends_violated`: the same program never gets to 2^60. -/
example : ∃ w : App.World (Dbl R) (Dbl R) Unit, App.Ready .sedov (exOptions (dbl R 1 2 (by norm_num) (by norm_num))) w.1 ∧ w.1.solution = 0 ∧
    ∃ N w', App.finish exSteps .sedov w = .ok (N, w') ∧ 16 ≤ N ∧ N ≤ 17 := by
  obtain ⟨s0, w, -, -, -, h⟩ := exSteps_run (dbl R 1 2 (by norm_num) (by norm_num)) .sedov
  obtain ⟨r, t⟩ := h 0
  have t : (w 0).1.solution = 0 := t
  refine ⟨w 0, r, t, ?_⟩
  have htf : (dbl R 1 2 (by norm_num) (by norm_num)).val = 4 := by norm_num [dbl]
  obtain ⟨N, w', h1, -, h3, h4⟩ := run_ends (e := exSteps) (w := w 0) (dt := quarter) r rfl (fun p hp => ⟨_, exOptions_int _ _ p hp⟩) (fun _ => ⟨".".toList, rfl⟩)
    (fun _ => True) trivial (fun s _ => ⟨_, rfl, trivial, rfl⟩) (by rw [quarter_val]; norm_num)
    (by show 0 ≤ (w 0).1.solution.val; rw [t]; exact le_rfl) (by rw [quarter_val, htf]; norm_num)
  have h3 : _ - (w 0).1.solution.val ≤ _ := h3
  have h4 : _ ∨ _ < _ - (w 0).1.solution.val := h4
  rw [t, htf, quarter_val, Dbl.zero_val] at h3 h4
  refine ⟨N, w', h1, ?_, ?_⟩
  · by_contra hc
    have : (N : ℝ) ≤ 15 := by
      have : N ≤ 15 := by omega
      exact_mod_cast this
    norm_num at h3
    linarith
  · rcases h4 with h | h
    · omega
    · by_contra hc
      have : (18 : ℝ) ≤ N := by
        have : 18 ≤ N := by omega
        exact_mod_cast this
      norm_num at h
      linarith

example : ∃ w : App.World (Dbl R) (Dbl R) Unit, App.Ready .cloud (exOptions (dbl R 1 60 (by norm_num) (by norm_num))) w.1 ∧ w.1.solution = 0 ∧
    App.finish exSteps .cloud w = .diverges := by
  obtain ⟨s0, w, -, -, -, h⟩ := exSteps_run (dbl R 1 60 (by norm_num) (by norm_num)) .cloud
  obtain ⟨r, t⟩ := h 0
  have t : (w 0).1.solution = 0 := t
  refine ⟨w 0, r, t, ?_⟩
  have htf : (dbl R 1 60 (by norm_num) (by norm_num)).val = 2 ^ 60 := by norm_num [dbl]
  refine run_ends_violated (e := exSteps) (w := w 0) (dt := quarter) r rfl (fun p hp => ⟨_, exOptions_int _ _ p hp⟩) (fun _ => ⟨".".toList, rfl⟩)
    (fun _ => True) trivial (fun s _ => ⟨_, rfl, trivial, rfl⟩) (by rw [quarter_val]; norm_num)
    (by show 0 ≤ (w 0).1.solution.val; rw [t]; exact le_rfl) ?_ (by rw [quarter_val, htf]; norm_num)
  show (w 0).1.solution < _
  rw [t, Dbl.lt_iff, htf, Dbl.zero_val]
  norm_num

/-- The conclusion of the theorems on the outputs fixes their number: at time 2.5 with intervals of one, there have been three. -/
theorem three {c : Nat} (hc : c ≤ 2 ^ 51) (h1 : (c : ℝ) * 1 * (1 - c / 2 ^ 53) ≤ 10 / 4) (h2 : (10 / 4 : ℝ) < (c + 1) * 1 * (1 + c / 2 ^ 52)) : c = 2 := by
  have h51 : (c : ℝ) ≤ 2 ^ 51 := by exact_mod_cast hc
  have h3 : (c : ℝ) < 4 := by
    by_contra hn
    push Not at hn
    have : (c : ℝ) / 2 ^ 53 ≤ 1 / 4 := by
      rw [div_le_iff₀ (by positivity)]
      linarith
    nlinarith
  have : c < 4 := by exact_mod_cast h3
  interval_cases c
  · norm_num at h2
  · norm_num at h2
  · rfl
  · norm_num at h1

/-- `app_cadence`: checkpoints in intervals of one, at time 2.5 of the program with steps of a quarter. -/
example : ∃ w : App.World (Dbl R) (Dbl R) Unit, w.1.solution.val = 11 / 4 ∧ performed w.1.schedule kCheckpoint = 3 := by
  obtain ⟨s0, w, h0, h1, hb, h⟩ := exSteps_run (R := R) unit .cloud
  have ht : ∀ i < 20, (w i).1.solution.val = i / 4 := fun i hi => by rw [(h i).2, quarters i (by omega)]
  obtain ⟨c, a, hc, b, d⟩ := app_cadence (e := exSteps) (n := 12) (T := fun i => (w i).1.solution.val) (name := kCheckpoint) (key := kCpi) rfl h0 h1 (fun i _ => hb i)
    (by decide) rfl (by rw [unit_val]; norm_num) rfl (by rw [ht 0 (by norm_num)]; norm_num) (by rw [ht 0 (by norm_num), unit_val]; norm_num)
    (fun i hi => by
      rw [ht i (by omega), ht (i + 1) (by omega), unit_val]
      push_cast
      constructor <;> linarith)
    (fun i hi => by
      rw [ht i (by omega), unit_val]
      have : (i : ℝ) < 12 := by exact_mod_cast hi
      linarith) 10 (by norm_num)
  rw [ht 10 (by norm_num), unit_val] at b d
  refine ⟨w 11, by rw [ht 11 (by norm_num)]; norm_num, ?_⟩
  rw [a, three hc (by exact_mod_cast b) (by exact_mod_cast d)]

/-- A binary program with steps of a quarter and intervals of one. -/
noncomputable def exBinary : Binary.Env (Dbl R) (Dbl R) Unit Unit := ⟨fun _ s => .ok (s + quarter), id, fun _ _ => .ok (), fun _ _ => .ok (), unit⟩

/-- `binary_cadence`: the samples of the time series at time 2.5. -/
example : ∃ w : Binary.World (Dbl R) (Dbl R) Unit Unit, w.1.solution.val = 11 / 4 ∧ performed w.1.schedule kRecord = 3 := by
  obtain ⟨s0, a, b, c⟩ := Binary.createState_ready (μ := Unit) (fresh := fun _ => .ok (0 : Dbl R)) (fs := fun _ => none) (cfg := exOptions unit) rfl rfl
  obtain ⟨w0, hw⟩ := Binary.runTasks_exists (e := exBinary) (w := (s0, [])) b (d := ".".toList) rfl ⟨_, rfl⟩ ⟨_, rfl⟩
  obtain ⟨d, e⟩ := Binary.runTasks_ready (w := (s0, [])) b hw
  have e : w0.1.solution = 0 := e.trans c
  obtain ⟨v, v0, vb, vp, -⟩ := Loop.counted_ok (go := fun w : Binary.World (Dbl R) (Dbl R) Unit Unit => .ok (decide (w.1.solution < 0))) (body := Binary.body exBinary)
    (fun w : Binary.World (Dbl R) (Dbl R) Unit Unit => Binary.Ready (exOptions unit) w.1) (fun w => w.1.solution) (fun t => t + quarter) (0 : Dbl R) (fun _ _ => rfl)
    (fun w h => by
      obtain ⟨w', hw'⟩ := Binary.body_exists (e := exBinary) h (fun key hk => ⟨unit, by
        simp only [List.mem_cons, List.not_mem_nil, or_false] at hk
        rcases hk with rfl | rfl | rfl <;> rfl⟩) (d := ".".toList) rfl (sol := w.1.solution + quarter) rfl ⟨_, rfl⟩ ⟨_, rfl⟩
      obtain ⟨r, q⟩ := Binary.body_ready h hw'
      exact ⟨w', hw', r, (Outcome.ok.inj q).symm⟩)
    (s := w0) (N := 0) d (fun i hi => absurd hi (by omega)) (le_of_eq e.symm)
  have ht : ∀ i < 20, (v i).1.solution.val = i / 4 := fun i hi => by rw [(vp i).2, e]; exact quarters i (by omega)
  have hu : (unit * exBinary.twoPi : Dbl R).val = 1 := by
    show R.rnd ((unit : Dbl R).val * (unit : Dbl R).val) = 1
    rw [unit_val, mul_one, ← unit_val (R := R)]
    exact R.rnd_double unit.isDouble
  obtain ⟨c, a, hc, b, d⟩ := binary_cadence (e := exBinary) (n := 12) (T := fun i => (v i).1.solution.val) (name := kRecord) (key := kTsi) (d := 1) rfl a (by rw [v0]; exact hw)
    (fun i _ => vb i) (by simp) rfl hu.symm one_pos rfl (by rw [ht 0 (by norm_num)]; norm_num) (by rw [ht 0 (by norm_num)]; norm_num)
    (fun i hi => by
      rw [ht i (by omega), ht (i + 1) (by omega)]
      push_cast
      constructor <;> linarith)
    (fun i hi => by
      rw [ht i (by omega)]
      have : (i : ℝ) < 12 := by exact_mod_cast hi
      linarith) 10 (by norm_num)
  rw [ht 10 (by norm_num)] at b d
  refine ⟨v 11, by rw [ht 11 (by norm_num)]; norm_num, ?_⟩
  rw [a, three hc (by exact_mod_cast b) (by exact_mod_cast d)]

end Verif.Double
