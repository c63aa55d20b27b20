import Verif.Props.Srhd
import Verif.Lemmas.Newton

/-!
# Primitive from conserved quantities of a relativistic gas (C59, C83)
-/

namespace Verif.Srhd

open Geometry

/-- **C59**: whatever the input, a state that is returned has positive density and pressure, and respects the
temperature floor. -/
theorem recover_physical (U : Vec) (g T : ℝ) (Q : Vec) (h : recover U g T = .ok Q) :
    Physical Q ∧ (0 < T → T * Q 0 ≤ Q 4) := by
  unfold recover at h
  split at h
  · rename_i found p W0 _
    unfold finish at h
    dsimp only at h
    split_ifs at h with h1 h2 h3 h4
    simp only [Outcome.ok.injEq] at h
    subst h
    rw [at0] at h3
    rw [at4] at h4
    refine ⟨⟨not_le.1 h3, not_le.1 h4⟩, fun hT => ?_⟩
    rw [at0, at4]
    unfold floored
    rw [if_pos hT]
    exact le_max_right _ _
  all_goals cases h

example (Q : Vec) (h : recover ![5, 3, 4, 0, 10] (4 / 3) (1 / 2) = .ok Q) : Physical Q :=
  (recover_physical _ _ _ Q h).1

/-! ## The numbers of a step -/

/-- Where the guessed velocity is not cut off, the numbers of a step in plain terms. -/
theorem guess_eq (U : Vec) (p x y : ℝ) (hD : 0 < U 0) (hx : x = U 4 + U 0 + p) (hx0 : 0 < x) (hy : 0 < y)
    (e : y ^ 2 = x ^ 2 - momentumSquared U) (hcut : x ^ 2 ≤ 10000000000 * y ^ 2) :
    guessV2 U p = momentumSquared U / x ^ 2 ∧ guessW U p = x / y ∧ guessDh U p = y ^ 2 / x ∧
      ∀ g, guessF U g p = (g - 1) * (x - p - momentumSquared U / x - U 0 * (y / x)) - p := by
  have h1 : guessV2 U p = momentumSquared U / x ^ 2 := by
    unfold guessV2
    rw [← hx]
    refine min_eq_left ?_
    rw [div_le_iff₀ (by positivity)]
    linarith
  have h2 : 1 / (1 - guessV2 U p) = (x / y) ^ 2 := by
    rw [h1, div_pow, e, one_sub_div (by positivity), one_div_div]
  have h3 : guessW U p = x / y := by
    unfold guessW
    rw [h2]
    exact Real.sqrt_sq (by positivity)
  have h4 : U 0 / guessW U p * guessE U p = x - p - momentumSquared U / x - U 0 * (y / x) := by
    have hS : momentumSquared U = x ^ 2 - y ^ 2 := by linarith
    have h4 : U 4 = x - U 0 - p := by linarith
    unfold guessE
    rw [h2, h3, hS, h4]
    field_simp
    ring
  refine ⟨h1, h3, ?_, fun g => ?_⟩
  · unfold guessDh
    have hW : U 0 / guessW U p ≠ 0 := by rw [h3]; positivity
    rw [mul_add, mul_add, h4, mul_div_cancel₀ _ hW, h3]
    have hS : momentumSquared U = x ^ 2 - y ^ 2 := by linarith
    rw [hS]
    field_simp
    ring
  · unfold guessF
    rw [h4]
    ring

/-- The true state of a gas in plain terms. -/
theorem true_eq (P : Vec) (h : Physical P) (g : ℝ) (hg : 1 < g) :
    let U := toConserved P g
    let D := P 0 * lorentzFactor P
    let H := specificEnthalpy P g
    U 0 = D ∧ U 4 + U 0 + P 4 = D * H * lorentzFactor P ∧ 0 < D ∧ 0 < H ∧
      momentumSquared U = (D * H * lorentzFactor P) ^ 2 - (D * H) ^ 2 ∧
      g * P 4 * (D * H * lorentzFactor P) = (g - 1) * (D * H * (D * H - D)) := by
  have hW := lorentz_pos P
  have hW2 := lorentz_sq P
  have hH : 0 < specificEnthalpy P g := div_pos (enthalpy_pos h hg) h.1
  have hm : g - 1 ≠ 0 := by linarith
  have h0 := h.1
  dsimp only
  refine ⟨rfl, ?_, mul_pos h.1 hW, hH, ?_, ?_⟩
  · simp only [toConserved, at0, at4]; ring
  · simp only [momentumSquared, toConserved, at1, at2, at3]
    have : gammaBetaSquared P = lorentzFactor P ^ 2 - 1 := by linarith
    unfold gammaBetaSquared at this
    linear_combination (P 0 * lorentzFactor P * specificEnthalpy P g) ^ 2 * this
  · have : (g - 1) * (specificEnthalpy P g - 1) * P 0 = g * P 4 := by
      unfold specificEnthalpy enthalpyDensity
      field_simp
      ring
    linear_combination -(P 0 * lorentzFactor P ^ 2 * specificEnthalpy P g) * this

theorem momentum_nonneg (U : Vec) : 0 ≤ momentumSquared U :=
  add_nonneg (add_nonneg (mul_self_nonneg _) (mul_self_nonneg _)) (mul_self_nonneg _)

theorem finish_true (P : Vec) (h : Physical P) (g : ℝ) (hg : 1 < g) (T : ℝ) (hT : T * P 0 ≤ P 4) :
    finish (toConserved P g) T true (P 4) (lorentzFactor P) = .ok P := by
  have hW := lorentz_pos P
  obtain ⟨t0, t1, t2, t3, -, -⟩ := true_eq P h g hg
  have hd : toConserved P g 0 / lorentzFactor P = P 0 := by rw [t0]; field_simp
  have hfl : floored (P 4) (toConserved P g 0 / lorentzFactor P) T = P 4 := by
    rw [hd]
    unfold floored
    split_ifs
    · exact max_eq_left hT
    · rfl
  have hpos : 0 < P 0 * lorentzFactor P * specificEnthalpy P g * lorentzFactor P := by positivity
  unfold finish
  rw [hfl, hd]
  dsimp only
  rw [t1, if_neg hpos.ne', if_neg (by simp), if_neg (by rw [at0]; exact not_le.2 h.1),
    if_neg (by rw [at4]; exact not_le.2 h.2)]
  congr 1
  funext i
  revert i
  have h0 := h.1
  refine forall5 ?_ ?_ ?_ ?_ ?_ <;> simp only [toConserved, at0, at1, at2, at3, at4] <;> field_simp

/-- **C59**: the true pressure is a fixed point: an iteration that is there stops with the true state, for Lorentz
factors up to `10^5`, where the code cuts the velocity off. -/
theorem recover_fixed (P : Vec) (h : Physical P) (g : ℝ) (hg : 1 < g) (hg2 : g ≤ 2) (hW : lorentzFactor P ≤ 100000)
    (T : ℝ) (hT : T * P 0 ≤ P 4) (n : ℕ) :
    guessF (toConserved P g) g (P 4) = 0 ∧
      loop (toConserved P g) g (n + 1) (P 4) = .ok (true, P 4, lorentzFactor P) ∧
      finish (toConserved P g) T true (P 4) (lorentzFactor P) = .ok P := by
  have hWp := lorentz_pos P
  obtain ⟨t0, t1, t2, t3, t4, t5⟩ := true_eq P h g hg
  have hpos : 0 < P 0 * lorentzFactor P * specificEnthalpy P g := by positivity
  obtain ⟨g1, g2, g3, g4⟩ := guess_eq (toConserved P g) (P 4) (P 0 * lorentzFactor P * specificEnthalpy P g * lorentzFactor P)
    (P 0 * lorentzFactor P * specificEnthalpy P g) (by rw [t0]; exact t2) t1.symm (by positivity) hpos (by rw [t4]; ring) (by
      rw [mul_pow, mul_comm]
      refine mul_le_mul_of_nonneg_right ?_ (by positivity)
      nlinarith)
  have hF : guessF (toConserved P g) g (P 4) = 0 := by
    have hx : P 0 * lorentzFactor P * specificEnthalpy P g * lorentzFactor P ≠ 0 := by positivity
    rw [g4, t4, t0]
    have := t5
    generalize P 0 * lorentzFactor P = D at *
    generalize specificEnthalpy P g = H at *
    generalize lorentzFactor P = W at *
    field_simp
    field_simp at this
    linear_combination -this
  refine ⟨hF, ?_, finish_true P h g hg T hT⟩
  unfold loop
  rw [if_neg]
  · dsimp only
    rw [hF, abs_zero, if_pos (by unfold tolerance; norm_num), zero_div, sub_zero, g2]
    have : P 0 * lorentzFactor P * specificEnthalpy P g * lorentzFactor P / (P 0 * lorentzFactor P * specificEnthalpy P g) =
        lorentzFactor P := mul_div_cancel_left₀ _ hpos.ne'
    rw [this]
  · rintro (e | e | e | e)
    · rw [t1] at e
      exact absurd e (by positivity)
    · rw [t0] at e
      exact absurd e t2.ne'
    · rw [g3] at e
      exact absurd e (by positivity)
    · have hv : guessV2 (toConserved P g) (P 4) < 1 := by
        rw [g1, div_lt_one (by positivity), t4]
        linarith [sq_pos_of_pos hpos]
      have hs : g * P 4 / guessDh (toConserved P g) (P 4) = soundSpeedSquared P g := by
        have h0 := h.1
        rw [g3, soundSpeedSquared]
        congr 1
        unfold specificEnthalpy
        field_simp
      obtain ⟨s1, s2⟩ := sound_bounds h hg hg2
      have hv0 : 0 ≤ guessV2 (toConserved P g) (P 4) := by
        rw [g1]
        exact div_nonneg (momentum_nonneg _) (by positivity)
      unfold guessG at e
      rw [hs] at e
      nlinarith

example (n : ℕ) : loop (toConserved ![1, 3, 4, 0, 1] (4 / 3)) (4 / 3) (n + 1) 1 =
    .ok (true, 1, lorentzFactor ![1, 3, 4, 0, 1]) := by
  have h := (recover_fixed ![1, 3, 4, 0, 1] ⟨by rw [at0]; norm_num, by rw [at4]; norm_num⟩ (4 / 3) (by norm_num)
    (by norm_num) ?_ (1 / 2) (by rw [at0, at4]; norm_num) n).2.1
  · rwa [at4] at h
  · have h2 : lorentzFactor ![1, 3, 4, 0, 1] ^ 2 = 26 := by
      rw [lorentz_sq, gammaBetaSquared, at1, at2, at3]; norm_num
    nlinarith

/-! ## The iteration -/

/-- How far a guessed density can be below the true one, where `q` is how far the guessed pressure is. -/
theorem density_bound {k W d D q y p : ℝ} (hk : 0 < k) (hW : 1 ≤ W) (hd : 0 < d) (hDk : d * W ≤ k) (hD : d * W = D)
    (hp : 0 ≤ p) (hpt : p ≤ q) (hhalf : 2 * q ≤ k * W) (hx : 0 < k * W - q + p) (hy : 0 < y)
    (hy2 : y ^ 2 = (k * W - q + p) ^ 2 - ((k * W) ^ 2 - k ^ 2)) (hWy : W * y ≤ k * W - q + p) :
    (d - 6 * (q - p)) * (k * W - q + p) ≤ D * y := by
  subst hD
  obtain ⟨e, he⟩ : ∃ e, e = q - p := ⟨_, rfl⟩
  obtain ⟨x, hxd⟩ : ∃ x, x = k * W - e := ⟨_, rfl⟩
  have hx' : k * W - q + p = x := by rw [hxd, he]; ring
  rw [hx'] at hx hy2 hWy ⊢
  rw [← he]
  have he0 : 0 ≤ e := by linarith
  have he2 : 2 * e ≤ k * W := by linarith
  have hkW : 0 < k * W := by positivity
  -- the square of the ratio of the velocities
  have h1 : (x ^ 2 - (W * y) ^ 2) * (k * W) ≤ 6 * e * (W ^ 2 - 1) * x ^ 2 := by
    have e1 : x ^ 2 - (W * y) ^ 2 = (W ^ 2 - 1) * ((k * W) ^ 2 - x ^ 2) := by rw [mul_pow, hy2]; ring
    have e2 : ((k * W) ^ 2 - x ^ 2) * (k * W) ≤ 6 * e * x ^ 2 := by
      have : 0 ≤ e * (k * W - 2 * e) * (4 * (k * W) - 3 * e) := mul_nonneg (mul_nonneg he0 (by linarith)) (by linarith)
      rw [hxd]
      generalize k * W = K at *
      nlinarith
    rw [e1, mul_assoc]
    calc _ ≤ (W ^ 2 - 1) * (6 * e * x ^ 2) := mul_le_mul_of_nonneg_left e2 (by nlinarith)
      _ = _ := by ring
  have h2 : d * (x - W * y) ≤ 6 * e * x := by
    have a1 : (x - W * y) * x ≤ x ^ 2 - (W * y) ^ 2 := by
      have : 0 ≤ (x - W * y) * (W * y) := mul_nonneg (by linarith) (by positivity)
      nlinarith
    have a2 : (x - W * y) * x * (k * W) ≤ 6 * e * (W ^ 2 - 1) * x ^ 2 :=
      (mul_le_mul_of_nonneg_right a1 hkW.le).trans h1
    have a3 : (x - W * y) * (k * W) ≤ 6 * e * (W ^ 2 - 1) * x := by
      refine le_of_mul_le_mul_right ?_ hx
      linarith
    have a4 : d * (W ^ 2 - 1) ≤ k * W := by
      have : d * W * W ≤ k * W := mul_le_mul_of_nonneg_right hDk (by linarith)
      nlinarith
    have a5 : d * (x - W * y) * (k * W) ≤ 6 * e * x * (k * W) := by
      have b1 := mul_le_mul_of_nonneg_left a3 hd.le
      have b2 : 6 * e * x * (d * (W ^ 2 - 1)) ≤ 6 * e * x * (k * W) := mul_le_mul_of_nonneg_left a4 (by positivity)
      linarith
    exact le_of_mul_le_mul_right a5 hkW
  linarith

/-- The numbers of a step from a guess between zero and the true pressure. -/
theorem step_facts (P : Vec) (h : Physical P) (g : ℝ) (hg : 1 < g) (hg2 : g < 2)
    (hW : lorentzFactor P ^ 2 ≤ 10000000000 * (2 - g) / g) (p : ℝ) (hp : 0 ≤ p) (hpt : p ≤ P 4) :
    let U := toConserved P g
    let f := guessF U g p
    let G := guessG U g p
    0 < U 4 + U 0 + p ∧ guessDh U p ≠ 0 ∧ 0 < guessW U p ∧ lorentzFactor P ≤ guessW U p ∧
      P 0 - 6 * (P 4 - p) ≤ U 0 / guessW U p ∧ G < 0 ∧ (2 - g) * (P 4 - p) ≤ f ∧ f ≤ P 4 - p ∧ p + f ≤ p - f / G ∧ p - f / G ≤ P 4 ∧
      P 4 - (p - f / G) ≤ (g - 1) * (P 4 - p) := by
  have hWp := lorentz_pos P
  obtain ⟨t0, t1, t2, t3, t4, t5⟩ := true_eq P h g hg
  have hpos : 0 < P 0 * lorentzFactor P * specificEnthalpy P g := by positivity
  have hW1 : 1 ≤ lorentzFactor P ^ 2 := by rw [lorentz_sq]; linarith [gammaBeta_nonneg P]
  have hW1' : 1 ≤ lorentzFactor P := by nlinarith
  dsimp only
  obtain ⟨W, hWdef⟩ : ∃ W, W = lorentzFactor P := ⟨_, rfl⟩
  obtain ⟨k, hk⟩ : ∃ k, k = P 0 * lorentzFactor P * specificEnthalpy P g := ⟨_, rfl⟩
  obtain ⟨D, hD⟩ : ∃ D, D = P 0 * lorentzFactor P := ⟨_, rfl⟩
  rw [← hD] at t0 t2 t5
  have hkD : D * specificEnthalpy P g = k := by rw [hD, hk]
  rw [← hk] at t1 t4 hpos
  rw [hkD] at t5
  rw [← hWdef] at t1 t4 t5 hW hW1 hW1' hWp ⊢
  have hg0 : 0 < g := by linarith
  have hP4 := h.2
  -- the pressure against the enthalpy
  have hkgt : g * P 4 * W ≤ (g - 1) * k := by
    have : g * P 4 * W * k = (g - 1) * k * (k - D) := by linarith
    have h2 : g * P 4 * W * k ≤ (g - 1) * k * k := by
      rw [this]
      have : 0 ≤ (g - 1) * k := mul_nonneg (by linarith) hpos.le
      nlinarith
    exact le_of_mul_le_mul_right h2 hpos
  have hE : toConserved P g 4 + toConserved P g 0 = k * W - P 4 := by linarith
  have hE0 : 0 < k * W - P 4 := by
    have : P 4 * W < k * W := by
      have : g * (P 4 * W) < g * k := by nlinarith
      have := lt_of_mul_lt_mul_left this hg0.le
      nlinarith
    nlinarith
  have hx0 : 0 < k * W - P 4 + p := by linarith
  -- where the guess is not cut off
  have hcut0 : (k * W - P 4) ^ 2 ≤ 10000000000 * ((k * W - P 4) ^ 2 - ((k * W) ^ 2 - k ^ 2)) := by
    have c1 : (2 - g) / g * k ^ 2 ≤ (k * W - P 4) ^ 2 - ((k * W) ^ 2 - k ^ 2) := by
      rw [div_mul_eq_mul_div, div_le_iff₀ hg0]
      nlinarith [mul_le_mul_of_nonneg_left hkgt hpos.le, mul_pos hg0 (pow_pos hP4 2)]
    have c2 : (k * W - P 4) ^ 2 ≤ (k * W) ^ 2 := pow_le_pow_left₀ hE0.le (by linarith) 2
    have c3 : (k * W) ^ 2 ≤ 10000000000 * ((2 - g) / g * k ^ 2) := by
      have := mul_le_mul_of_nonneg_left hW (sq_nonneg k)
      rw [mul_pow]
      refine this.trans (le_of_eq ?_)
      ring
    linarith
  have hcut : (k * W - P 4 + p) ^ 2 ≤ 10000000000 * ((k * W - P 4 + p) ^ 2 - ((k * W) ^ 2 - k ^ 2)) := by
    have : (k * W - P 4) ^ 2 ≤ (k * W - P 4 + p) ^ 2 := pow_le_pow_left₀ hE0.le (by linarith) 2
    generalize (k * W - P 4 + p) ^ 2 = A at *
    generalize (k * W - P 4) ^ 2 = B at *
    linarith
  have hypos : 0 < (k * W - P 4 + p) ^ 2 - ((k * W) ^ 2 - k ^ 2) := by
    have := pow_pos hx0 2
    linarith
  obtain ⟨y, hy⟩ : ∃ y, y = Real.sqrt ((k * W - P 4 + p) ^ 2 - ((k * W) ^ 2 - k ^ 2)) := ⟨_, rfl⟩
  have hy0 : 0 < y := by rw [hy]; exact Real.sqrt_pos.2 hypos
  have hy2 : y ^ 2 = (k * W - P 4 + p) ^ 2 - ((k * W) ^ 2 - k ^ 2) := by rw [hy]; exact Real.sq_sqrt hypos.le
  obtain ⟨g1, g2, g3, g4⟩ := guess_eq (toConserved P g) p (k * W - P 4 + p) y (by rw [t0]; exact t2) (by rw [hE]) hx0 hy0
    (by rw [t4]; exact hy2) (by rw [hy2]; exact hcut)
  have hS := momentum_nonneg (toConserved P g)
  have hst := Newton.step (D := D) (S2 := momentumSquared (toConserved P g)) (g := g) (p := p) (pt := P 4)
    (x := k * W - P 4 + p) (y := y) (xt := k * W) (yt := k) hp hx0 hy0 (by positivity) hpos (by rw [t4]; exact hy2)
    (by rw [t4]; ring) (by ring) (by linarith) hpt hS t2.le hg hg2 (guessF (toConserved P g) g p)
    (guessG (toConserved P g) g p) (by rw [g4, t0]) (by unfold guessG; rw [g1, g3])
  -- the guessed velocity is at least the true one
  have hWy : W * y ≤ k * W - P 4 + p := by
    refine (sq_le_sq₀ (by positivity) hx0.le).1 ?_
    rw [mul_pow, hy2]
    have a1 : (k * W - P 4 + p) ^ 2 ≤ (k * W) ^ 2 := pow_le_pow_left₀ hx0.le (by linarith) 2
    have a2 : 0 ≤ (W ^ 2 - 1) * ((k * W) ^ 2 - (k * W - P 4 + p) ^ 2) := mul_nonneg (by linarith) (by linarith)
    linarith
  refine ⟨by rw [hE]; exact hx0, by rw [g3]; positivity, by rw [g2]; positivity, by rw [g2, le_div_iff₀ hy0]; exact hWy, ?_, hst⟩
  rw [g2, t0, div_div_eq_mul_div, le_div_iff₀ hx0]
  have hDk : D ≤ k := by
    have h1 : 0 ≤ g * P 4 * (k * W) := by positivity
    rw [t5] at h1
    have h2 : 0 ≤ k * (k - D) := nonneg_of_mul_nonneg_right h1 (by linarith only [hg])
    linarith only [nonneg_of_mul_nonneg_right h2 hpos]
  have hhalf : 2 * P 4 ≤ k * W := by
    have h1 : g * P 4 ≤ g * P 4 * W := le_mul_of_one_le_right (by positivity) hW1'
    have h2 : k ≤ k * W := le_mul_of_one_le_right hpos.le hW1'
    have h3 : (g - 1) * k ≤ g / 2 * k := mul_le_mul_of_nonneg_right (by linarith only [hg2]) hpos.le
    have h4 : 2 * P 4 ≤ k := le_of_mul_le_mul_left (by linarith only [h1, h3, hkgt] : g * (2 * P 4) ≤ g * k) hg0
    exact h4.trans h2
  have hDW : P 0 * W = D := by rw [hD, hWdef]
  exact density_bound hpos hW1' h.1 (by rw [hDW]; exact hDk) hDW hp hpt hhalf hx0 hy0 hy2 hWy

/-- The loop, started between zero and the true pressure. -/
theorem loop_facts (P : Vec) (h : Physical P) (g : ℝ) (hg : 1 < g) (hg2 : g < 2)
    (hW : lorentzFactor P ^ 2 ≤ 10000000000 * (2 - g) / g) (n : ℕ) (p : ℝ) (hp : 0 ≤ p) (hpt : p ≤ P 4) :
    ∃ found p' W', loop (toConserved P g) g n p = .ok (found, p', W') ∧ 0 ≤ p' ∧ p' ≤ P 4 ∧ 0 < W' ∧
      (found = true → 0 < p' ∧ (2 - g) * (P 4 - p') ≤ tolerance ∧ lorentzFactor P ≤ W' ∧
        P 0 - 6 * (tolerance / (2 - g)) ≤ toConserved P g 0 / W') ∧
      (0 < n → (g - 1) ^ (n - 1) * (P 4 - p) < tolerance → found = true) := by
  induction n generalizing p with
  | zero => exact ⟨false, p, 1, rfl, hp, hpt, one_pos, by simp, by simp⟩
  | succ n ih =>
    obtain ⟨s1, s2, s3, s4, sd, s5, s6, s7, s8, s9, s10⟩ := step_facts P h g hg hg2 hW p hp hpt
    have hD : toConserved P g 0 ≠ 0 := (true_eq P h g hg).1.symm ▸ (true_eq P h g hg).2.2.1.ne'
    have hf0 : 0 ≤ guessF (toConserved P g) g p := le_trans (mul_nonneg (by linarith) (by linarith)) s6
    unfold loop
    rw [if_neg (by rintro (e | e | e | e); exacts [s1.ne' e, hD e, s2 e, s5.ne e])]
    dsimp only
    by_cases hc : |guessF (toConserved P g) g p| < tolerance
    · rw [if_pos hc]
      rw [abs_of_nonneg hf0] at hc
      refine ⟨true, _, _, rfl, by linarith, s9, s3, fun _ => ⟨?_, ?_, s4, ?_⟩, fun _ _ => rfl⟩
      · by_cases e : p = P 4
        · have := h.2
          linarith
        · have : 0 < P 4 - p := lt_of_le_of_ne (by linarith) (fun h => e (by linarith))
          have : 0 < (2 - g) * (P 4 - p) := mul_pos (by linarith) this
          linarith
      · have : (2 - g) * (P 4 - (p - guessF (toConserved P g) g p / guessG (toConserved P g) g p)) ≤ (2 - g) * (P 4 - p) :=
          mul_le_mul_of_nonneg_left (by linarith) (by linarith)
        linarith
      · have : P 4 - p ≤ tolerance / (2 - g) := by
          rw [le_div_iff₀ (by linarith)]; linarith
        linarith
    · rw [if_neg hc]
      obtain ⟨found, p', W', l1, l2, l3, l4, l5, l6⟩ := ih _ (by linarith) s9
      refine ⟨found, p', W', l1, l2, l3, l4, l5, fun _ hn => ?_⟩
      rw [abs_of_nonneg hf0] at hc
      match n with
      | 0 =>
        rw [Nat.zero_add, Nat.sub_self, pow_zero, one_mul] at hn
        exact absurd (lt_of_le_of_lt s7 hn) hc
      | n + 1 =>
        refine l6 (Nat.succ_pos n) (lt_of_le_of_lt ?_ hn)
        rw [Nat.add_sub_cancel, Nat.add_sub_cancel, pow_succ, mul_assoc]
        exact mul_le_mul_of_nonneg_left s10 (pow_nonneg (by linarith) n)

/-- How much larger the recovered velocity can be. -/
theorem speed_bound {d L H W e q : ℝ} (hd : 0 < d) (hL : 0 < L) (hH : 0 < H) (hW : 0 < W) (h1 : (d - 6 * e) * W ≤ d * L)
    (h2 : d ≤ d * L * H * L) (hq : q ≤ e) (hx : 0 < d * L * H * L - q) (he : 0 ≤ e) :
    W * (d * L * H) / (d * L * H * L - q) * (d - 7 * e) ≤ d := by
  rw [div_mul_eq_mul_div, div_le_iff₀ hx]
  obtain ⟨X, hX⟩ : ∃ X, X = d * L * H * L := ⟨_, rfl⟩
  rw [← hX] at h2 hx ⊢
  by_cases hn : d - 7 * e ≤ 0
  · have : W * (d * L * H) * (d - 7 * e) ≤ 0 := mul_nonpos_of_nonneg_of_nonpos (by positivity) hn
    have : 0 ≤ d * (X - q) := by positivity
    linarith
  · rw [not_le] at hn
    -- (d - 7e) X ≤ (d - 6e) (X - e)
    have a1 : (d - 7 * e) * X ≤ (d - 6 * e) * (X - q) := by
      have : (d - 6 * e) * q ≤ (d - 6 * e) * e := mul_le_mul_of_nonneg_left hq (by linarith)
      nlinarith
    have a2 : (d - 6 * e) * W * (X - q) ≤ d * L * (X - q) := mul_le_mul_of_nonneg_right h1 hx.le
    have a3 : W * X * (d - 7 * e) ≤ d * (X - q) * L := by
      have := mul_le_mul_of_nonneg_left a1 hW.le
      linarith
    refine le_of_mul_le_mul_right ?_ hL
    calc W * (d * L * H) * (d - 7 * e) * L = W * X * (d - 7 * e) := by rw [hX]; ring
      _ ≤ _ := a3

/-- **C83**: recovery from the conserved quantities of a gas never divides by zero.  If it succeeds, the pressure is right
up to 1e-10 over `2 - g`, from below, and the density up to six times that, from below; the velocity has the right
direction and is too large by at most a fraction of seven times that over the density.  A floor of the temperature below
that of the gas makes no difference to this.  It succeeds if the pressure times `(g - 1)^49` is below 1e-10. -/
theorem recover_accurate (P : Vec) (h : Physical P) (g : ℝ) (hg : 1 < g) (hg2 : g < 2)
    (hW : lorentzFactor P ^ 2 ≤ 10000000000 * (2 - g) / g) (T : ℝ) (hT : T * P 0 ≤ P 4) :
    (recover (toConserved P g) g T = .throws .invalidArgument ∨
      ∃ Q, recover (toConserved P g) g T = .ok Q ∧ P 4 - 1 / 10 ^ 10 / (2 - g) ≤ Q 4 ∧ Q 4 ≤ P 4 ∧
        P 0 - 6 * (1 / 10 ^ 10 / (2 - g)) ≤ Q 0 ∧ Q 0 ≤ P 0 ∧
        ∃ c, Q 1 = c * P 1 ∧ Q 2 = c * P 2 ∧ Q 3 = c * P 3 ∧ 1 ≤ c ∧ c * (P 0 - 7 * (1 / 10 ^ 10 / (2 - g))) ≤ P 0) ∧
    ((g - 1) ^ 49 * P 4 < 1 / 10 ^ 10 → ∃ Q, recover (toConserved P g) g T = .ok Q) := by
  rw [show (1 / 10 ^ 10 : ℝ) = tolerance by unfold tolerance; norm_num]
  obtain ⟨found, p, W, l1, l2, l3, l4, l5, l6⟩ := loop_facts P h g hg hg2 hW 50 0 le_rfl h.2.le
  obtain ⟨t0, t1, t2, t3, -, -⟩ := true_eq P h g hg
  have hs := (step_facts P h g hg hg2 hW p l2 l3).1
  have hr : recover (toConserved P g) g T = finish (toConserved P g) T found p W := by
    unfold recover; rw [l1]
  obtain ⟨q, hq⟩ : ∃ q, q = floored p (toConserved P g 0 / W) T := ⟨_, rfl⟩
  have hpq : p ≤ q := by
    rw [hq]; unfold floored; split_ifs
    · exact le_max_left _ _
    · exact le_rfl
  have hU : 0 < toConserved P g 0 / W := div_pos (t0 ▸ t2) l4
  have hs' : 0 < toConserved P g 4 + toConserved P g 0 + q := by linarith
  have hfin : found = true → finish (toConserved P g) T found p W =
      .ok ![toConserved P g 0 / W, W * toConserved P g 1 / (toConserved P g 4 + toConserved P g 0 + q),
        W * toConserved P g 2 / (toConserved P g 4 + toConserved P g 0 + q),
        W * toConserved P g 3 / (toConserved P g 4 + toConserved P g 0 + q), q] := by
    intro hfound
    unfold finish
    rw [← hq, hfound]
    dsimp only
    rw [if_neg hs'.ne', if_neg (by simp), if_neg (by rw [at0]; exact not_le.2 hU),
      if_neg (by rw [at4]; exact not_le.2 (lt_of_lt_of_le (l5 hfound).1 hpq))]
  rw [hr]
  constructor
  · cases hfound : found with
    | false =>
      refine Or.inl ?_
      unfold finish
      rw [← hq]
      dsimp only
      rw [if_neg hs'.ne', if_pos rfl]
    | true =>
      have a := hfin hfound
      rw [hfound] at a
      obtain ⟨m1, m2, m3, m4⟩ := l5 hfound
      have hd : toConserved P g 0 / W ≤ P 0 := by
        rw [t0, div_le_iff₀ l4]
        exact mul_le_mul_of_nonneg_left m3 h.1.le
      have hqt : q ≤ P 4 := by
        rw [hq]; unfold floored; split_ifs with hT0
        · exact max_le l3 ((mul_le_mul_of_nonneg_left hd hT0.le).trans hT)
        · exact l3
      have htol : P 4 - p ≤ tolerance / (2 - g) := by
        rw [le_div_iff₀ (by linarith)]; linarith
      have hLp := lorentz_pos P
      have hL1 : 1 ≤ lorentzFactor P := by
        have : 1 ≤ lorentzFactor P ^ 2 := by rw [lorentz_sq]; linarith [gammaBeta_nonneg P]
        nlinarith
      have hDH : P 0 ≤ P 0 * lorentzFactor P * specificEnthalpy P g * lorentzFactor P := by
        have hH : 1 ≤ specificEnthalpy P g := by
          unfold specificEnthalpy
          rw [le_div_iff₀ h.1, one_mul]
          unfold enthalpyDensity
          have h1 : 0 < 1 / (g - 1) := one_div_pos.2 (by linarith)
          have : 0 ≤ P 4 * (1 + 1 / (g - 1)) := mul_nonneg h.2.le (by linarith)
          linarith
        have : 1 ≤ lorentzFactor P * specificEnthalpy P g * lorentzFactor P :=
          one_le_mul_of_one_le_of_one_le (one_le_mul_of_one_le_of_one_le hL1 hH) hL1
        calc P 0 = P 0 * 1 := (mul_one _).symm
          _ ≤ P 0 * (lorentzFactor P * specificEnthalpy P g * lorentzFactor P) := mul_le_mul_of_nonneg_left this h.1.le
          _ = _ := by ring
      have hU1 : ∀ v, W * (P 0 * lorentzFactor P * specificEnthalpy P g * v) / (toConserved P g 4 + toConserved P g 0 + q) =
          W * (P 0 * lorentzFactor P * specificEnthalpy P g) / (toConserved P g 4 + toConserved P g 0 + q) * v := by
        intro v; ring
      refine Or.inr ⟨_, a, ?_, ?_, ?_, ?_, W * (P 0 * lorentzFactor P * specificEnthalpy P g) /
        (toConserved P g 4 + toConserved P g 0 + q), ?_, ?_, ?_, ?_, ?_⟩
      · rw [at4]
        linarith
      · rw [at4]; exact hqt
      · rw [at0]; exact m4
      · rw [at0]; exact hd
      · rw [at1, ← hU1, show toConserved P g 1 = P 0 * lorentzFactor P * specificEnthalpy P g * P 1 by
          simp only [toConserved, at1]; ring]
      · rw [at2, ← hU1, show toConserved P g 2 = P 0 * lorentzFactor P * specificEnthalpy P g * P 2 by
          simp only [toConserved, at2]; ring]
      · rw [at3, ← hU1, show toConserved P g 3 = P 0 * lorentzFactor P * specificEnthalpy P g * P 3 by
          simp only [toConserved, at3]; ring]
      · have hx : toConserved P g 4 + toConserved P g 0 + q = P 0 * lorentzFactor P * specificEnthalpy P g * lorentzFactor P - (P 4 - q) := by
          linarith
        rw [le_div_iff₀ hs', one_mul, hx]
        have : P 0 * lorentzFactor P * specificEnthalpy P g * lorentzFactor P ≤ P 0 * lorentzFactor P * specificEnthalpy P g * W :=
          mul_le_mul_of_nonneg_left m3 (by positivity)
        linarith
      · have hx : toConserved P g 4 + toConserved P g 0 + q = P 0 * lorentzFactor P * specificEnthalpy P g * lorentzFactor P - (P 4 - q) := by
          linarith
        have hep : 0 ≤ tolerance / (2 - g) := div_nonneg (by unfold tolerance; norm_num) (by linarith)
        rw [t0, le_div_iff₀ l4] at m4
        rw [hx] at hs' ⊢
        exact speed_bound h.1 hLp t3 l4 m4 hDH (by linarith) hs' hep
  · intro hc
    exact ⟨_, hfin (l6 (by norm_num) (by simpa using hc))⟩

/-- **C83**: gas at rest is recovered exactly. -/
theorem recover_rest (P : Vec) (h : Physical P) (h1 : P 1 = 0) (h2 : P 2 = 0) (h3 : P 3 = 0) (g : ℝ) (hg : 1 < g)
    (T : ℝ) (hT : T * P 0 ≤ P 4) : recover (toConserved P g) g T = .ok P := by
  obtain ⟨t0, t1, t2, t3, t4, -⟩ := true_eq P h g hg
  have hm : g - 1 ≠ 0 := by linarith
  have hL : lorentzFactor P = 1 := by
    simp [lorentzFactor, gammaBetaSquared, h1, h2, h3]
  have hS : momentumSquared (toConserved P g) = 0 := by rw [t4, hL]; ring
  rw [hL, mul_one] at t0 t1 t2
  have hE : toConserved P g 4 = P 4 / (g - 1) := by
    have h0 := h.1
    have : toConserved P g 4 = P 0 * specificEnthalpy P g * 1 - P 4 - P 0 := by linarith
    rw [this, specificEnthalpy, enthalpyDensity]
    field_simp
    ring
  have hE0 : 0 < toConserved P g 4 := by rw [hE]; exact div_pos h.2 (by linarith)
  have key : ∀ p, 0 ≤ p → guessW (toConserved P g) p = 1 ∧ guessF (toConserved P g) g p = P 4 - p ∧
      guessG (toConserved P g) g p = -1 ∧ 0 < toConserved P g 4 + toConserved P g 0 + p ∧
      guessDh (toConserved P g) p ≠ 0 := by
    intro p hp
    have hx : 0 < toConserved P g 4 + toConserved P g 0 + p := by rw [t0]; linarith
    obtain ⟨g1, g2, g3, g4⟩ := guess_eq (toConserved P g) p _ _ (by rw [t0]; exact t2) rfl hx hx (by rw [hS, sub_zero])
      (by nlinarith [sq_nonneg (toConserved P g 4 + toConserved P g 0 + p)])
    refine ⟨by rw [g2, div_self hx.ne'], ?_, ?_, hx, ?_⟩
    · rw [g4, hS, div_self hx.ne', zero_div, hE]
      field_simp
      ring
    · unfold guessG
      rw [g1, hS]
      ring
    · rw [g3]; positivity
  have step : ∀ n p, 0 ≤ p → loop (toConserved P g) g (n + 1) p =
      if |P 4 - p| < tolerance then .ok (true, P 4, 1) else loop (toConserved P g) g n (P 4) := by
    intro n p hp
    obtain ⟨k1, k2, k3, k4, k5⟩ := key p hp
    rw [loop, k1, k2, k3, if_neg (by rintro (e | e | e | e); exacts [k4.ne' e, t2.ne' (t0 ▸ e), k5 e, by norm_num at e])]
    have e : p - (P 4 - p) / -1 = P 4 := by ring
    dsimp only
    rw [e]
  have hl : loop (toConserved P g) g 50 0 = .ok (true, P 4, 1) := by
    rw [step 49 0 le_rfl]
    split_ifs
    · rfl
    · rw [step 48 (P 4) h.2.le, sub_self, abs_zero, if_pos (by unfold tolerance; norm_num)]
  unfold recover
  rw [hl]
  dsimp only
  have := finish_true P h g hg T hT
  rwa [hL] at this

/-- Moving gas: the hypotheses hold with room. -/
example : ∃ Q, recover (toConserved ![1, 3, 4, 0, 1] (4 / 3)) (4 / 3) (1 / 2) = .ok Q := by
  refine (recover_accurate _ ⟨?_, ?_⟩ (4 / 3) (by norm_num) (by norm_num) ?_ (1 / 2) ?_).2 ?_
  · rw [at0]; norm_num
  · rw [at4]; norm_num
  · rw [lorentz_sq, gammaBetaSquared, at1, at2, at3]; norm_num
  · rw [at0, at4]; norm_num
  · rw [at4]; norm_num

example : recover (toConserved ![2, 0, 0, 0, 7] (5 / 3)) (5 / 3) 3 = .ok ![2, 0, 0, 0, 7] :=
  recover_rest _ ⟨by rw [at0]; norm_num, by rw [at4]; norm_num⟩ rfl rfl rfl _ (by norm_num) 3 (by rw [at0, at4]; norm_num)

end Verif.Srhd
