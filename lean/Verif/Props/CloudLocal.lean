import Verif.Lemmas.CloudFound
import Verif.Props.CloudMirror
import Verif.Spec.CloudLocal

/-!
# C131: nothing travels faster than two faces, or one, in a stage of the cloud program, and nothing against a supersonic flow
-/

namespace Verif.Cloud

open Verif.Nd Verif.Sedov Verif.Geometry

variable {m n : Nat} {r q : Nat → ℝ}

theorem reach_cases (method : Int) : (method = 1 ∧ reach method = 1) ∨ (method ≠ 1 ∧ reach method = 2) := by
  unfold reach
  by_cases h : method = 1
  · exact .inl ⟨h, if_pos h⟩
  · exact .inr ⟨h, if_neg h⟩

theorem sides_local (method : Int) (z : Fin 5 → Bool) (theta : ℝ) (N : Nat) (p p' : Nat → Vec 5 ℝ) (k : Nat) (hk : k + 1 < N)
    (h : ∀ x, x < N → k + 1 ≤ x + reach method → x ≤ k + reach method → p x = p' x) : sides method z theta N p k = sides method z theta N p' k := by
  have e0 := h k (by omega) (by rcases reach_cases method with h | h <;> omega) (by omega)
  have e1 := h (k + 1) (by omega) (by rcases reach_cases method with h | h <;> omega) (by rcases reach_cases method with h | h <;> omega)
  rcases reach_cases method with ⟨rfl, _⟩ | ⟨hm, h2⟩
  · simp only [sides, if_true, e0, e1]
  rw [h2] at h
  have s0 : slope z theta N p k = slope z theta N p' k := by
    unfold slope
    split_ifs with h0
    · rfl
    · rw [h (k - 1) (by omega) (by omega) (by omega), e0, e1]
  have s1 : slope z theta N p (k + 1) = slope z theta N p' (k + 1) := by
    unfold slope
    rw [Nat.add_sub_cancel]
    by_cases h0 : k + 1 = 0 ∨ k + 1 + 1 = N
    · rw [if_pos h0, if_pos h0]
    · rw [if_neg h0, if_neg h0, h (k + 1 + 1) (by omega) (by omega) (by omega), e1, e0]
  unfold sides
  rw [s0, s1, e0, e1]

theorem column_local {f f' : Vec 5 ℝ} {p p' : Nat → Vec 5 ℝ} (x : Nat) (h0 : x = 0 → f = f') (h : ∀ k, k < m → x = k + 1 ∨ (k + 1 = m ∧ m ≤ x) → p k = p' k) (hm : 1 ≤ m)
    : column f m p x = column f' m p' x := by
  unfold column
  split_ifs with hx
  · exact h0 hx
  · exact h _ (by omega) (by omega)

/-- A cell after a stage depends on the cells in reach. -/
theorem update_local {g : Gas} {inflow inflow' : ℝ → Vec 5 ℝ} {method : Int} {z : Fin 5 → Bool} {theta dt : ℝ} (hm : 1 ≤ m)
    {u u' p p' Fr Fr' Fq Fq' S S' : Nat → Nat → Vec 5 ℝ} (h : Found g inflow method z theta m n r q u p Fr Fq S)
    (h' : Found g inflow' method z theta m n r q u' p' Fr' Fq' S') {i j : Nat} (hi : i < m) (hj : j < n) (hu : Agree m n (reach method) i j u u')
    (hin : AgreeInflow n (reach method) i j q inflow inflow') : update dt n r q u Fr Fq S i j = update dt n r q u' Fr' Fq' S' i j := by
  have hp : Agree m n (reach method) i j p p' := by
    intro k hk l hl hd
    have := h.primitive k hk l hl
    rw [hu k hk l hl hd, h'.primitive k hk l hl] at this
    injection this with this
    exact this.symm
  have hS : S i j = S' i j := by
    have := h.source i hi j hj
    rw [hp i hi j hj (by have := reach_cases method; unfold apart; omega), h'.source i hi j hj] at this
    injection this with this
    exact this.symm
  have hFr : ∀ x, x = i ∨ x = i + 1 → Fr x j = Fr' x j := by
    intro x hx
    have := h.radial x (by omega) j hj
    rw [sides_local method z theta (m + 2) _ (column (inflow' ((q j + q (j + 1)) / 2)) m fun k => p' k j) x (by omega) (fun y hy h1 h2 =>
      column_local y (fun h0 => hin j hj (by have := reach_cases method; unfold apart; omega)) (fun k hkm hk => hp k hkm j hj (by have := reach_cases method; unfold apart; omega)) hm),
      h'.radial x (by omega) j hj] at this
    injection this with this
    exact this.symm
  have hFq : ∀ y, y < n - 1 → y = j ∨ y + 1 = j → Fq i y = Fq' i y := by
    intro y hy hyj
    have := h.polar i hi y hy
    rw [sides_local method z theta n (p i) (p' i) y (by omega) (fun l hl h1 h2 => hp i hi l hl (by have := reach_cases method; unfold apart; omega)), h'.polar i hi y hy] at this
    injection this with this
    exact this.symm
  have hG : ∀ y, y = j ∨ y = j + 1 → (if y = 0 ∨ y = n then (0 : Vec 5 ℝ) else Fq i (y - 1)) = if y = 0 ∨ y = n then 0 else Fq' i (y - 1) := by
    intro y hy
    split_ifs with h0
    · rfl
    · exact hFq (y - 1) (by omega) (by omega)
  funext a
  unfold update
  dsimp only
  rw [hG j (.inl rfl), hG (j + 1) (.inr rfl), hFr i (.inl rfl), hFr (i + 1) (.inr rfl), hS, hu i hi j hj (by have := reach_cases method; unfold apart; omega)]

theorem Agree.center {d e i j k l : Nat} {u u' : Nat → Nat → Vec 5 ℝ} (h : Agree m n (d + e) i j u u') (hd : apart i j k l ≤ d) : Agree m n e k l u u' := by
  intro a ha b hb hab
  exact h a ha b hb (by unfold apart at *; omega)

theorem AgreeInflow.center {d e i j k l : Nat} {f f' : ℝ → Vec 5 ℝ} (h : AgreeInflow n (d + e) i j q f f') (hd : apart i j k l ≤ d) : AgreeInflow n e k l q f f' := by
  intro b hb hab
  exact h b hb (by unfold apart at *; omega)

theorem AgreeInflow.mono {d e i j : Nat} {f f' : ℝ → Vec 5 ℝ} (h : AgreeInflow n e i j q f f') (hd : d ≤ e) : AgreeInflow n d i j q f f' :=
  fun b hb hab => h b hb (hab.trans hd)

theorem Agree.mono {d e i j : Nat} {u u' : Nat → Nat → Vec 5 ℝ} (h : Agree m n e i j u u') (hd : d ≤ e) : Agree m n d i j u u' :=
  fun a ha b hb hab => h a ha b hb (hab.trans hd)

/-- A stage: two solutions on one grid that agree as far as a stage reaches further agree afterwards. -/
theorem stage_local {g : Gas} {inflow inflow' : ℝ → Vec 5 ℝ} {method : Int} {z : Fin 5 → Bool} {theta dt : ℝ} {s s' t t' : Solution}
    (hm : 1 ≤ m) (hn : 2 ≤ n) (hn3 : method = 1 ∨ 3 ≤ n) (hmn : (m + 2) * (n + 1) < 2 ^ 31) {u u' : Nat → Nat → Vec 5 ℝ}
    (hr : Line s.radial (m + 1) r) (hq : Line s.polar (n + 1) q) (hu : Grid s.conserved m n u)
    (hr' : Line s'.radial (m + 1) r) (hq' : Line s'.polar (n + 1) q) (hu' : Grid s'.conserved m n u')
    (h : advance g inflow method z theta s dt = .ok t) (h' : advance g inflow' method z theta s' dt = .ok t') :
    (t.time = s.time + dt ∧ t.radial = s.radial ∧ t.polar = s.polar) ∧ (t'.time = s'.time + dt ∧ t'.radial = s'.radial ∧ t'.polar = s'.polar)
      ∧ ∃ v v', Grid t.conserved m n v ∧ Grid t'.conserved m n v'
        ∧ ∀ d i j, Agree m n (d + reach method) i j u u' → AgreeInflow n (d + reach method) i j q inflow inflow' → Agree m n d i j v v' := by
  obtain ⟨hme, hV, p, Fr, Fq, S, hF⟩ := found_of_advance g _ method z theta s t dt hm hn hn3 hmn u hr hq hu h
  obtain ⟨_, _, p', Fr', Fq', S', hF'⟩ := found_of_advance g _ method z theta s' t' dt hm hn hn3 hmn u' hr' hq' hu' h'
  obtain ⟨c, k1, k2, k3, k4, k5, _⟩ := stage g _ method z theta s dt hme hm hn hn3 hmn u hr hq hu hV p Fr Fq S hF
  obtain ⟨c', l1, l2, l3, l4, l5, _⟩ := stage g _ method z theta s' dt hme hm hn hn3 hmn u' hr' hq' hu' hV p' Fr' Fq' S' hF'
  rw [k1] at h
  injection h with h
  subst h
  rw [l1] at h'
  injection h' with h'
  subst h'
  refine ⟨⟨k2, k3, k4⟩, ⟨l2, l3, l4⟩, _, _, k5, l5, fun d i j ha hin k hk l hl hd => ?_⟩
  exact update_local hm hF hF' hk hl (ha.center hd) (hin.center hd)

/-- **C131, a step.**  Two solutions on one grid that agree `rk_order` times the reach of a stage further than a given distance agree within this distance after a step.  Whatever the gas does, nothing
travels further than the reach in a stage: one face with piecewise constant states, otherwise two. -/
theorem step_local {g : Gas} {inflow inflow' : ℝ → ℝ → Vec 5 ℝ} {method : Int} {z : Fin 5 → Bool} {theta cfl : ℝ} {rk : Int} {s s' t t' : Solution}
    (hm : 1 ≤ m) (hn : 2 ≤ n) (hn3 : method = 1 ∨ 3 ≤ n) (hmn : (m + 2) * (n + 1) < 2 ^ 31) {u u' : Nat → Nat → Vec 5 ℝ}
    (hr : Line s.radial (m + 1) r) (hq : Line s.polar (n + 1) q) (hu : Grid s.conserved m n u)
    (hr' : Line s'.radial (m + 1) r) (hq' : Line s'.polar (n + 1) q) (hu' : Grid s'.conserved m n u') (htime : s'.time = s.time)
    (h : nextSolution g inflow method z theta cfl rk s = .ok t) (h' : nextSolution g inflow' method z theta cfl rk s' = .ok t') :
    t'.time = t.time ∧ (t.radial = s.radial ∧ t.polar = s.polar) ∧ (t'.radial = s'.radial ∧ t'.polar = s'.polar)
      ∧ ∃ v v', Grid t.conserved m n v ∧ Grid t'.conserved m n v' ∧ ∀ d i j, Agree m n (d + reach method * rk.toNat) i j u u' →
        AgreeInflow n (d + reach method * rk.toNat) i j q (inflow s.time) (inflow' s.time) → Agree m n d i j v v' := by
  have b1 : m + 2 ≤ (m + 2) * (n + 1) := Nat.le_mul_of_pos_right _ (by omega)
  have b3 : m * n < 2 ^ 31 := lt_of_le_of_lt (Nat.mul_le_mul (by omega) (by omega)) hmn
  obtain ⟨D, e1, hD⟩ := hr.difference (by omega)
  obtain ⟨D', e1', hD'⟩ := hr'.difference (by omega)
  unfold nextSolution at h h'
  rw [e1, Outcome.bind_ok, hD.2 0 (by omega), Outcome.bind_ok] at h
  rw [e1', Outcome.bind_ok, hD'.2 0 (by omega), Outcome.bind_ok, htime] at h'
  dsimp only at h h'
  generalize (r (0 + 1) - r 0) * cfl = dt at h h'
  split_ifs at h h' with h1 h2
  · obtain ⟨⟨k1, k2, k3⟩, ⟨l1, l2, l3⟩, v, v', hv, hv', hd⟩ := stage_local hm hn hn3 hmn hr hq hu hr' hq' hu' h h'
    exact ⟨by rw [k1, l1, htime], ⟨k2, k3⟩, ⟨l2, l3⟩, v, v', hv, hv', fun d i j ha hin => hd d i j (by rw [h1] at ha; simpa using ha) (by rw [h1] at hin; simpa using hin)⟩
  · obtain ⟨s1, a1, h⟩ := Outcome.bind_eq_ok.1 h
    obtain ⟨s2, a2, h⟩ := Outcome.bind_eq_ok.1 h
    obtain ⟨s1', a1', h'⟩ := Outcome.bind_eq_ok.1 h'
    obtain ⟨s2', a2', h'⟩ := Outcome.bind_eq_ok.1 h'
    obtain ⟨⟨k1, k2, k3⟩, ⟨l1, l2, l3⟩, v, v', hv, hv', hd⟩ := stage_local hm hn hn3 hmn hr hq hu hr' hq' hu' a1 a1'
    obtain ⟨⟨i1, i2, i3⟩, ⟨j1, j2, j3⟩, w, w', hw, hw', hd'⟩ := stage_local hm hn hn3 hmn (k2 ▸ hr) (k3 ▸ hq) hv (l2 ▸ hr') (l3 ▸ hq') hv' a2 a2'
    obtain ⟨A, e4, hA⟩ := (hu.map fun x => scale x (1 / 2)).evaluate hm (by omega) b3
    obtain ⟨B, e5, hB⟩ := (hw.map fun x => scale x (1 / 2)).evaluate hm (by omega) b3
    obtain ⟨C, e6, hC⟩ := hA.binaryOp hB (· + ·)
    obtain ⟨E, e7, hE⟩ := hC.evaluate hm (by omega) b3
    obtain ⟨A', f4, hA'⟩ := (hu'.map fun x => scale x (1 / 2)).evaluate hm (by omega) b3
    obtain ⟨B', f5, hB'⟩ := (hw'.map fun x => scale x (1 / 2)).evaluate hm (by omega) b3
    obtain ⟨C', f6, hC'⟩ := hA'.binaryOp hB' (· + ·)
    obtain ⟨E', f7, hE'⟩ := hC'.evaluate hm (by omega) b3
    rw [e4, Outcome.bind_ok, e5, Outcome.bind_ok, e6, Outcome.bind_ok, e7, Outcome.bind_ok] at h
    rw [f4, Outcome.bind_ok, f5, Outcome.bind_ok, f6, Outcome.bind_ok, f7, Outcome.bind_ok] at h'
    injection h with h
    injection h' with h'
    subst h h'
    refine ⟨?_, ⟨rfl, rfl⟩, ⟨rfl, rfl⟩, _, _, hE, hE', fun d i j ha hin k hk l hl hkl => ?_⟩
    · show s.time * (1 / 2) + s2'.time * (1 / 2) = s.time * (1 / 2) + s2.time * (1 / 2)
      rw [i1, j1, k1, l1, htime]
    · rw [h2, show d + reach method * (2 : Int).toNat = d + reach method + reach method by rw [show (2 : Int).toNat = 2 from rfl]; ring] at ha hin
      have hvv : Agree m n (d + reach method) i j v v' := hd (d + reach method) i j ha hin
      beta_reduce
      rw [hd' d i j hvv (hin.mono (by omega)) k hk l hl hkl, ha k hk l hl (hkl.trans (by omega))]

/-- **C131, a run.**  Two runs on one grid: a change of the gas or of the inflow is without effect further away than `rk_order` times the reach of a stage for each step. -/
theorem run_local {g : Gas} {inflow inflow' : ℝ → ℝ → Vec 5 ℝ} {method : Int} {z : Fin 5 → Bool} {theta cfl : ℝ} {rk : Int} {s s' : Nat → Solution} {N : Nat}
    (hm : 1 ≤ m) (hn : 2 ≤ n) (hn3 : method = 1 ∨ 3 ≤ n) (hmn : (m + 2) * (n + 1) < 2 ^ 31) {u u' : Nat → Nat → Vec 5 ℝ}
    (hr : Line (s 0).radial (m + 1) r) (hq : Line (s 0).polar (n + 1) q) (hu : Grid (s 0).conserved m n u)
    (hr' : Line (s' 0).radial (m + 1) r) (hq' : Line (s' 0).polar (n + 1) q) (hu' : Grid (s' 0).conserved m n u') (htime : (s' 0).time = (s 0).time)
    (h : ∀ k, k < N → nextSolution g inflow method z theta cfl rk (s k) = .ok (s (k + 1)))
    (h' : ∀ k, k < N → nextSolution g inflow' method z theta cfl rk (s' k) = .ok (s' (k + 1))) (d i j : Nat)
    (ha : Agree m n (d + reach method * rk.toNat * N) i j u u') (hin : ∀ time, AgreeInflow n (d + reach method * rk.toNat * N) i j q (inflow time) (inflow' time)) :
    ∃ v v', Grid (s N).conserved m n v ∧ Grid (s' N).conserved m n v' ∧ Agree m n d i j v v' := by
  induction N generalizing s s' u u' with
  | zero => exact ⟨u, u', hu, hu', ha⟩
  | succ N ih =>
    obtain ⟨k1, ⟨k2, k3⟩, ⟨k4, k5⟩, v, v', hv, hv', hd⟩ := step_local hm hn hn3 hmn hr hq hu hr' hq' hu' htime (h 0 (by omega)) (h' 0 (by omega))
    have e : d + reach method * rk.toNat * (N + 1) = d + reach method * rk.toNat * N + reach method * rk.toNat := by ring
    rw [e] at ha
    exact ih (s := fun k => s (k + 1)) (s' := fun k => s' (k + 1)) (by rw [k2]; exact hr) (by rw [k3]; exact hq) hv (by rw [k4]; exact hr') (by rw [k5]; exact hq') hv' k1
      (fun k hk => h (k + 1) (by omega)) (fun k hk => h' (k + 1) (by omega)) (hd _ i j ha ((hin _).mono (by rw [e])))
      (fun time => (hin time).mono (by rw [e]; omega))

/-! ## Supersonic flow -/

/-- The flux through a face behind which and ahead of which all waves move outwards is that of the gas inside. -/
theorem riemann_upwind {T : ℝ} {l x F : Vec 5 ℝ} (h : (srhd T).riemann 0 l x = .ok F) (hl : 0 ≤ (Srhd.wavespeeds l ⟨1, 0, 0⟩ (4 / 3)).1)
    (hx : 0 ≤ (Srhd.wavespeeds x ⟨1, 0, 0⟩ (4 / 3)).1) : F = Srhd.flux l ⟨1, 0, 0⟩ (4 / 3) := by
  unfold srhd at h
  dsimp only at h
  simp only [if_true] at h
  split_ifs at h with hc
  injection h with h
  rw [← h]
  obtain ⟨_, _, _, _, hne⟩ := hc
  funext a
  rw [Srhd.hlle_eq]
  have hlt := lt_of_le_of_ne ((min_le_left _ _).trans (le_max_left _ _)) hne
  rw [min_eq_left (le_min hl hx)] at hlt ⊢
  exact Hlle.core_left _ _ _ _ hlt

/-- What it takes that all waves move forward: the four-velocity along the direction is not below that of sound. -/
theorem outward_iff {P : Vec 5 ℝ} (h : Srhd.Physical P) (n : UnitVec ℝ) (hn : Srhd.UnitLength n) {g : ℝ} (hg : 1 < g) (hg2 : g ≤ 2) :
    0 ≤ (Srhd.wavespeeds P n g).1 ↔ 0 ≤ n.project (P 1) (P 2) (P 3)
      ∧ Srhd.soundSpeedSquared P g ≤ n.project (P 1) (P 2) (P 3) ^ 2 * (1 - Srhd.soundSpeedSquared P g) := by
  obtain ⟨h1, h2⟩ := Srhd.sound_bounds h hg hg2
  have hA := Srhd.speeds_div h (n := n) hg hg2
  have hW := Srhd.lorentz_pos P
  have hW2 : Srhd.lorentzFactor P ^ 2 = 1 + Srhd.gammaBetaSquared P := by
    rw [Srhd.lorentzFactor, Real.sq_sqrt]
    unfold Srhd.gammaBetaSquared
    nlinarith [mul_self_nonneg (P 1), mul_self_nonneg (P 2), mul_self_nonneg (P 3)]
  unfold Srhd.wavespeeds
  dsimp only
  rw [le_div_iff₀ hA, zero_mul, sub_nonneg, Real.sqrt_le_iff]
  unfold Srhd.betaAlong
  rw [← hW2]
  generalize Srhd.soundSpeedSquared P g = c at *
  generalize n.project (P 1) (P 2) (P 3) = x at *
  generalize Srhd.lorentzFactor P = W at *
  have hG : Srhd.gammaBetaSquared P = W ^ 2 - 1 := by linarith
  rw [← hW2, hG] at hA
  rw [hG]
  clear hG hW2
  have hc : 0 < 1 - c := by linarith
  refine and_congr ?_ ?_
  · rw [div_mul_eq_mul_div, le_div_iff₀ hW, zero_mul]
    exact ⟨fun h => nonneg_of_mul_nonneg_left h hc, fun h => mul_nonneg h hc.le⟩
  · have e : (x / W * (1 - c)) ^ 2 - c * (1 - (W ^ 2 - 1) / W ^ 2) * (1 - (W ^ 2 - 1) / W ^ 2 * c - x / W * (x / W) * (1 - c))
        = (1 - (W ^ 2 - 1) / W ^ 2 * c) / W ^ 2 * (x ^ 2 * (1 - c) - c) := by
      field_simp
      ring
    rw [← sub_nonneg, e, ← sub_nonneg (a := x ^ 2 * (1 - c))]
    have hk : 0 < (1 - (W ^ 2 - 1) / W ^ 2 * c) / W ^ 2 := div_pos hA (by positivity)
    exact ⟨fun h => nonneg_of_mul_nonneg_right h hk, fun h => mul_nonneg hk.le h⟩

/-- All waves of the gas in a cell move outwards. -/
def Outward (T V : ℝ) (U : Vec 5 ℝ) : Prop := ∀ P, (srhd T).recover (fun a => U a / V) = .ok P → 0 ≤ (Srhd.wavespeeds P ⟨1, 0, 0⟩ (4 / 3)).1

/-- **C131, upwind.**  With reconstruct_method=1, if all waves move outwards along a ray, then a cell of the ray after a stage does not depend on the gas further out: two solutions that
agree in the ray up to this cell, and in the two cells beside it, agree in the cell after the stage. -/
theorem supersonic_stage {T : ℝ} {inflow inflow' : ℝ → Vec 5 ℝ} {z : Fin 5 → Bool} {theta dt : ℝ} {s s' t t' : Solution}
    (hm : 1 ≤ m) (hn : 2 ≤ n) (hmn : (m + 2) * (n + 1) < 2 ^ 31) {u u' : Nat → Nat → Vec 5 ℝ}
    (hr : Line s.radial (m + 1) r) (hq : Line s.polar (n + 1) q) (hu : Grid s.conserved m n u)
    (hr' : Line s'.radial (m + 1) r) (hq' : Line s'.polar (n + 1) q) (hu' : Grid s'.conserved m n u')
    (h : advance (srhd T) inflow 1 z theta s dt = .ok t) (h' : advance (srhd T) inflow' 1 z theta s' dt = .ok t') {i j : Nat} (hi : i < m) (hj : j < n)
    (hout : ∀ k, k < m → Outward T (wedge (r k) (r (k + 1)) (q j) (q (j + 1))) (u k j) ∧ Outward T (wedge (r k) (r (k + 1)) (q j) (q (j + 1))) (u' k j))
    (hw : 0 ≤ (Srhd.wavespeeds (inflow ((q j + q (j + 1)) / 2)) ⟨1, 0, 0⟩ (4 / 3)).1)
    (hray : ∀ k, k ≤ i → u k j = u' k j) (hbeside : ∀ l, l < n → l ≤ j + 1 → j ≤ l + 1 → u i l = u' i l)
    (hin : inflow ((q j + q (j + 1)) / 2) = inflow' ((q j + q (j + 1)) / 2)) :
    ∃ v v', Grid t.conserved m n v ∧ Grid t'.conserved m n v' ∧ v i j = v' i j := by
  obtain ⟨hme, hV, p, Fr, Fq, S, hF⟩ := found_of_advance (srhd T) _ 1 z theta s t dt hm hn (.inl rfl) hmn u hr hq hu h
  obtain ⟨_, _, p', Fr', Fq', S', hF'⟩ := found_of_advance (srhd T) _ 1 z theta s' t' dt hm hn (.inl rfl) hmn u' hr' hq' hu' h'
  obtain ⟨c, k1, k2, k3, k4, k5, _⟩ := stage (srhd T) _ 1 z theta s dt hme hm hn (.inl rfl) hmn u hr hq hu hV p Fr Fq S hF
  obtain ⟨c', l1, l2, l3, l4, l5, _⟩ := stage (srhd T) _ 1 z theta s' dt hme hm hn (.inl rfl) hmn u' hr' hq' hu' hV p' Fr' Fq' S' hF'
  rw [k1] at h
  injection h with h
  subst h
  rw [l1] at h'
  injection h' with h'
  subst h'
  refine ⟨_, _, k5, l5, ?_⟩
  have hp : ∀ k, k < m → ∀ l, l < n → u k l = u' k l → p k l = p' k l := by
    intro k hk l hl e
    have := hF.primitive k hk l hl
    rw [e, hF'.primitive k hk l hl] at this
    injection this with this
    exact this.symm
  have hS : S i j = S' i j := by
    have := hF.source i hi j hj
    rw [hp i hi j hj (hray i le_rfl), hF'.source i hi j hj] at this
    injection this with this
    exact this.symm
  have hFr : ∀ x, x = i ∨ x = i + 1 → Fr x j = Fr' x j := by
    intro x hx
    have e := hF.radial x (by omega) j hj
    have e' := hF'.radial x (by omega) j hj
    have hs : ∀ c : Nat → Vec 5 ℝ, sides 1 z theta (m + 2) c x = (c x, c (x + 1)) := fun c => by simp [sides]
    rw [hs] at e e'
    have hc : column (inflow ((q j + q (j + 1)) / 2)) m (fun k => p k j) x = column (inflow' ((q j + q (j + 1)) / 2)) m (fun k => p' k j) x :=
      column_local x (fun _ => hin) (fun k hkm hk => hp k hkm j hj (hray k (by omega))) hm
    have hwave : ∀ y, y ≤ m + 1 → 0 ≤ (Srhd.wavespeeds (column (inflow ((q j + q (j + 1)) / 2)) m (fun k => p k j) y) ⟨1, 0, 0⟩ (4 / 3)).1 := by
      intro y hy
      unfold column
      split_ifs
      · exact hw
      · exact (hout _ (by omega)).1 _ (hF.primitive _ (by omega) j hj)
    have hwave' : ∀ y, y ≤ m + 1 → 0 ≤ (Srhd.wavespeeds (column (inflow' ((q j + q (j + 1)) / 2)) m (fun k => p' k j) y) ⟨1, 0, 0⟩ (4 / 3)).1 := by
      intro y hy
      unfold column
      split_ifs
      · rw [← hin]; exact hw
      · exact (hout _ (by omega)).2 _ (hF'.primitive _ (by omega) j hj)
    rw [riemann_upwind e (hwave x (by omega)) (hwave (x + 1) (by omega)), riemann_upwind e' (hwave' x (by omega)) (hwave' (x + 1) (by omega)), hc]
  have hFq : ∀ y, y < n - 1 → y = j ∨ y + 1 = j → Fq i y = Fq' i y := by
    intro y hy hyj
    have hs : ∀ c : Nat → Vec 5 ℝ, sides 1 z theta n c y = (c y, c (y + 1)) := fun c => by simp [sides]
    have e := hF.polar i hi y hy
    have e' := hF'.polar i hi y hy
    rw [hs] at e e'
    rw [hp i hi y (by omega) (hbeside y (by omega) (by omega) (by omega)), hp i hi (y + 1) (by omega) (hbeside (y + 1) (by omega) (by omega) (by omega)), e'] at e
    injection e with e
    exact e.symm
  have hG : ∀ y, y = j ∨ y = j + 1 → (if y = 0 ∨ y = n then (0 : Vec 5 ℝ) else Fq i (y - 1)) = if y = 0 ∨ y = n then 0 else Fq' i (y - 1) := by
    intro y hy
    split_ifs with h0
    · rfl
    · exact hFq (y - 1) (by omega) (by omega)
  funext a
  unfold update
  dsimp only
  rw [hG j (.inl rfl), hG (j + 1) (.inr rfl), hFr i (.inl rfl), hFr (i + 1) (.inr rfl), hS, hray i le_rfl]

/-! ## Examples -/

namespace Example

/-- A gas that always flows on. -/
noncomputable def onward : Gas := ⟨fun U => .ok U, fun _ l _ => .ok l, fun _ _ _ => .ok 0⟩

noncomputable def cells (m : Nat) (u : Nat → Nat → Vec 5 ℝ) : Solution :=
  ⟨0, ⟨fun _ => m + 1, fun i => .ok (radius (i 0))⟩, ⟨fun _ => 4, fun i => .ok (angle (i 0))⟩, ⟨![m, 3], fun i => .ok (u (i 0) (i 1))⟩⟩

theorem cells_radial (m : Nat) (u : Nat → Nat → Vec 5 ℝ) : Line (cells m u).radial (m + 1) radius := ⟨rfl, fun _ _ => rfl⟩
theorem cells_polar (m : Nat) (u : Nat → Nat → Vec 5 ℝ) : Line (cells m u).polar (3 + 1) angle := ⟨rfl, fun _ _ => rfl⟩
theorem cells_grid (m : Nat) (u : Nat → Nat → Vec 5 ℝ) : Grid (cells m u).conserved m 3 u := ⟨rfl, rfl, fun _ _ _ _ => rfl⟩

theorem onward_steps (inflow : ℝ → ℝ → Vec 5 ℝ) (z : Fin 5 → Bool) {m : Nat} (hm : 1 ≤ m) (hmn : (m + 2) * (3 + 1) < 2 ^ 31) {s : Solution} {u : Nat → Nat → Vec 5 ℝ}
    (hr : Line s.radial (m + 1) radius) (hq : Line s.polar (3 + 1) angle) (hu : Grid s.conserved m 3 u) :
    ∃ t, nextSolution onward inflow 2 z (6 / 5) (2 / 5) 1 s = .ok t ∧ t.radial = s.radial ∧ t.polar = s.polar ∧ ∃ v, Grid t.conserved m 3 v := by
  obtain ⟨D, e1, hD⟩ := hr.difference (by omega)
  obtain ⟨t, h, _, h1, h2, h3, _⟩ := stage onward (inflow s.time) 2 z (6 / 5) s ((radius (0 + 1) - radius 0) * (2 / 5)) (.inr rfl) hm (by omega) (.inr le_rfl) hmn u hr hq hu
    (fun i _ j hj => (wedge_pos i j hj).ne') _ _ _ _ ⟨fun _ _ _ _ => rfl, fun _ _ _ _ => rfl, fun _ _ _ _ => rfl, fun _ _ _ _ => rfl⟩
  refine ⟨t, ?_, h1, h2, _, h3⟩
  unfold nextSolution
  rw [e1, Outcome.bind_ok, hD.2 0 (by omega), Outcome.bind_ok]
  exact (if_pos rfl).trans h

/-- The hypotheses of `step_local` and `run_local` can be met by different gas: two steps of solutions that differ in the sixth row do not change the first. -/
example (z : Fin 5 → Bool) : ∃ s s' : Nat → Solution, s 0 = cells 6 (fun i _ _ => i) ∧ s' 0 = cells 6 (fun i _ _ => if i = 5 then 7 else i)
    ∧ (∀ k, k < 2 → nextSolution onward (fun _ _ => 0) 2 z (6 / 5) (2 / 5) 1 (s k) = .ok (s (k + 1)))
    ∧ (∀ k, k < 2 → nextSolution onward (fun _ _ => 0) 2 z (6 / 5) (2 / 5) 1 (s' k) = .ok (s' (k + 1)))
    ∧ ∃ v v', Grid (s 2).conserved 6 3 v ∧ Grid (s' 2).conserved 6 3 v' ∧ v 0 1 = v' 0 1 := by
  have run : ∀ u, ∃ s : Nat → Solution, s 0 = cells 6 u ∧ ∀ k, k < 2 → nextSolution onward (fun _ _ => 0) 2 z (6 / 5) (2 / 5) 1 (s k) = .ok (s (k + 1)) := by
    intro u
    obtain ⟨t, h, h1, h2, v, hv⟩ := onward_steps (fun _ _ => 0) z (by norm_num) (by norm_num) (cells_radial 6 u) (cells_polar 6 u) (cells_grid 6 u)
    obtain ⟨w, h', _⟩ := onward_steps (fun _ _ => 0) z (by norm_num) (by norm_num) (h1 ▸ cells_radial 6 u) (h2 ▸ cells_polar 6 u) hv
    refine ⟨fun k => if k = 0 then cells 6 u else if k = 1 then t else w, rfl, fun k hk => ?_⟩
    obtain rfl | rfl : k = 0 ∨ k = 1 := by omega
    · exact h
    · exact h'
  obtain ⟨s, h0, h⟩ := run fun i _ _ => i
  obtain ⟨s', h0', h'⟩ := run fun i _ _ => if i = 5 then 7 else i
  obtain ⟨v, v', hv, hv', ha⟩ := run_local (m := 6) (n := 3) (r := radius) (q := angle) (by norm_num) (by norm_num) (.inr le_rfl) (by norm_num) (h0 ▸ cells_radial 6 _) (h0 ▸ cells_polar 6 _)
    (h0 ▸ cells_grid 6 _) (h0' ▸ cells_radial 6 _) (h0' ▸ cells_polar 6 _) (h0' ▸ cells_grid 6 _) (by rw [h0, h0']; rfl) h h' 0 0 1
    (fun k hk l hl hd => by
      have h5 : k ≠ 5 := by
        unfold apart at hd
        rintro rfl
        change _ ≤ 4 at hd
        omega
      funext a
      exact (if_neg h5).symm)
    (fun _ _ _ _ => rfl)
  exact ⟨s, s', h0, h0', h, h', v, v', hv, hv', ha 0 (by norm_num) 1 (by norm_num) (by unfold apart; omega)⟩

/-- A wind at three fifths of the speed of light. -/
noncomputable def wind (d : ℝ) : Vec 5 ℝ := ![d, 3 / 4, 0, 0, d / 8]

theorem wind_found {d : ℝ} (hd : 1 ≤ d) (hd2 : d ≤ 8) : ∃ Q, (srhd 0).recover (Srhd.toConserved (wind d) (4 / 3)) = .ok Q ∧ Srhd.Physical Q
    ∧ 0 ≤ (Srhd.wavespeeds Q ⟨1, 0, 0⟩ (4 / 3)).1 := by
  have hP : Srhd.Physical (wind d) := ⟨by show 0 < d; linarith, by show 0 < d / 8; linarith⟩
  have hL : Srhd.lorentzFactor (wind d) = 5 / 4 := by
    rw [Srhd.lorentzFactor, Srhd.gammaBetaSquared]
    show Real.sqrt (1 + (3 / 4 * (3 / 4) + 0 * 0 + 0 * 0)) = _
    rw [show (1 + (3 / 4 * (3 / 4) + 0 * 0 + 0 * 0) : ℝ) = (5 / 4) ^ 2 by norm_num]
    exact Real.sqrt_sq (by norm_num)
  obtain ⟨k1, k2⟩ := Srhd.recover_accurate (wind d) hP (4 / 3) (by norm_num) (by norm_num) (by rw [hL]; norm_num) 0 (by rw [zero_mul]; exact hP.2.le)
  obtain ⟨Q, hQ⟩ := k2 (by
    show (4 / 3 - 1 : ℝ) ^ 49 * (d / 8) < _
    have : (4 / 3 - 1 : ℝ) ^ 49 * (d / 8) ≤ (4 / 3 - 1) ^ 49 * 1 := mul_le_mul_of_nonneg_left (by linarith) (by norm_num)
    refine this.trans_lt ?_
    norm_num)
  refine ⟨Q, hQ, (Srhd.recover_physical _ _ _ _ hQ).1, ?_⟩
  rw [outward_iff (Srhd.recover_physical _ _ _ _ hQ).1 _ (by unfold Srhd.UnitLength; norm_num) (by norm_num) (by norm_num)]
  obtain h | ⟨Q', h, a1, a2, a3, a4, c, b1, b2, b3, b4, b5⟩ := k1
  · rw [hQ] at h
    cases h
  · rw [hQ] at h
    injection h with h
    subst h
    change _ ≤ d / 8 at a2
    change d - _ ≤ _ at a3
    change _ = c * (3 / 4) at b1
    have h4 := (Srhd.recover_physical _ _ _ _ hQ).1.2
    have h0 := (Srhd.recover_physical _ _ _ _ hQ).1.1
    have e : UnitVec.project ⟨1, 0, 0⟩ (Q 1) (Q 2) (Q 3) = Q 1 := by
      unfold UnitVec.project
      ring
    have hE : 0 < Srhd.enthalpyDensity Q (4 / 3) := by
      unfold Srhd.enthalpyDensity
      norm_num
      positivity
    rw [e]
    refine ⟨by rw [b1]; linarith, ?_⟩
    unfold Srhd.soundSpeedSquared
    rw [one_sub_div hE.ne', ← mul_div_assoc]
    refine div_le_div_of_nonneg_right ?_ hE.le
    have hx : 9 / 16 ≤ Q 1 ^ 2 := by
      rw [b1]
      nlinarith
    have hb : 1 / 3 * Q 0 ≤ Srhd.enthalpyDensity Q (4 / 3) - 4 / 3 * Q 4 := by
      unfold Srhd.enthalpyDensity
      norm_num
      linarith
    have hq : 4 / 3 * Q 4 ≤ 9 / 16 * (1 / 3 * Q 0) := by
      norm_num at a3
      linarith
    have := mul_le_mul hx hb (by positivity) (by positivity)
    linarith

theorem wind_riemann (a : Fin 2) {P Q : Vec 5 ℝ} (hP : Srhd.Physical P) (hQ : Srhd.Physical Q) :
    (srhd 0).riemann a P Q = .ok (Srhd.hlle P Q (if a = 0 then ⟨1, 0, 0⟩ else ⟨0, 1, 0⟩) (4 / 3)) := by
  refine if_pos ⟨hP.1, hP.2.le, hQ.1, hQ.2.le, ne_of_lt ?_⟩
  exact Srhd.speeds_lt Q _ (by unfold Srhd.UnitLength; split_ifs <;> norm_num) hP (by norm_num) (by norm_num)

/-- A wind of a density that may depend on the radius. -/
noncomputable def blown (d : Nat → ℝ) (i j : Nat) : Vec 5 ℝ := fun a =>
  Srhd.toConserved (wind (d i)) (4 / 3) a * wedge (radius i) (radius (i + 1)) (angle j) (angle (j + 1))

theorem blown_density (d : Nat → ℝ) {i j : Nat} (hj : j < 3) :
    (fun a => blown d i j a / wedge (radius i) (radius (i + 1)) (angle j) (angle (j + 1))) = Srhd.toConserved (wind (d i)) (4 / 3) := by
  funext a
  exact mul_div_cancel_right₀ _ (wedge_pos i j hj).ne'

theorem blown_stage {d : Nat → ℝ} (hd : ∀ i, 1 ≤ d i ∧ d i ≤ 8) (z : Fin 5 → Bool) (m : Nat) (hm : 1 ≤ m) (hmn : (m + 2) * (3 + 1) < 2 ^ 31) (dt : ℝ) :
    ∃ t, advance (srhd 0) (fun _ => wind 1) 1 z (6 / 5) (cells m (blown d)) dt = .ok t := by
  choose Q h1 h2 _ using fun i => wind_found (hd i).1 (hd i).2
  have hw : Srhd.Physical (wind 1) := ⟨one_pos, by show (0 : ℝ) < 1 / 8; norm_num⟩
  have hc : ∀ k, Srhd.Physical (column (wind 1) m Q k) := by
    intro k
    unfold column
    split_ifs
    · exact hw
    · exact h2 _
  have hs : ∀ (N : Nat) (c : Nat → Vec 5 ℝ) (x : Nat), sides 1 z (6 / 5) N c x = (c x, c (x + 1)) := fun N c x => by simp [sides]
  obtain ⟨t, h, _⟩ := stage (srhd 0) (fun _ => wind 1) 1 z (6 / 5) (cells m (blown d)) dt (.inl rfl) hm (by norm_num) (.inl rfl) hmn _ (cells_radial m _) (cells_polar m _)
    (cells_grid m _) (fun i _ j hj => (wedge_pos i j hj).ne') (fun i _ => Q i)
    (fun x _ => Srhd.hlle (column (wind 1) m Q x) (column (wind 1) m Q (x + 1)) ⟨1, 0, 0⟩ (4 / 3)) (fun i _ => Srhd.hlle (Q i) (Q i) ⟨0, 1, 0⟩ (4 / 3))
    (fun i j => Srhd.sphericalSource (Q i) ((radius i + radius (i + 1)) / 2) (Real.tan (Real.pi / 2 - (angle j + angle (j + 1)) / 2)) (4 / 3))
    ⟨fun i _ j hj => by rw [blown_density d hj]; exact h1 i, fun x _ j _ => by rw [hs]; exact wind_riemann 0 (hc x) (hc (x + 1)),
      fun i _ j _ => by rw [hs]; exact wind_riemann 1 (h2 i) (h2 i), fun i _ j _ => if_neg (ne_of_gt (by unfold radius; positivity))⟩
  exact ⟨t, h⟩

/-- The hypotheses of `supersonic_stage` can be met: behind a cell of a wind the density changes, and the cell does not notice. -/
example (z : Fin 5 → Bool) (dt : ℝ) : ∃ t t' v v', advance (srhd 0) (fun _ => wind 1) 1 z (6 / 5) (cells 4 (blown fun _ => 2)) dt = .ok t
    ∧ advance (srhd 0) (fun _ => wind 1) 1 z (6 / 5) (cells 4 (blown fun i => if i ≤ 1 then 2 else 8)) dt = .ok t'
    ∧ Grid t.conserved 4 3 v ∧ Grid t'.conserved 4 3 v' ∧ v 1 1 = v' 1 1 := by
  have hd : ∀ i : Nat, (1 : ℝ) ≤ (if i ≤ 1 then 2 else 8) ∧ (if i ≤ 1 then 2 else 8 : ℝ) ≤ 8 := by
    intro i
    split_ifs <;> norm_num
  have hout : ∀ d : Nat → ℝ, (∀ i, 1 ≤ d i ∧ d i ≤ 8) → ∀ k, Outward 0 (wedge (radius k) (radius (k + 1)) (angle 1) (angle (1 + 1))) (blown d k 1) := by
    intro d hd k P hP
    rw [blown_density d (by norm_num)] at hP
    obtain ⟨Q, h1, _, h3⟩ := wind_found (hd k).1 (hd k).2
    rw [h1] at hP
    injection hP with hP
    rw [← hP]
    exact h3
  have h2 : ∀ _i : Nat, (1 : ℝ) ≤ 2 ∧ (2 : ℝ) ≤ 8 := fun _ => by norm_num
  obtain ⟨t, h⟩ := blown_stage h2 z 4 (by norm_num) (by norm_num) dt
  obtain ⟨t', h'⟩ := blown_stage hd z 4 (by norm_num) (by norm_num) dt
  have hsame : ∀ k, k ≤ 1 → ∀ l, blown (fun _ => 2) k l = blown (fun i => if i ≤ 1 then 2 else 8) k l := by
    intro k hk l
    unfold blown
    beta_reduce
    rw [if_pos hk]
  obtain ⟨v, v', hv, hv', e⟩ := supersonic_stage (i := 1) (j := 1) (by norm_num) (by norm_num) (by norm_num) (cells_radial 4 _) (cells_polar 4 _) (cells_grid 4 _) (cells_radial 4 _)
    (cells_polar 4 _) (cells_grid 4 _) h h' (by norm_num) (by norm_num) (fun k _ => ⟨hout _ h2 k, hout _ hd k⟩)
    ((outward_iff ⟨one_pos, by show (0 : ℝ) < 1 / 8; norm_num⟩ _ (by unfold Srhd.UnitLength; norm_num) (by norm_num) (by norm_num)).2 (by
      have e : UnitVec.project ⟨1, 0, 0⟩ (wind 1 1) (wind 1 2) (wind 1 3) = 3 / 4 := by
        show 3 / 4 * 1 + 0 * 0 + 0 * 0 = (3 / 4 : ℝ)
        norm_num
      have e' : Srhd.soundSpeedSquared (wind 1) (4 / 3) = 1 / 9 := by
        show 4 / 3 * (1 / 8) / (1 + 1 / 8 * (1 + 1 / (4 / 3 - 1))) = (1 / 9 : ℝ)
        norm_num
      rw [e, e']
      norm_num)) (fun k hk => hsame k hk 1) (fun l _ _ _ => hsame 1 le_rfl l) rfl
  exact ⟨t, t', v, v', h, h', hv, hv', e⟩

end Example

end Verif.Cloud
