import Verif.Spec.SedovDouble
import Verif.Lemmas.SedovBy
import Verif.Lemmas.Double
import Verif.Props.DoubleRuns

/-!
# C136: mass and energy of the Sedov program in double precision
-/

namespace Verif.Sedov

open Verif.Nd Verif.Double Verif.Tree

variable {R : Rounding} {m n : Nat} {P : Type} [Inhabited P] {cube : Dbl R → Dbl R} {H : Hydro m (Dbl R) P} {cfl : Dbl R} {r : Nat → Dbl R}

theorem cellVolumesDouble_line {A : Arr 1 (Dbl R)} (h : Line A (n + 1) r) (hn : n + 1 < 2 ^ 64) :
    ∃ V, cellVolumesDouble cube A = .ok V ∧ Line V n (fun k => (cube (r (k + 1)) - cube (r k)) / Dbl.three) := by
  obtain ⟨Z, e, hZ⟩ := h.zipAdjacent2 hn
  refine ⟨_, ?_, hZ.map fun x => (cube x.2 - cube x.1) / Dbl.three⟩
  unfold cellVolumesDouble
  rw [e, Outcome.map_ok]

theorem mul_zero_left (x : Dbl R) : (0 : Dbl R) * x = 0 := by
  apply Dbl.ext
  show R.rnd ((0 : Dbl R).val * x.val) = (0 : Dbl R).val
  rw [Dbl.zero_val, zero_mul]
  exact R.rnd_double isDouble_zero

theorem add_zero_right (x : Dbl R) : x + 0 = x := by
  apply Dbl.ext
  rw [Dbl.add_val, Dbl.zero_val, add_zero]
  exact R.rnd_double x.isDouble

/-- Rounding in one zone: the difference of two numbers, times the step, added to the content. -/
theorem zone_error (u g g' dt : Dbl R) :
    |(u + (g' - g) * dt).val - u.val - dt.val * (g'.val - g.val)| ≤ (|u.val| + |(u + (g' - g) * dt).val|) / 2 ^ 51 + 2 ^ (-1074 : ℤ) := by
  have e1 := R.error_sub g'.isDouble g.isDouble
  rw [← Dbl.sub_val] at e1
  set d := g' - g with hd
  have e2 : |(d * dt).val - d.val * dt.val| ≤ |d.val * dt.val| / 2 ^ 53 + 2 ^ (-1075 : ℤ) := by
    have hp : (0 : ℝ) < 2 ^ (-1075 : ℤ) := by positivity
    rcases R.error (d.val * dt.val) with h | ⟨_, h⟩
    · exact le_trans h (by linarith)
    · exact le_trans h (by have := abs_nonneg (d.val * dt.val); linarith [div_nonneg this (by norm_num : (0 : ℝ) ≤ 2 ^ 53)])
  have hη : (2 : ℝ) ^ (-1074 : ℤ) = 2 * 2 ^ (-1075 : ℤ) := by
    rw [show (-1074 : ℤ) = -1075 + 1 by norm_num, zpow_add₀ two_ne_zero]
    ring
  rw [hη]
  have hη0 : (0 : ℝ) < 2 ^ (-1075 : ℤ) := by positivity
  generalize (2 : ℝ) ^ (-1075 : ℤ) = η at *
  set w := d * dt with hw
  have e3 := R.error_add u.isDouble w.isDouble
  rw [← Dbl.add_val] at e3
  set u' := u + w with hu'
  -- sizes
  have a3 : |u.val + w.val| ≤ |u'.val| + |u'.val - (u.val + w.val)| := by
    have := abs_sub_abs_le_abs_sub (u.val + w.val) u'.val
    rw [abs_sub_comm] at this
    linarith
  have a4 : |w.val| ≤ |u.val| + |u.val + w.val| := by
    have e : |w.val| = |(u.val + w.val) + -u.val| := by congr 1; ring
    rw [e]
    refine (abs_add_le _ _).trans ?_
    rw [abs_neg]
    linarith
  have a5 : |d.val * dt.val| ≤ |w.val| + |w.val - d.val * dt.val| := by
    have := abs_sub_abs_le_abs_sub (d.val * dt.val) w.val
    rw [abs_sub_comm] at this
    linarith
  have e1' : |dt.val * (d.val - (g'.val - g.val))| ≤ |dt.val * (g'.val - g.val)| / 2 ^ 53 := by
    rw [abs_mul, abs_mul, mul_div_assoc]
    exact mul_le_mul_of_nonneg_left e1 (abs_nonneg _)
  have a6 : |dt.val * (g'.val - g.val)| ≤ |d.val * dt.val| + |dt.val * (d.val - (g'.val - g.val))| := by
    have : dt.val * (g'.val - g.val) = d.val * dt.val - dt.val * (d.val - (g'.val - g.val)) := by ring
    rw [this]
    exact abs_sub _ _
  have split : u'.val - u.val - dt.val * (g'.val - g.val)
      = (u'.val - (u.val + w.val)) + (w.val - d.val * dt.val) + dt.val * (d.val - (g'.val - g.val)) := by ring
  rw [split]
  refine (abs_add_three _ _ _).trans ?_
  generalize |u'.val - (u.val + w.val)| = E3 at *
  generalize |w.val - d.val * dt.val| = E2 at *
  generalize |dt.val * (d.val - (g'.val - g.val))| = E1 at *
  have p1 := abs_nonneg u.val
  have p2 := abs_nonneg u'.val
  generalize |u.val| = A at *
  generalize |u'.val| = B at *
  generalize |u.val + w.val| = C at *
  generalize |w.val| = D at *
  generalize |d.val * dt.val| = E at *
  generalize |dt.val * (g'.val - g.val)| = G at *
  linarith

/-- **C136.** A step that succeeds changes the sum of a quantity without source terms by what flows in through the ends, up to one part in 2^51 of the
contents before and after, and the smallest number in each zone. Fluxes between zones, however large or wrong, do not matter. -/
theorem step_budget_double (a : Fin m) (hsource : ∀ p x S, H.source p x = .ok S → S a = 0) (h1 : 1 ≤ n) (hn : n < 2 ^ 31)
    {st st' : State m (Dbl R)} {u : Nat → Vec m (Dbl R)} (hr : Line st.vertices (n + 1) r) (hu : Line st.conserved n u)
    (h : nextSolutionDouble cube H cfl st = .ok st') :
    st'.vertices = st.vertices ∧ st'.time = st.time + cfl * (r 1 - r 0) ∧
    ∃ u' f0 fn, Line st'.conserved n u' ∧ EndFluxes cube H n r u f0 fn ∧
      |total n a u' - total n a u - inflow a n r (cfl * (r 1 - r 0)) f0 fn| ≤ (size n a u + size n a u') / 2 ^ 51 + n * 2 ^ (-1074 : ℤ) := by
  obtain ⟨x, p, F, S, hx, hp, h0, -, hl, hS, hv, ht, hc⟩ := stepBy_inv h1 hn hr hu (cellVolumesDouble_line hr (by omega)) h
  have hx' : ∀ k, k < n → x k = fun b => u k b / ((cube (r (k + 1)) - cube (r k)) / Dbl.three) := by
    intro k hk
    have := hx k hk
    unfold divideVecDouble at this
    split at this
    · cases this
    · exact (Outcome.ok.inj this).symm
  refine ⟨hv, ht, _, F 0, F n, hc, ⟨p 0, p (n - 1), ?_, ?_, h0, hl⟩, ?_⟩
  · have := hp 0 (by omega)
    rwa [hx' 0 (by omega)] at this
  · have := hp (n - 1) (by omega)
    rwa [hx' (n - 1) (by omega)] at this
  set dt := cfl * (r 1 - r 0) with hdt
  set G : Nat → Dbl R := fun k => F k a * -(r k * r k) with hG
  set u' : Nat → Vec m (Dbl R) := fun k => u k + scale (scale (F (k + 1)) (-(r (k + 1) * r (k + 1))) - scale (F k) (-(r k * r k)) +
    scale (S k) ((cube (r (k + 1)) - cube (r k)) / Dbl.three)) dt with hu'
  have hz : ∀ k, k < n → u' k a = u k a + (G (k + 1) - G k) * dt := by
    intro k hk
    have hs : (S k a : Dbl R) * ((cube (r (k + 1)) - cube (r k)) / Dbl.three) = 0 := by
      rw [hsource _ _ _ (hS k hk), mul_zero_left]
    show u k a + ((G (k + 1) - G k) + S k a * ((cube (r (k + 1)) - cube (r k)) / Dbl.three)) * dt = _
    rw [hs, add_zero_right]
  have tel : dt.val * ((G n).val - (G 0).val) = ∑ k ∈ Finset.range n, dt.val * ((G (k + 1)).val - (G k).val) := by
    rw [← Finset.mul_sum, Finset.sum_range_sub fun k => (G k).val]
  have e : total n a u' - total n a u - inflow a n r dt (F 0) (F n)
      = ∑ k ∈ Finset.range n, ((u' k a).val - (u k a).val - dt.val * ((G (k + 1)).val - (G k).val)) := by
    rw [Finset.sum_sub_distrib, Finset.sum_sub_distrib, ← tel]
    rfl
  rw [e]
  refine (Finset.abs_sum_le_sum_abs _ _).trans ?_
  have hb : ∀ k ∈ Finset.range n, |(u' k a).val - (u k a).val - dt.val * ((G (k + 1)).val - (G k).val)|
      ≤ (|(u k a).val| + |(u' k a).val|) / 2 ^ 51 + 2 ^ (-1074 : ℤ) := by
    intro k hk
    rw [hz k (Finset.mem_range.1 hk)]
    exact zone_error _ _ _ _
  refine (Finset.sum_le_sum hb).trans (le_of_eq ?_)
  rw [Finset.sum_add_distrib, Finset.sum_const, Finset.card_range, nsmul_eq_mul, ← Finset.sum_div, Finset.sum_add_distrib]
  rfl

/-- **C136.** In a run the errors of the steps add up at most. -/
theorem run_budget_double (a : Fin m) (hsource : ∀ p x S, H.source p x = .ok S → S a = 0) (h1 : 1 ≤ n) (hn : n < 2 ^ 31)
    (N : Nat) {s : Nat → State m (Dbl R)} {u₀ : Nat → Vec m (Dbl R)} (hr : Line (s 0).vertices (n + 1) r) (hu : Line (s 0).conserved n u₀)
    (h : ∀ j, j < N → nextSolutionDouble cube H cfl (s j) = .ok (s (j + 1))) :
    ∃ (u : Nat → Nat → Vec m (Dbl R)) (f0 fn : Nat → Vec m (Dbl R)), u 0 = u₀ ∧ (∀ j, j ≤ N → Line (s j).conserved n (u j)) ∧
      (∀ j, j < N → EndFluxes cube H n r (u j) (f0 j) (fn j)) ∧
      |total n a (u N) - total n a (u 0) - ∑ j ∈ Finset.range N, inflow a n r (cfl * (r 1 - r 0)) (f0 j) (fn j)|
        ≤ (∑ j ∈ Finset.range N, (size n a (u j) + size n a (u (j + 1)))) / 2 ^ 51 + N * (n * 2 ^ (-1074 : ℤ)) ∧
      ∀ M, (∀ j, j ≤ N → size n a (u j) ≤ M) →
        |total n a (u N) - total n a (u 0) - ∑ j ∈ Finset.range N, inflow a n r (cfl * (r 1 - r 0)) (f0 j) (fn j)|
          ≤ N * (M / 2 ^ 50 + n * 2 ^ (-1074 : ℤ)) := by
  suffices hs : ∃ (u : Nat → Nat → Vec m (Dbl R)) (f0 fn : Nat → Vec m (Dbl R)), u 0 = u₀ ∧ (∀ j, j ≤ N → Line (s j).conserved n (u j)) ∧
      (∀ j, j < N → EndFluxes cube H n r (u j) (f0 j) (fn j)) ∧
      |total n a (u N) - total n a (u 0) - ∑ j ∈ Finset.range N, inflow a n r (cfl * (r 1 - r 0)) (f0 j) (fn j)|
        ≤ (∑ j ∈ Finset.range N, (size n a (u j) + size n a (u (j + 1)))) / 2 ^ 51 + N * (n * 2 ^ (-1074 : ℤ)) by
    obtain ⟨u, f0, fn, a1, a2, a3, a4⟩ := hs
    refine ⟨u, f0, fn, a1, a2, a3, a4, fun M hM => a4.trans ?_⟩
    have : ∑ j ∈ Finset.range N, (size n a (u j) + size n a (u (j + 1))) ≤ ∑ j ∈ Finset.range N, (M + M) :=
      Finset.sum_le_sum fun j hj => by
        have := Finset.mem_range.1 hj
        exact add_le_add (hM j (by omega)) (hM (j + 1) (by omega))
    rw [Finset.sum_const, Finset.card_range, nsmul_eq_mul] at this
    rw [mul_add]
    gcongr
    rw [div_le_iff₀ (by positivity)]
    refine this.trans (le_of_eq ?_)
    ring
  have main : ∀ N, (∀ j, j < N → nextSolutionDouble cube H cfl (s j) = .ok (s (j + 1))) → (s N).vertices = (s 0).vertices ∧
      ∃ (u : Nat → Nat → Vec m (Dbl R)) (f0 fn : Nat → Vec m (Dbl R)), u 0 = u₀ ∧ (∀ j, j ≤ N → Line (s j).conserved n (u j)) ∧
      (∀ j, j < N → EndFluxes cube H n r (u j) (f0 j) (fn j)) ∧
      |total n a (u N) - total n a (u 0) - ∑ j ∈ Finset.range N, inflow a n r (cfl * (r 1 - r 0)) (f0 j) (fn j)|
        ≤ (∑ j ∈ Finset.range N, (size n a (u j) + size n a (u (j + 1)))) / 2 ^ 51 + N * (n * 2 ^ (-1074 : ℤ)) := by
    intro N
    induction N with
    | zero =>
      intro _
      refine ⟨rfl, fun _ => u₀, fun _ => u₀ 0, fun _ => u₀ 0, rfl, fun j hj => ?_, fun j hj => absurd hj (by omega), ?_⟩
      · obtain rfl : j = 0 := by omega
        exact hu
      · simp
    | succ N ih =>
      intro h
      obtain ⟨hv, u, f0, fn, a1, a2, a3, a4⟩ := ih fun j hj => h j (by omega)
      obtain ⟨b1, -, u', g0, gn, b2, b3, b4⟩ := step_budget_double a hsource h1 hn (hv ▸ hr) (a2 N le_rfl) (h N (by omega))
      have old : ∀ j, j < N → ((if j = N then g0 else f0 j) = f0 j ∧ (if j = N then gn else fn j) = fn j) := fun j hj => by
        rw [if_neg (by omega), if_neg (by omega)]
        exact ⟨rfl, rfl⟩
      have oldu : ∀ j, j ≤ N → (if j = N + 1 then u' else u j) = u j := fun j hj => if_neg (by omega)
      refine ⟨b1.trans hv, fun j => if j = N + 1 then u' else u j, fun j => if j = N then g0 else f0 j, fun j => if j = N then gn else fn j, ?_, fun j hj => ?_,
        fun j hj => ?_, ?_⟩
      · beta_reduce
        rw [if_neg (by omega), a1]
      · beta_reduce
        by_cases hj' : j = N + 1
        · rw [if_pos hj', hj']
          exact b2
        · rw [if_neg hj']
          exact a2 j (by omega)
      · beta_reduce
        rw [oldu j (by omega)]
        by_cases hj' : j = N
        · rw [if_pos hj', if_pos hj', hj']
          exact b3
        · rw [if_neg hj', if_neg hj']
          exact a3 j (by omega)
      · have s1 : ∑ j ∈ Finset.range N, inflow a n r (cfl * (r 1 - r 0)) (if j = N then g0 else f0 j) (if j = N then gn else fn j)
            = ∑ j ∈ Finset.range N, inflow a n r (cfl * (r 1 - r 0)) (f0 j) (fn j) :=
          Finset.sum_congr rfl fun j hj => by
            obtain ⟨x, y⟩ := old j (Finset.mem_range.1 hj)
            rw [x, y]
        have s2 : ∑ j ∈ Finset.range N, (size n a (if j = N + 1 then u' else u j) + size n a (if j + 1 = N + 1 then u' else u (j + 1)))
            = ∑ j ∈ Finset.range N, (size n a (u j) + size n a (u (j + 1))) :=
          Finset.sum_congr rfl fun j hj => by
            have := Finset.mem_range.1 hj
            rw [oldu j (by omega), oldu (j + 1) (by omega)]
        beta_reduce
        rw [Finset.sum_range_succ, Finset.sum_range_succ, s1, s2, if_pos rfl, if_pos rfl, if_pos rfl, oldu 0 (by omega), oldu N le_rfl]
        have key : ∀ T2 T1 T0 S g : ℝ, T2 - T0 - (S + g) = (T1 - T0 - S) + (T2 - T1 - g) := fun _ _ _ _ _ => by ring
        rw [key _ (total n a (u N))]
        refine (abs_add_le _ _).trans ((add_le_add a4 b4).trans (le_of_eq ?_))
        push_cast
        ring
  exact (main N h).2

/-! ### An example -/

/-- A literal. -/
noncomputable def lit (R : Rounding) (a e : ℤ) (ha : |a| < 2 ^ 53) (he : -1074 ≤ e) : Dbl R := ⟨a * 2 ^ e, a, e, ha, he, rfl⟩

theorem near_eq {x : ℝ} (c : Dbl R) (h : x = c.val) : Dbl.near R x = c := by
  apply Dbl.ext
  show R.rnd x = c.val
  rw [h, R.rnd_double c.isDouble]

/-- A gas that flows inwards, slowly, where dense gas meets thin gas. -/
noncomputable def seep (R : Rounding) : Hydro 1 (Dbl R) Bool where
  recover v := .ok (decide (Dbl.half < v 0))
  riemann p q := .ok fun _ => if p = q then 0 else lit R (-1) (-64) (by norm_num) (by norm_num)
  source _ _ := .ok fun _ => 0
  mirror p := p

/-- The radii 0, 3 and 6. -/
noncomputable def threes (R : Rounding) (k : Nat) : Dbl R :=
  if k = 0 then 0 else if k = 1 then lit R 3 0 (by norm_num) (by norm_num) else lit R 6 0 (by norm_num) (by norm_num)

/-- Nine units of mass inside, very little outside. -/
noncomputable def nine (R : Rounding) (k : Nat) : Vec 1 (Dbl R) :=
  fun _ => if k = 0 then lit R 9 0 (by norm_num) (by norm_num) else lit R 63 (-63) (by norm_num) (by norm_num)

noncomputable def nineState (R : Rounding) : State 1 (Dbl R) :=
  ⟨0, ⟨fun _ => 3, fun i => .ok (threes R (i 0))⟩, ⟨fun _ => 2, fun i => .ok (nine R (i 0))⟩⟩

/-- The third power, rounded. -/
noncomputable def power (R : Rounding) (x : Dbl R) : Dbl R := Dbl.near R (x.val ^ 3)

/-- A step of this gas. -/
theorem seep_step (R : Rounding) : ∃ (st' : State 1 (Dbl R)) (u' : Nat → Vec 1 (Dbl R)) (f0 fn : Vec 1 (Dbl R)),
    nextSolutionDouble (power R) (seep R) Dbl.half (nineState R) = .ok st' ∧ Line st'.conserved 2 u' ∧ EndFluxes (power R) (seep R) 2 (threes R) (nine R) f0 fn ∧
      inflow 0 2 (threes R) (Dbl.half * (threes R 1 - threes R 0)) f0 fn = 0 ∧ total 2 0 u' < total 2 0 (nine R) := by
  have c0 : power R (threes R 0) = 0 := near_eq _ (by simp [threes, Dbl.zero_val])
  have c1 : power R (threes R 1) = lit R 27 0 (by norm_num) (by norm_num) := near_eq _ (by simp [threes, lit]; norm_num)
  have c2 : power R (threes R 2) = lit R 216 0 (by norm_num) (by norm_num) := near_eq _ (by simp [threes, lit]; norm_num)
  have v0 : (power R (threes R 1) - power R (threes R 0)) / Dbl.three = lit R 9 0 (by norm_num) (by norm_num) := by
    have : power R (threes R 1) - power R (threes R 0) = lit R 27 0 (by norm_num) (by norm_num) := by
      rw [c1, c0]
      exact near_eq _ (by simp [lit, Dbl.zero_val])
    rw [this]
    exact near_eq _ (by simp [lit, Dbl.three]; norm_num)
  have v1 : (power R (threes R 2) - power R (threes R 1)) / Dbl.three = lit R 63 0 (by norm_num) (by norm_num) := by
    have : power R (threes R 2) - power R (threes R 1) = lit R 189 0 (by norm_num) (by norm_num) := by
      rw [c1, c2]
      exact near_eq _ (by simp [lit]; norm_num)
    rw [this]
    exact near_eq _ (by simp [lit, Dbl.three]; norm_num)
  have hdt : (Dbl.half : Dbl R) * (threes R 1 - threes R 0) = lit R 3 (-1) (by norm_num) (by norm_num) := by
    have : threes R 1 - threes R 0 = lit R 3 0 (by norm_num) (by norm_num) := near_eq _ (by simp [threes, lit, Dbl.zero_val])
    rw [this]
    exact near_eq _ (by simp [lit, Dbl.half]; norm_num)
  have hr : Line (nineState R).vertices 3 (threes R) := ⟨rfl, fun _ _ => rfl⟩
  have hu : Line (nineState R).conserved 2 (nine R) := ⟨rfl, fun _ _ => rfl⟩
  have d0 : (nine R 0 0 : Dbl R) / lit R 9 0 (by norm_num) (by norm_num) = lit R 1 0 (by norm_num) (by norm_num) :=
    near_eq _ (by simp [lit, nine])
  have d1 : (nine R 1 0 : Dbl R) / lit R 63 0 (by norm_num) (by norm_num) = lit R 1 (-63) (by norm_num) (by norm_num) :=
    near_eq _ (by simp [lit, nine])
  set V : Nat → Dbl R := fun k => (power R (threes R (k + 1)) - power R (threes R k)) / Dbl.three with hV
  have hx : ∀ k, k < 2 → divideVecDouble (nine R k) (V k) = .ok fun a => nine R k a / V k := by
    intro k hk
    have : V k ≠ 0 := by
      intro h
      have h' := congrArg Dbl.val h
      rw [Dbl.zero_val] at h'
      interval_cases k
      · rw [show V 0 = _ from v0] at h'
        simp [lit] at h'
      · rw [show V 1 = _ from v1] at h'
        simp [lit] at h'
    unfold divideVecDouble
    rw [if_neg this]
  have hp : ∀ k, k < 2 → (seep R).recover (fun a => nine R k a / V k) = .ok (decide (k = 0)) := by
    intro k hk
    show Outcome.ok (decide (Dbl.half < nine R k 0 / V k)) = _
    interval_cases k
    · rw [show V 0 = _ from v0, d0]
      congr 1
      rw [decide_eq_decide, Dbl.lt_iff]
      simp [lit, Dbl.half]
      norm_num
    · rw [show V 1 = _ from v1, d1]
      congr 1
      rw [decide_eq_decide, Dbl.lt_iff]
      simp [lit, Dbl.half]
      norm_num
  have hF : ∀ p q : Bool, (seep R).riemann p q = .ok fun _ => if p = q then 0 else lit R (-1) (-64) (by norm_num) (by norm_num) := fun _ _ => rfl
  set F : Nat → Vec 1 (Dbl R) := fun k _ => if k = 1 then lit R (-1) (-64) (by norm_num) (by norm_num) else 0 with hFdef
  obtain ⟨st', e, -, hc⟩ := stepBy_of (volumes := cellVolumesDouble (power R)) (half := Dbl.half) (over := divideVecDouble) (H := seep R) (cfl := Dbl.half)
    (F := F) (S := fun _ _ => 0) (by norm_num) (by norm_num) hr hu (cellVolumesDouble_line hr (by norm_num)) hx hp
    (by rw [hF]; rfl) (fun k h0 h2 => by obtain rfl : k = 1 := by omega
                                         rw [hF]; rfl) (by rw [hF]; rfl) (fun _ _ => rfl)
  have g0 : ∀ x : Dbl R, (0 : Dbl R) * x = 0 := mul_zero_left
  have g1 : lit R (-1) (-64) (by norm_num) (by norm_num) * -(threes R 1 * threes R 1) = lit R 9 (-64) (by norm_num) (by norm_num) := by
    have : threes R 1 * threes R 1 = lit R 9 0 (by norm_num) (by norm_num) := near_eq _ (by simp [threes, lit]; norm_num)
    rw [this]
    refine near_eq _ ?_
    show _ * -(_ : ℝ) = _
    simp [lit]
    norm_num
  have l0 : lit R 9 (-64) (by norm_num) (by norm_num) - 0 = lit R 9 (-64) (by norm_num) (by norm_num) :=
    near_eq _ (by rw [Dbl.zero_val, sub_zero])
  have l1 : 0 - lit R 9 (-64) (by norm_num) (by norm_num) = lit R (-9) (-64) (by norm_num) (by norm_num) :=
    near_eq _ (by rw [Dbl.zero_val, zero_sub]; simp [lit])
  have w0 : lit R 9 (-64) (by norm_num) (by norm_num) * lit R 3 (-1) (by norm_num) (by norm_num) = lit R 27 (-65) (by norm_num) (by norm_num) :=
    near_eq _ (by simp [lit]; norm_num)
  have w1 : lit R (-9) (-64) (by norm_num) (by norm_num) * lit R 3 (-1) (by norm_num) (by norm_num) = lit R (-27) (-65) (by norm_num) (by norm_num) :=
    near_eq _ (by simp [lit]; norm_num)
  have n0 : lit R 9 0 (by norm_num) (by norm_num) + lit R 27 (-65) (by norm_num) (by norm_num) = lit R 9 0 (by norm_num) (by norm_num) :=
    clock_stalls _ _ (by simp [lit]) (by simp [lit]; norm_num)
  have n1 : lit R 63 (-63) (by norm_num) (by norm_num) + lit R (-27) (-65) (by norm_num) (by norm_num) = lit R 225 (-65) (by norm_num) (by norm_num) :=
    near_eq _ (by simp [lit]; norm_num)
  refine ⟨st', _, F 0, F 2, e, hc, ⟨true, false, hp 0 (by norm_num), hp 1 (by norm_num), ?_, ?_⟩, ?_, ?_⟩
  · rw [hF]; rfl
  · rw [hF]; rfl
  · unfold inflow
    show _ * (R.rnd ((0 : Dbl R).val * _) - R.rnd ((0 : Dbl R).val * _)) = 0
    rw [Dbl.zero_val, zero_mul, zero_mul, sub_self, mul_zero]
  · unfold total
    rw [Finset.sum_range_succ, Finset.sum_range_succ, Finset.sum_range_succ, Finset.sum_range_succ, Finset.sum_range_zero]
    show (0 : ℝ) + (lit R 9 0 (by norm_num) (by norm_num) + (lit R (-1) (-64) (by norm_num) (by norm_num) * -(threes R 1 * threes R 1) - (0 : Dbl R) * _ + (0 : Dbl R) * _)
        * (Dbl.half * (threes R 1 - threes R 0))).val +
      (lit R 63 (-63) (by norm_num) (by norm_num) + ((0 : Dbl R) * _ - lit R (-1) (-64) (by norm_num) (by norm_num) * -(threes R 1 * threes R 1) + (0 : Dbl R) * _)
        * (Dbl.half * (threes R 1 - threes R 0))).val < 0 + (lit R 9 0 (by norm_num) (by norm_num)).val + (lit R 63 (-63) (by norm_num) (by norm_num)).val
    rw [g1, g0, g0, g0, g0, l0, l1, add_zero_right, add_zero_right, hdt, w0, w1, n0, n1]
    simp [lit]
    norm_num

/-- **C136.** The sum is not kept exactly: with nothing flowing through the ends, what leaves the outer zone is lost when it is added to the inner one,
whichever way numbers are rounded to nearest. -/
theorem exact_budget_violated (R : Rounding) : ∃ (H : Hydro 1 (Dbl R) Bool) (st st' : State 1 (Dbl R)) (r : Nat → Dbl R) (u u' : Nat → Vec 1 (Dbl R))
    (f0 fn : Vec 1 (Dbl R)), (∀ p x S, H.source p x = .ok S → S 0 = 0) ∧ Line st.vertices 3 r ∧ Line st.conserved 2 u ∧
      nextSolutionDouble (power R) H Dbl.half st = .ok st' ∧ Line st'.conserved 2 u' ∧ EndFluxes (power R) H 2 r u f0 fn ∧
      inflow 0 2 r (Dbl.half * (r 1 - r 0)) f0 fn = 0 ∧ total 2 0 u' < total 2 0 u := by
  obtain ⟨st', u', f0, fn, h⟩ := seep_step R
  exact ⟨seep R, nineState R, st', threes R, nine R, u', f0, fn, fun p x S h => by cases h; rfl, ⟨rfl, fun _ _ => rfl⟩, ⟨rfl, fun _ _ => rfl⟩, h⟩

/-- The step of `exact_budget_violated` meets the hypotheses of `step_budget_double`: the loss is within the bound. -/
example (R : Rounding) : ∃ (H : Hydro 1 (Dbl R) Bool) (st st' : State 1 (Dbl R)) (u u' : Nat → Vec 1 (Dbl R)),
    nextSolutionDouble (power R) H Dbl.half st = .ok st' ∧ total 2 0 u' < total 2 0 u ∧
    |total 2 0 u' - total 2 0 u| ≤ (size 2 0 u + size 2 0 u') / 2 ^ 51 + (2 : Nat) * 2 ^ (-1074 : ℤ) := by
  obtain ⟨H, st, st', r, u, u', f0, fn, hs, hr, hu, h, hu', hf, h0, hlt⟩ := exact_budget_violated R
  obtain ⟨-, -, v, g0, gn, hv, hg, hb⟩ := step_budget_double 0 hs (by norm_num) (by norm_num) hr hu h
  obtain ⟨p, q, a1, a2, a3, a4⟩ := hf
  obtain ⟨p', q', b1, b2, b3, b4⟩ := hg
  obtain rfl := Outcome.ok.inj (a1.symm.trans b1)
  obtain rfl := Outcome.ok.inj (a2.symm.trans b2)
  obtain rfl := Outcome.ok.inj (a3.symm.trans b3)
  obtain rfl := Outcome.ok.inj (a4.symm.trans b4)
  have e : ∀ k, k < 2 → v k = u' k := fun k hk => line_unique hv hu' k hk
  have e1 : total 2 0 v = total 2 0 u' := Finset.sum_congr rfl fun k hk => by rw [e k (Finset.mem_range.1 hk)]
  have e2 : size 2 0 v = size 2 0 u' := Finset.sum_congr rfl fun k hk => by rw [e k (Finset.mem_range.1 hk)]
  rw [h0, sub_zero, e1, e2] at hb
  exact ⟨H, st, st', u, u', h, hlt, hb⟩

/-- A run of this step meets the hypotheses of `run_budget_double`. -/
example (R : Rounding) : ∃ (H : Hydro 1 (Dbl R) Bool) (s : Nat → State 1 (Dbl R)) (u : Nat → Nat → Vec 1 (Dbl R)) (f0 fn : Nat → Vec 1 (Dbl R)),
    (∀ j, j < 1 → nextSolutionDouble (power R) H Dbl.half (s j) = .ok (s (j + 1))) ∧
    ∀ M, (∀ j, j ≤ 1 → size 2 0 (u j) ≤ M) → |total 2 0 (u 1) - total 2 0 (u 0) - ∑ j ∈ Finset.range 1,
      inflow 0 2 (threes R) (Dbl.half * (threes R 1 - threes R 0)) (f0 j) (fn j)| ≤ (1 : Nat) * (M / 2 ^ 50 + (2 : Nat) * 2 ^ (-1074 : ℤ)) := by
  obtain ⟨st', -, -, -, h, -⟩ := seep_step R
  have hs : ∀ j, j < 1 → nextSolutionDouble (power R) (seep R) Dbl.half (if j = 0 then nineState R else st') =
      .ok (if j + 1 = 0 then nineState R else st') := by
    intro j hj
    rw [if_pos (by omega), if_neg (by omega), h]
  obtain ⟨u, f0, fn, -, -, -, -, hb⟩ := run_budget_double (cube := power R) (H := seep R) (cfl := Dbl.half) (r := threes R) (n := 2) 0
    (fun p x S h => by cases h; rfl) (by norm_num) (by norm_num) 1 (s := fun j => if j = 0 then nineState R else st') (u₀ := nine R)
    ⟨rfl, fun _ _ => rfl⟩ ⟨rfl, fun _ _ => rfl⟩ hs
  exact ⟨seep R, fun j => if j = 0 then nineState R else st', u, f0, fn, hs, hb⟩

end Verif.Sedov
